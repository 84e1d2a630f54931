/- Model of `blazert/datatypes.h` and `blazert/ray.h`. -/
import Verif.Vec

set_option autoImplicit false

namespace Blazert

/-! ### `struct Stack` (`blazert/datatypes.h:61-69`) -/

/-- `Stack<unsigned int, capacity>` (`blazert/datatypes.h:61-69`): a fixed array and a fill counter.
`cells.length` is the capacity. -/
structure Stack where
  cells : List Nat
  ss : Nat
  deriving DecidableEq, Repr

namespace Stack

/-- `Stack<..., capacity> s;` (`blazert/datatypes.h:63-64`).  The array is uninitialised in C++; slots are never read
before they are written (see `Proofs.Stack`), so the initial content is irrelevant. -/
def empty (capacity : Nat) : Stack := ⟨List.replicate capacity 0, 0⟩

/-- `push_back`: `stack[ss++] = node` (`blazert/datatypes.h:65`). -/
def push (s : Stack) (node : Nat) : Run Stack :=
  if s.ss < s.cells.length then .ok ⟨s.cells.set s.ss node, s.ss + 1⟩ else .error .oobStack

/-- `pop_back`: `stack[ss--] = 0` (`blazert/datatypes.h:66`).  The array is indexed with the *old* value of `ss`.
For `ss = 0` the counter wraps around, which is treated as an out-of-bounds stack as well. -/
def pop (s : Stack) : Run Stack :=
  if s.ss < s.cells.length ∧ 0 < s.ss then .ok ⟨s.cells.set s.ss 0, s.ss - 1⟩ else .error .oobStack

/-- `back`: `stack[ss - 1]` (`blazert/datatypes.h:67`). -/
def back (s : Stack) : Run Nat :=
  if 0 < s.ss then lookup .oobStack s.cells (s.ss - 1) else .error .oobStack

/-- `size` (`blazert/datatypes.h:68`) -/
def size (s : Stack) : Nat := s.ss

end Stack

section
variable {T : Type} [Scalar T]
open Scalar

/-- `product_sign(x, y)` (`blazert/datatypes.h:79-85`): xor the sign bit of `y` into `x`. -/
def productSign (x y : T) : T := if signbit y then -x else x

/-- `unity(min_, max_, min, max)` (`blazert/datatypes.h:87-93`): `min_`, `max_` are the in/out arguments; the updated
values are returned. -/
def unity (min_ max_ mn mx : Vec3 T) : Vec3 T × Vec3 T :=
  (Vec3.ofFn fun k => Scalar.min (mn.get k) (min_.get k),
   Vec3.ofFn fun k => Scalar.max (mx.get k) (max_.get k))

/-- `Ray<T>` (`blazert/ray.h:21-35`).  `cull_back_face` is stored but never read by the library. -/
structure Ray (T : Type) where
  origin : Vec3 T
  direction : Vec3 T
  directionInv : Vec3 T
  /-- `direction_sign`: 1 for a negative component, else 0 -/
  directionSign : Vec3 Nat
  minHit : T
  maxHit : T
  cullBackFace : Bool
  anyHit : Bool

/-- The `Ray` constructor (`blazert/ray.h:56-65`).  Inside the member initialisers the name `direction` denotes the
constructor *parameter*, so that `direction_inv` and `direction_sign` are computed from the vector as passed in,
while the member `direction` is normalised. -/
def Ray.make (origin direction : Vec3 T) (minHit maxHit : T) (anyHit : Bool) : Ray T where
  origin := origin
  direction := Vec3.normalize direction
  directionInv := Vec3.map (fun d => (nat 1 : T) / d) direction
  directionSign := Vec3.map (fun d => if lt d (nat 0) then 1 else 0) direction
  minHit := minHit
  maxHit := maxHit
  cullBackFace := false
  anyHit := anyHit

/-- the constructor with its default arguments (`blazert/ray.h:56-58`) -/
def Ray.make' (origin direction : Vec3 T) : Ray T :=
  Ray.make origin direction (nat 0) maxVal false

/-- `static_cast<unsigned int>(-1)` -/
def invalidId : Nat := 2 ^ 32 - 1

/-- `RayHit<T>` (`blazert/ray.h:72-85`). -/
structure RayHit (T : Type) where
  normal : Vec3 T
  uv : T × T
  hitDistance : T
  primId : Nat
  geomId : Nat
  deriving DecidableEq, Repr

/-- A default constructed `RayHit<T>` (`blazert/ray.h:75-84`). -/
def RayHit.fresh : RayHit T where
  normal := Vec3.const (nat 0)
  uv := (nat 0, nat 0)
  hitDistance := maxVal
  primId := invalidId
  geomId := invalidId

end
end Blazert
