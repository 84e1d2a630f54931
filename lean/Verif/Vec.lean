/-
Three-component vectors and 3x3 matrices with the blaze operations that blazert uses.
Blaze itself is not part of /repo; the definitions below are the textbook ones (see DESIGN.md).
-/
import Verif.Scalar

set_option autoImplicit false

namespace Blazert

/-- `Vec3r<T>` (`blazert/datatypes.h:31`): `blaze::StaticVector<T, 3>`. -/
@[ext] structure Vec3 (T : Type) where
  x : T
  y : T
  z : T
  deriving DecidableEq, Repr

namespace Vec3
variable {T : Type}

/-- `v[i]` -/
def get (v : Vec3 T) (i : Fin 3) : T :=
  match i with
  | 0 => v.x
  | 1 => v.y
  | 2 => v.z

/-- the vector with all components computed from the axis -/
def ofFn (f : Fin 3 → T) : Vec3 T := ⟨f 0, f 1, f 2⟩

@[simp] theorem get_zero (v : Vec3 T) : v.get 0 = v.x := rfl
@[simp] theorem get_one (v : Vec3 T) : v.get 1 = v.y := rfl
@[simp] theorem get_two (v : Vec3 T) : v.get 2 = v.z := rfl
@[simp] theorem get_ofFn (f : Fin 3 → T) (i : Fin 3) : (ofFn f).get i = f i := by
  match i with
  | 0 => rfl
  | 1 => rfl
  | 2 => rfl

/-- `v[i]` for an index that is not statically known to be below 3. -/
def get? (v : Vec3 T) (i : Nat) : Run T :=
  if h : i < 3 then .ok (v.get ⟨i, h⟩) else .error .badAxis

/-- all components equal (`Vec3r<T> v(s)`) -/
def const (s : T) : Vec3 T := ⟨s, s, s⟩

/-- componentwise application -/
def map {S : Type} (f : T → S) (v : Vec3 T) : Vec3 S := ⟨f v.x, f v.y, f v.z⟩

instance [Add T] : Add (Vec3 T) := ⟨fun v w => ⟨v.x + w.x, v.y + w.y, v.z + w.z⟩⟩
instance [Sub T] : Sub (Vec3 T) := ⟨fun v w => ⟨v.x - w.x, v.y - w.y, v.z - w.z⟩⟩
instance [Neg T] : Neg (Vec3 T) := ⟨fun v => ⟨-v.x, -v.y, -v.z⟩⟩

/-- `s * v` -/
def smul [Mul T] (s : T) (v : Vec3 T) : Vec3 T := ⟨s * v.x, s * v.y, s * v.z⟩
/-- `v * s` -/
def muls [Mul T] (v : Vec3 T) (s : T) : Vec3 T := ⟨v.x * s, v.y * s, v.z * s⟩
/-- `v / s` -/
def divs [Div T] (v : Vec3 T) (s : T) : Vec3 T := ⟨v.x / s, v.y / s, v.z / s⟩
/-- componentwise product `v * w` -/
def cmul [Mul T] (v w : Vec3 T) : Vec3 T := ⟨v.x * w.x, v.y * w.y, v.z * w.z⟩
/-- `v - s` (scalar subtracted from each component) -/
def subs [Sub T] (v : Vec3 T) (s : T) : Vec3 T := ⟨v.x - s, v.y - s, v.z - s⟩
/-- `v + s` (scalar added to each component) -/
def adds [Add T] (v : Vec3 T) (s : T) : Vec3 T := ⟨v.x + s, v.y + s, v.z + s⟩

/-- `blaze::dot` -/
def dot [Add T] [Mul T] (v w : Vec3 T) : T := v.x * w.x + v.y * w.y + v.z * w.z
/-- `blaze::cross` -/
def cross [Sub T] [Mul T] (v w : Vec3 T) : Vec3 T :=
  ⟨v.y * w.z - v.z * w.y, v.z * w.x - v.x * w.z, v.x * w.y - v.y * w.x⟩

/-- `blaze::norm` -/
def norm [Scalar T] (v : Vec3 T) : T := Scalar.sqrt (dot v v)
/-- `blaze::normalize` -/
def normalize [Scalar T] (v : Vec3 T) : Vec3 T := divs v (norm v)
/-- `blaze::abs` -/
def abs [Scalar T] (v : Vec3 T) : Vec3 T := map Scalar.abs v

@[simp] theorem add_x [Add T] (v w : Vec3 T) : (v + w).x = v.x + w.x := rfl
@[simp] theorem add_y [Add T] (v w : Vec3 T) : (v + w).y = v.y + w.y := rfl
@[simp] theorem add_z [Add T] (v w : Vec3 T) : (v + w).z = v.z + w.z := rfl
@[simp] theorem sub_x [Sub T] (v w : Vec3 T) : (v - w).x = v.x - w.x := rfl
@[simp] theorem sub_y [Sub T] (v w : Vec3 T) : (v - w).y = v.y - w.y := rfl
@[simp] theorem sub_z [Sub T] (v w : Vec3 T) : (v - w).z = v.z - w.z := rfl
@[simp] theorem neg_x [Neg T] (v : Vec3 T) : (-v).x = -v.x := rfl
@[simp] theorem neg_y [Neg T] (v : Vec3 T) : (-v).y = -v.y := rfl
@[simp] theorem neg_z [Neg T] (v : Vec3 T) : (-v).z = -v.z := rfl
@[simp] theorem smul_x [Mul T] (s : T) (v : Vec3 T) : (smul s v).x = s * v.x := rfl
@[simp] theorem smul_y [Mul T] (s : T) (v : Vec3 T) : (smul s v).y = s * v.y := rfl
@[simp] theorem smul_z [Mul T] (s : T) (v : Vec3 T) : (smul s v).z = s * v.z := rfl
@[simp] theorem muls_x [Mul T] (s : T) (v : Vec3 T) : (muls v s).x = v.x * s := rfl
@[simp] theorem muls_y [Mul T] (s : T) (v : Vec3 T) : (muls v s).y = v.y * s := rfl
@[simp] theorem muls_z [Mul T] (s : T) (v : Vec3 T) : (muls v s).z = v.z * s := rfl
@[simp] theorem divs_x [Div T] (s : T) (v : Vec3 T) : (divs v s).x = v.x / s := rfl
@[simp] theorem divs_y [Div T] (s : T) (v : Vec3 T) : (divs v s).y = v.y / s := rfl
@[simp] theorem divs_z [Div T] (s : T) (v : Vec3 T) : (divs v s).z = v.z / s := rfl

end Vec3

/-- `Mat3r<T>` (`blazert/datatypes.h:42`): row-major 3x3 matrix, as its three rows. -/
@[ext] structure Mat3 (T : Type) where
  r0 : Vec3 T
  r1 : Vec3 T
  r2 : Vec3 T
  deriving DecidableEq, Repr

namespace Mat3
variable {T : Type}

/-- `trans(m)` -/
def trans (m : Mat3 T) : Mat3 T :=
  ⟨⟨m.r0.x, m.r1.x, m.r2.x⟩, ⟨m.r0.y, m.r1.y, m.r2.y⟩, ⟨m.r0.z, m.r1.z, m.r2.z⟩⟩

/-- `m * v` -/
def mulVec [Add T] [Mul T] (m : Mat3 T) (v : Vec3 T) : Vec3 T :=
  ⟨Vec3.dot m.r0 v, Vec3.dot m.r1 v, Vec3.dot m.r2 v⟩

end Mat3
end Blazert
