/- What the builder's surface area heuristic is meant to compute. -/
import Verif.XF
import Verif.Vec
import Verif.Spec.Geometry

set_option autoImplicit false

namespace Blazert
section
variable {K : Type} [Field K] [LinearOrder K]

/-- `(lo, hi)` is the smallest box that contains the boxes of all elements of `l`: in every direction it is a bound, and the
bound is attained.  There is none if `l` is empty. -/
def IsHull (box : Nat → Vec3 K × Vec3 K) (l : List Nat) (lo hi : Vec3 K) : Prop :=
  ∀ a, ((∀ i ∈ l, lo.get a ≤ (box i).1.get a) ∧ ∃ i ∈ l, (box i).1.get a = lo.get a) ∧
    ((∀ i ∈ l, (box i).2.get a ≤ hi.get a) ∧ ∃ i ∈ l, (box i).2.get a = hi.get a)

variable [FloorRing K]

/-- The surface area of a box, evaluated in the format `F`. -/
def area (F : Fmt K) (lo hi : Vec3 K) : XF F :=
  let e := fun a : Fin 3 => Scalar.abs ((.fin (hi.get a) false : XF F) - .fin (lo.get a) false)
  Scalar.nat 2 * (e 0 * e 1 + e 1 * e 2 + e 2 * e 0)

/-- `c` is the cost of a split into the non-empty parts `l` and `r`: number of elements times area of the hull, summed over
the two parts, evaluated in the format `F`. -/
def SahCost (F : Fmt K) (box : Nat → Vec3 K × Vec3 K) (l r : List Nat) (c : XF F) : Prop :=
  ∃ lo hi lo' hi', IsHull box l lo hi ∧ IsHull box r lo' hi' ∧
    c = Scalar.nat l.length * area F lo hi + Scalar.nat r.length * area F lo' hi'

/-- Zero and two are represented, and the extent of a box from `max()` to `-max()` overflows. -/
structure Fmt.Overflows (F : Fmt K) : Prop where
  zero : F.post 0 = some 0
  two : ∃ v, F.post 2 = some v ∧ v ≠ 0
  extent : F.post (-F.maxVal + -F.maxVal) = none
  pos : 0 < F.maxVal

/-- The bin of a primitive along one axis: its center, relative to the extent of the box, times the number of bins minus one,
rounded to the nearest integer, and not more than the last bin. -/
def IsSlot (F : Fmt K) (mn mx c : XF F) (size slot : Nat) : Prop :=
  ∃ q, Scalar.roundU ((c - mn) * (if Scalar.lt (Scalar.nat 0) (mx - mn) then Scalar.nat 1 / (mx - mn) else Scalar.nat 0) *
    Scalar.nat (size - 1)) = some q ∧ slot = Min.min (size - 1) q

end
end Blazert
