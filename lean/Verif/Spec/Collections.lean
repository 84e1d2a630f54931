/- Specification vocabulary: well-formed primitive collections. -/
import Verif.Spec.Boxes
import Verif.Spec.Geometry
import Verif.Model.Builder

set_option autoImplicit false

namespace Blazert

variable {K : Type} [Field K] [LinearOrder K] [FloorRing K] {F : Fmt K}

/-- every element of the collection can be read, its box is finite, and its center lies in its box -/
structure WellFormed {P : Type} (p : Collection (XF F) P) : Prop where
  reads : ∀ i, i < p.size → ∃ b c q, p.box i = .ok b ∧ p.center i = .ok c ∧ p.prim i = .ok q
  range : ∀ i, i < p.size → ∀ b, p.box i = .ok b → BoxInRange b
  center : ∀ i, i < p.size → ∀ b c, p.box i = .ok b → p.center i = .ok c →
    ∀ k, Scalar.le (b.1.get k) (c.get k) = true ∧ Scalar.le (c.get k) (b.2.get k) = true

/-- a lower coordinate `x` of one box is either not below an upper coordinate `y` of a box, or `y - x` lies between `lo`
and `hi` -/
def Spread {P : Type} (lo hi : K) (p : Collection (XF F) P) : Prop :=
  ∀ i j, i < p.size → j < p.size → ∀ bi bj, p.box i = .ok bi → p.box j = .ok bj →
    ∀ k x y, (bi.1.get k).Is x → (bj.2.get k).Is y → y ≤ x ∨ (lo ≤ y - x ∧ y - x ≤ hi)

end Blazert
