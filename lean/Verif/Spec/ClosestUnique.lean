/- The point of a triangle closest to a given one. -/
import Verif.Spec.Geometry

set_option autoImplicit false

namespace Blazert

/-- `R` is a point of the triangle `A`, `B`, `C`, and none of its points is closer to `P` -/
def ClosestIn {K : Type} [Field K] [LinearOrder K] (A B C P R : Vec3 K) : Prop :=
  InTriangle A B C R ∧ ∀ S, InTriangle A B C S → Vec3.dot (P - R) (P - R) ≤ Vec3.dot (P - S) (P - S)

end Blazert
