/- Specification vocabulary: the outward normals of an elliptic cylinder. -/
import Verif.Spec.CylRound
import Verif.Spec.Hits

set_option autoImplicit false

namespace Blazert

variable {K : Type} [Field K] [LinearOrder K]

/-- half the gradient of `x² / a² + y² / b²`: it points away from the axis, perpendicularly to the tube -/
def tubeGrad (a b : K) (v : Vec3 K) : Vec3 K := ⟨v.x / a ^ 2, v.y / b ^ 2, 0⟩

/-- `n` is a positive multiple of `w`, up to `e` in each coordinate -/
def NearDir (e : K) (n w : Vec3 K) : Prop := ∃ l, 0 < l ∧ ∀ k, |n.get k - l * w.get k| ≤ e

/-- The point `v` (in the coordinates of the cylinder) is near the upper cap (`σ = 1`) or the lower one (`σ = -1`). -/
def NearCap (a b h e δ σ : K) (v : Vec3 K) : Prop := |v.z - σ * (h / 2)| ≤ δ ∧ tubeE a b v.x v.y ≤ e

/-- It is near the lateral surface. -/
def NearSide (a b h e δ : K) (v : Vec3 K) : Prop := |tubeE a b v.x v.y| ≤ e ∧ |v.z| ≤ h / 2 + δ

/-- It is in the solid, or nearly so. -/
def NearSolid (a b h e δ : K) (v : Vec3 K) : Prop := tubeE a b v.x v.y ≤ e ∧ |v.z| ≤ h / 2 + δ

/-- What is to be expected of a point `v` on the surface and a normal `n` there, for a ray from `P` (`v` and `P` in the coordinates of the
cylinder): on a cap the normal points away from the solid along the axis, on the tube away from the axis along the gradient, both turned
by `R` -- except that for origins within the solid the normal on the tube may be the one that has not been turned (a defect of the code, see
C39).  `e` bounds the errors in the equation of the tube, `δ` those of heights, `f` and `g` those of the normals of caps and tube. -/
def NearShade (a b h e δ f g e' δ' : K) (R : Mat3 K) (P v n : Vec3 K) : Prop :=
  (∃ σ, (σ = 1 ∨ σ = -1) ∧ NearCap a b h e δ σ v ∧ ∀ j, |n.get j - σ * (perp R).get j| ≤ f) ∨
  (NearSide a b h e δ v ∧ (NearDir g n (R.mulVec (tubeGrad a b v)) ∨ (NearSolid a b h e' δ' P ∧ NearDir g n (tubeGrad a b v))))

end Blazert
