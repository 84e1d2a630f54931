/- Specification vocabulary: points near the surface of an elliptic cylinder, and magnitudes at which its equations neither
overflow nor lose anything that matters. -/
import Verif.Spec.PlaneRound

set_option autoImplicit false

namespace Blazert

variable {K : Type} [Field K] [LinearOrder K]

/-- The equation of the elliptic tube with the half axes `a`, `b`, times `a² b²`: negative inside, zero on the tube, positive outside.
(The coordinates are those of the cylinder.) -/
def tubeE (a b x y : K) : K := b ^ 2 * x ^ 2 + a ^ 2 * y ^ 2 - a ^ 2 * b ^ 2

/-- The point `v` (in the coordinates of the cylinder) is near the surface of the cylinder with half axes `a`, `b` and height `h`: it nearly
satisfies the equation of the tube and is not beyond the caps, or it is nearly at the height of a cap and not outside the tube.
`e` bounds the error in the equation, `δ` that in the height. -/
def NearCylinder (a b h e δ : K) (v : Vec3 K) : Prop :=
  (|tubeE a b v.x v.y| ≤ e ∧ |v.z| ≤ h / 2 + δ) ∨
  (|(|v.z|) - h / 2| ≤ δ ∧ tubeE a b v.x v.y ≤ e)

/-- The direction (in the coordinates of the cylinder) is either exactly parallel to an axis or plane of the cylinder or differs from it
by more than underflow could hide. -/
def Slanted (μ : K) (d : Vec3 K) : Prop := (d.z = 0 ∨ μ ≤ |d.z|) ∧ ((d.x = 0 ∧ d.y = 0) ∨ μ ≤ |d.x| ∨ μ ≤ |d.y|)

/-- Lengths up to `L` can be multiplied (four of them) and divided by the slant of the direction (twice) without overflow; `ν` is a lower
bound for the half axes, `μ` for the slant; what underflow loses is small compared with `ν ^ 4` and `(μ ν) ^ 3`; and `1 / (μ ν) ^ 2` is far
from overflow. -/
structure TubeScale (u η hi L ν μ : K) : Prop extends Scale u η hi L where
  ν_pos : 0 < ν
  ν_le : ν ≤ 1
  μ_pos : 0 < μ
  μ_le : μ ≤ 1
  lost : 2 ^ 12 * (η * (1 + L) ^ 2) ≤ u * (μ * ν) ^ 3
  lost' : 2 ^ 12 * (η * (1 + L) ^ 2) ≤ u * ν ^ 4
  quartic : 2 ^ 10 * (1 + L) ^ 4 ≤ hi * μ ^ 2
  inverse : 2 ^ 10 * (1 + L) ^ 3 ≤ hi * (μ * ν) ^ 2

/-- no rounding crosses a number of the format -/
def Fmt.Ordered (F : Fmt K) : Prop :=
  ∀ q v r r', F.post q = some v → F.post r = some r' → (v ≤ r → v ≤ r') ∧ (r ≤ v → r' ≤ v)

end Blazert
