/- Specification vocabulary for clear hits of the Embree back-end with rounding. -/
import Verif.Spec.EmbreeRound
import Verif.Spec.PlaneRound
import Verif.Spec.Rounding

set_option autoImplicit false

namespace Blazert

section
variable {K : Type} [Field K] [LinearOrder K] [IsStrictOrderedRing K] [FloorRing K] {F : Fmt K}

/-- What is assumed of Embree: a callback is saved only if the line of the ray, as stored, does not meet the bounds, as stored, between the
limits of the ray; and the intersection with a mesh changes nothing, or records a hit under the id of the mesh, not beyond the upper
limit. -/
structure Rtc.Careful (rtc : Rtc (XF F)) : Prop where
  miss : ∀ b r, rtc.miss b r → ∀ o d m M mn mx, IsV r.org o → IsV r.dir d → r.tnear.Is m → r.tfar.Is M → IsV b.1 mn → IsV b.2 mx →
    ∀ t, m ≤ t → t ≤ M → ¬ InBox mn mx (along o d t)
  mesh : ∀ v f id rh, rtc.tri v f id rh = rh ∨ (SameLine (rtc.tri v f id rh).ray rh.ray ∧ (rtc.tri v f id rh).hit.geomID = id ∧
    ∀ M, rh.ray.tfar.Is M → ∃ M', (rtc.tri v f id rh).ray.tfar.Is M' ∧ M' ≤ M)

/-- Size of an object, seen from `o`; `ε` bounds the error of the matrix of a rectangle.  There is no claim about cylinders. -/
def UserGeom.Within (ε L : K) (o : Vec3 K) : UserGeom (XF F) → Prop
  | .sphere s => ∃ c r, IsV s.center c ∧ s.radius.Is r ∧ |o.x| + |o.y| + |o.z| + |c.x| + |c.y| + |c.z| + |r| ≤ L
  | .plane p => ∃ c a b R, IsV p.center c ∧ p.d1.Is a ∧ p.d2.Is b ∧ IsM p.rot R ∧ NearOrtho ε R ∧
      |o.x| + |o.y| + |o.z| + |c.x| + |c.y| + |c.z| + |a| + |b| ≤ L
  | .cylinder _ => False

/-- The ray `o + t d` enters the sphere between the parameters `m` and `τ`, or crosses the rectangle at `τ`, clear of rounding errors:
it is outside the sphere at `m` and inside at `τ` by a margin; or it crosses the rectangle later than `M` after `m`, farther than `M`
from the edges, and not too flatly. -/
def UserGeom.ClearlyMet (u ε L : K) (o d : Vec3 K) (m τ M : K) : UserGeom (XF F) → Prop
  | .sphere s => ∃ c r, IsV s.center c ∧ s.radius.Is r ∧ 0 < r ∧ m < τ ∧ 0 ≤ M ∧ 400 * u * L ^ 2 ≤ power c r (along o d m) ∧
      power c r (along o d τ) ≤ -(400 * u * L ^ 2)
  | .plane p => ∃ c a b R κ, IsV p.center c ∧ p.d1.Is a ∧ p.d2.Is b ∧ IsM p.rot R ∧ MeetsRect c a b R o d m τ M κ ∧
      200 * (u + ε) * L ≤ M * κ
  | .cylinder _ => False

end
end Blazert
