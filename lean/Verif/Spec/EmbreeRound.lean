/- Specification vocabulary for hits of the Embree back-end with rounding. -/
import Verif.Spec.Embree
import Verif.Spec.PlaneRound

set_option autoImplicit false

namespace Blazert

section
variable {T : Type}

/-- the same ray, up to the upper limit -/
structure SameLine (x y : RtcRay T) : Prop where
  org : x.org = y.org
  dir : x.dir = y.dir
  near : x.tnear = y.tnear

/-- What is assumed of Embree in theorems about hits with rounding: the intersection with a mesh changes nothing of the ray but the
upper limit. -/
def Rtc.Tidy (rtc : Rtc T) : Prop := ∀ v f id rh, SameLine (rtc.tri v f id rh).ray rh.ray

end

section
variable {K : Type} [Field K] [LinearOrder K] [IsStrictOrderedRing K] [FloorRing K] {F : Fmt K}

/-- The point at the distance `t` from `o` along `d` is on the sphere, and `normal` is the outward normal there, up to rounding
errors (`u` is half a unit in the last place of one; `lo` and `up` delimit the sizes covered).  The normal is not covered for
spheres that are very small compared with the coordinates. -/
def EmbSphere.HitNear (u lo up : K) (s : EmbSphere (XF F)) (t : XF F) (normal : Vec3 (XF F)) (o d : Vec3 K) : Prop :=
  (∀ c r L, IsV s.center c → s.radius.Is r → |o.x - c.x| + |o.y - c.y| + |o.z - c.z| + |r| ≤ L → lo ≤ L → L ≤ up →
    ∃ h, t.Is h ∧ 0 ≤ h ∧ |power c r (along o d h)| ≤ 2000 * u * L ^ 2) ∧
  (∀ c r L, IsV s.center c → s.radius.Is r → |o.x| + |o.y| + |o.z| + |c.x| + |c.y| + |c.z| + r ≤ L → 2 * lo ≤ r → 4 * L ≤ up →
    5000 * u * L ^ 2 ≤ r ^ 2 →
    ∃ h n, t.Is h ∧ IsV normal n ∧ |Vec3.dot n n - 1| ≤ 11 * u ∧
      ∀ k, |n.get k - ((along o d h).get k - c.get k) / r| ≤ 2300 * u * (L / r) ^ 2)

/-- The point is on the rectangle, and unless it is at the edge, `normal` is the normal on the side of the origin, up to rounding
errors. -/
def EmbPlane.HitNear (u lo up : K) (p : EmbPlane (XF F)) (t : XF F) (normal : Vec3 (XF F)) (o d : Vec3 K) : Prop :=
  ∀ c a b R ε L, IsV p.center c → p.d1.Is a → p.d2.Is b → IsM p.rot R → NearOrtho ε R → ε ≤ 1 / 1000 →
    |o.x - c.x| + |o.y - c.y| + |o.z - c.z| + |a| + |b| ≤ L → lo ≤ L → L ≤ up →
    ∃ h, t.Is h ∧ 0 ≤ h ∧ (∃ y, InRect c a b R y ∧ ∀ k, |(along o d h).get k - y.get k| ≤ 600 * u * L + 40 * ε * L) ∧
      (|(R.trans.mulVec (along o d h - c)).x| + 185 * u * L + 11 * ε * L < a / 2 →
      |(R.trans.mulVec (along o d h - c)).y| + 185 * u * L + 11 * ε * L < b / 2 →
      ∃ n σ, IsV normal n ∧ (σ = 1 ∨ σ = -1) ∧ (∀ k, |n.get k - σ * (perp R).get k| ≤ 80 * u + ε) ∧
        -(6 * u * L) ≤ σ * Vec3.dot (perp R) (o - c) ∧ σ * Vec3.dot (perp R) d ≤ 8 * u)

end
end Blazert
