/- Specification vocabulary: hits on cylinders of Embree scenes up to rounding. -/
import Verif.Spec.Embree
import Verif.Spec.CylNormal
import Verif.Spec.Rounding

set_option autoImplicit false

namespace Blazert

section
variable {K : Type} [Field K] [LinearOrder K]

/-- larger numbers are not rounded to smaller ones -/
def Fmt.Monotone (F : Fmt K) : Prop := ∀ r s r' s', r ≤ s → F.post r = some r' → F.post s = some s' → r' ≤ s'

end

section
variable {K : Type} [Field K] [LinearOrder K] [IsStrictOrderedRing K] [FloorRing K] {F : Fmt K}

/-- The point at the distance `t` from `o` along `d` is on the surface of the cylinder, up to rounding errors.  Not covered are origins
on the tube between the caps, directions (`direction` is the one in the format, `d` its value) that are nearly but not exactly parallel to the
axis or the caps, and very flat ellipses (cf. C89). -/
def EmbCyl.HitNear (u lo up μ : K) (q : EmbCyl (XF F)) (t : XF F) (direction : Vec3 (XF F)) (o d : Vec3 K) : Prop :=
  ∀ c a b h R ε L, IsV q.center c → q.a.Is a → q.b.Is b → q.height.Is h → IsM q.rot R → NearOrtho ε R → ε ≤ 1 / 1000 →
    lo ≤ a → lo ≤ b → 0 < h → |o.x - c.x| + |o.y - c.y| + |o.z - c.z| + a + b + h ≤ L → L ≤ up →
    1000 * (u * a ^ 2) ≤ b ^ 2 → 1000 * (u * b ^ 2) ≤ a ^ 2 →
    (∀ e, IsV (q.rot.trans.mulVec direction) e → Slanted μ e) →
    60 * u * ((a ^ 2 + b ^ 2) * L ^ 2) ≤ |tubeE a b (R.trans.mulVec (o - c)).x (R.trans.mulVec (o - c)).y| ∨
      h / 2 + 10 * u * L < |(R.trans.mulVec (o - c)).z| →
    ∃ k, t.Is k ∧ 0 ≤ k ∧ k ≤ 4 * L ∧
      NearCylinder a b h ((700 * u + 40 * ε) * ((a ^ 2 + b ^ 2) * L ^ 2)) ((300 * u + 20 * ε) * L) (R.trans.mulVec (along o d k - c))

/-- On a cap the normal `n` is, up to `f`, the axis, pointing away from the solid; on the tube it points away from the axis, along the
gradient, up to `g`. -/
def NearOutward (a b h e δ f g : K) (R : Mat3 K) (v n : Vec3 K) : Prop :=
  (∃ σ, (σ = 1 ∨ σ = -1) ∧ NearCap a b h e δ σ v ∧ ∀ j, |n.get j - σ * (perp R).get j| ≤ f) ∨
  (NearSide a b h e δ v ∧ NearDir g n (R.mulVec (tubeGrad a b v)))

/-- The point at the distance `t` is on the surface, and `n` is the outward normal there, up to rounding errors. -/
def EmbCyl.ShadeNear (u lo up μ : K) (q : EmbCyl (XF F)) (t : XF F) (n direction : Vec3 (XF F)) (o d : Vec3 K) : Prop :=
  ∀ c a b h R ε L m, IsV q.center c → q.a.Is a → q.b.Is b → q.height.Is h → IsM q.rot R → NearOrtho ε R → ε ≤ 1 / 1000 →
    lo ≤ m → m ≤ a → m ≤ b → 0 < h → |o.x - c.x| + |o.y - c.y| + |o.z - c.z| + a + b + h ≤ L → L ≤ up →
    (3000 * u + 200 * ε) * L ^ 2 ≤ m ^ 2 →
    (∀ e, IsV (q.rot.trans.mulVec direction) e → Slanted μ e) →
    60 * u * ((a ^ 2 + b ^ 2) * L ^ 2) ≤ |tubeE a b (R.trans.mulVec (o - c)).x (R.trans.mulVec (o - c)).y| ∨
      h / 2 + 10 * u * L < |(R.trans.mulVec (o - c)).z| →
    ∃ k n', t.Is k ∧ 0 ≤ k ∧ k ≤ 4 * L ∧ IsV n n' ∧ |Vec3.dot n' n' - 1| ≤ 120 * u + 4 * ε ∧
      NearOutward a b h ((700 * u + 40 * ε) * ((a ^ 2 + b ^ 2) * L ^ 2)) ((300 * u + 20 * ε) * L) (160 * u + ε)
        ((4300 * u + 260 * ε) * (L / m) ^ 2) R (R.trans.mulVec (along o d k - c)) n'

end
end Blazert
