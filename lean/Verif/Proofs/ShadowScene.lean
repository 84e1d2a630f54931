/- Rays that start at a reported hit: geometry ids, and the rounded hit point (C97). -/
import Verif.Proofs.Shadow
import Verif.Proofs.Scene
import Verif.Proofs.Commit
import Verif.Spec.Shadow

set_option autoImplicit false
set_option linter.unusedSectionVars false

namespace Blazert
open Scalar

/-! ### the kinds of geometry of a scene have different ids -/

section
variable {T : Type} [Scalar T]

/-- the ids of the four kinds of geometry -/
def Scene.ids (s : Scene T) : Fin 4 → Option Nat
  | 0 => s.mesh.map Part.geomId
  | 1 => s.spheres.map Part.geomId
  | 2 => s.planes.map Part.geomId
  | 3 => s.cylinders.map Part.geomId

/-- all below `n`, and different -/
def IdsBelow (g : Fin 4 → Option Nat) (n : Nat) : Prop :=
  (∀ i x, g i = some x → x < n) ∧ ∀ i j x, g i = some x → g j = some x → i = j

theorem IdsBelow.add {g g' : Fin 4 → Option Nat} {n : Nat} (h : IdsBelow g n) (k : Fin 4) (hk : g' k = some n)
    (ho : ∀ i, i ≠ k → g' i = g i) : IdsBelow g' (n + 1) := by
  constructor
  · intro i x hx
    by_cases e : i = k
    · subst e; rw [hk] at hx; injection hx with hx; omega
    · rw [ho i e] at hx; have := h.1 i x hx; omega
  · intro i j x hi hj
    by_cases e : i = k
    · by_cases e' : j = k
      · rw [e, e']
      · subst e
        rw [hk] at hi; injection hi with hi
        rw [ho j e'] at hj; have := h.1 j x hj; omega
    · by_cases e' : j = k
      · subst e'
        rw [hk] at hj; injection hj with hj
        rw [ho i e] at hi; have := h.1 i x hi; omega
      · rw [ho i e] at hi; rw [ho j e'] at hj
        exact h.2 i j x hi hj

theorem commitPart_ids {C P : Type} {part : StdPartition} {o : BuildOptions} {tc : C → Collection T P} {p q : Option (Part C T P)}
    (h : commitPart part o tc p = .ok q) : q.map Part.geomId = p.map Part.geomId := by
  cases p with
  | none => rw [commitPart_none h]
  | some p => obtain ⟨ns, rfl⟩ := commitPart_some h; rfl

theorem History.ids {s : Scene T} {rs : List Nat} (h : History s rs) : IdsBelow s.ids s.geometries := by
  induction h with
  | init =>
    constructor
    · intro i x hx
      match i with
      | 0 | 1 | 2 | 3 => cases hx
    · intro i j x hx
      match i with
      | 0 | 1 | 2 | 3 => cases hx
  | add part s s' rs c i h hc ih =>
    cases c with
    | addMesh v f =>
      simp only [Call.exec] at hc
      rw [run_bind_eq_ok] at hc
      obtain ⟨⟨s1, j⟩, h1, hc⟩ := hc
      simp at hc
      obtain ⟨rfl, rfl⟩ := hc
      rcases addMesh_cases _ _ _ _ _ h1 with ⟨-, rfl, -⟩ | ⟨h2, h3, h4, coll, _, rfl⟩
      · exact ih
      · refine ih.add 0 rfl fun i hi => ?_
        match i with
        | 0 => exact absurd rfl hi
        | 1 | 2 | 3 => rfl
    | addSpheres v f =>
      simp only [Call.exec] at hc
      rw [run_bind_eq_ok] at hc
      obtain ⟨⟨s1, j⟩, h1, hc⟩ := hc
      simp at hc
      obtain ⟨rfl, rfl⟩ := hc
      rcases addSpheres_cases _ _ _ _ _ h1 with ⟨-, rfl, -⟩ | ⟨h2, h3, h4, coll, _, rfl⟩
      · exact ih
      · refine ih.add 1 rfl fun i hi => ?_
        match i with
        | 1 => exact absurd rfl hi
        | 0 | 2 | 3 => rfl
    | addPlanes c a b r =>
      simp only [Call.exec] at hc
      rw [run_bind_eq_ok] at hc
      obtain ⟨⟨s1, j⟩, h1, hc⟩ := hc
      simp at hc
      obtain ⟨rfl, rfl⟩ := hc
      rcases addPlanes_cases _ _ _ _ _ _ _ h1 with ⟨-, rfl, -⟩ | ⟨h2, h3, h4, coll, _, rfl⟩
      · exact ih
      · refine ih.add 2 rfl fun i hi => ?_
        match i with
        | 2 => exact absurd rfl hi
        | 0 | 1 | 3 => rfl
    | addCylinders c a b h r =>
      simp only [Call.exec] at hc
      rw [run_bind_eq_ok] at hc
      obtain ⟨⟨s1, j⟩, h1, hc⟩ := hc
      simp at hc
      obtain ⟨rfl, rfl⟩ := hc
      rcases addCylinders_cases _ _ _ _ _ _ _ _ h1 with ⟨-, rfl, -⟩ | ⟨h2, h3, h4, coll, _, rfl⟩
      · exact ih
      · refine ih.add 3 rfl fun i hi => ?_
        match i with
        | 3 => exact absurd rfl hi
        | 0 | 1 | 2 => rfl
    | commit =>
      simp only [Call.exec] at hc
      rw [run_bind_eq_ok] at hc
      obtain ⟨⟨s1, j⟩, h1, hc⟩ := hc
      simp at hc
  | commit part s s' rs h hc ih =>
    simp only [Call.exec] at hc
    rw [run_bind_eq_ok] at hc
    obtain ⟨⟨s1, b⟩, h1, hc⟩ := hc
    simp at hc
    obtain rfl := hc
    obtain ⟨-, -, h2, -, -, k1, k2, k3, k4⟩ := commit_cases _ _ _ _ h1
    rw [h2]
    have e : s1.ids = s.ids := by
      funext i
      match i with
      | 0 => exact commitPart_ids k1
      | 1 => exact commitPart_ids k2
      | 2 => exact commitPart_ids k3
      | 3 => exact commitPart_ids k4
    rw [e]; exact ih

end

/-! ### the rounded hit point -/

section
variable {K : Type} [Field K] [LinearOrder K] [IsStrictOrderedRing K] [FloorRing K] {F : Fmt K} {u η hi L : K}

theorem step_near (hF : F.Rounds u η hi) (hs : Scale u η hi L) {x t y : XF F} {a k b : K} (hx : x.Is a) (ht : t.Is k) (hy : y.Is b)
    (ha : |a| ≤ L) (hb : |k * b| ≤ 3 * L) : ∃ p, (x + t * y).Is p ∧ |p - (a + k * b)| ≤ 8 * (u * L) := by
  obtain ⟨u0, u1, η0, ηu, ηL, ηLL, ηuLL, ηuL, L0, uL0, uLL0, uL1, uLL1, hi1, hiL, hiLL⟩ := hs.sizes
  obtain ⟨r, r1, r2, -⟩ := rnd_mul hF.toGradual u0.le ht hy hb (by linarith)
  have h1 : |r| ≤ 3 * L + (u * (3 * L) + η) := abs_le_of_near r2 hb
  have h2 : |a + r| ≤ 5 * L := (abs_add_le' ha h1).trans (by linarith)
  have h3 : |a + r| ≤ 401 / 100 * L := (abs_add_le' ha h1).trans (by linarith)
  obtain ⟨p, p1, p2, -⟩ := rnd_add hF.toGradual u0.le hx r1 h3 (by linarith)
  refine ⟨p, p1, ?_⟩
  have e : p - (a + k * b) = (p - (a + r)) + (r - k * b) := by ring
  rw [e]
  exact (abs_add_le' p2 r2).trans (by linarith)

theorem hitPoint_near (hF : F.Rounds u η hi) (hs : Scale u η hi L) {ray : Ray (XF F)} {rh : RayHit (XF F)} {o d : Vec3 K} {h : K}
    (ho : IsV ray.origin o) (hd : IsV ray.direction d) (hh : rh.hitDistance.Is h) (hoL : |o.x| + |o.y| + |o.z| ≤ L)
    (hx : |h * d.x| ≤ 3 * L) (hy : |h * d.y| ≤ 3 * L) (hz : |h * d.z| ≤ 3 * L) :
    ∃ p, IsV (hitPoint ray rh) p ∧ |p.x - (along o d h).x| ≤ 8 * (u * L) ∧ |p.y - (along o d h).y| ≤ 8 * (u * L) ∧
      |p.z - (along o d h).z| ≤ 8 * (u * L) := by
  have x0 := abs_nonneg o.x
  have y0 := abs_nonneg o.y
  have z0 := abs_nonneg o.z
  obtain ⟨px, a1, a2⟩ := step_near hF hs ho.1 hh hd.1 (by linarith) hx
  obtain ⟨py, b1, b2⟩ := step_near hF hs ho.2.1 hh hd.2.1 (by linarith) hy
  obtain ⟨pz, c1, c2⟩ := step_near hF hs ho.2.2 hh hd.2.2 (by linarith) hz
  exact ⟨⟨px, py, pz⟩, ⟨a1, b1, c1⟩, a2, b2, c2⟩

/-- a point on a sphere up to rounding, rounded once more -/
theorem sphere_point_near (hs : Scale u η hi L) {o d c p : Vec3 K} {r h : K}
    (hL : |o.x - c.x| + |o.y - c.y| + |o.z - c.z| + 3 * |r| ≤ L) (hpow : |power c r (along o d h)| ≤ 2000 * u * L ^ 2) :
    (|h * d.x| ≤ 3 * L ∧ |h * d.y| ≤ 3 * L ∧ |h * d.z| ≤ 3 * L) ∧
    (|p.x - (along o d h).x| ≤ 8 * (u * L) → |p.y - (along o d h).y| ≤ 8 * (u * L) → |p.z - (along o d h).z| ≤ 8 * (u * L) →
      -(2020 * (u * L ^ 2)) ≤ Vec3.dot (p - c) (p - c) - r * r ∧ |p.x - c.x| + |p.y - c.y| + |p.z - c.z| + |r| ≤ L) := by
  obtain ⟨u0, u1, η0, ηu, ηL, ηLL, ηuLL, ηuL, L0, uL0, uLL0, uL1, uLL1, hi1, hiL, hiLL⟩ := hs.sizes
  have a1 := abs_nonneg (o.x - c.x)
  have a2 := abs_nonneg (o.y - c.y)
  have a3 := abs_nonneg (o.z - c.z)
  have a4 := abs_nonneg r
  have hr2 : r * r ≤ L ^ 2 / 9 := by
    rw [← abs_mul_abs_self r]
    have h1 : |r| ≤ L / 3 := by linarith
    have := mul_le_mul h1 h1 a4 (by linarith)
    linarith [show L / 3 * (L / 3) = L ^ 2 / 9 by ring]
  obtain ⟨p1, p2⟩ := abs_le.1 hpow
  unfold power at p1 p2
  have e0 : 2000 * u * L ^ 2 = 2000 * (u * L ^ 2) := by ring
  rw [e0] at p1 p2
  set x := along o d h - c with hx
  have hdot : Vec3.dot x x ≤ 1131 / 10000 * L ^ 2 := by linarith
  obtain ⟨s1, s2, s3⟩ := comp_sq_le x
  have hLL : (34 / 100 * L) ^ 2 = 1156 / 10000 * L ^ 2 := by ring
  have hL34 : 0 ≤ 34 / 100 * L := by linarith
  have LL0 : 0 ≤ L ^ 2 := by positivity
  have x1 : |x.x| ≤ 34 / 100 * L := abs_le_of_sq_le_sq (by rw [hLL, pow_two]; linarith) hL34
  have x2 : |x.y| ≤ 34 / 100 * L := abs_le_of_sq_le_sq (by rw [hLL, pow_two]; linarith) hL34
  have x3 : |x.z| ≤ 34 / 100 * L := abs_le_of_sq_le_sq (by rw [hLL, pow_two]; linarith) hL34
  have ex : x.x = o.x + h * d.x - c.x := rfl
  have ey : x.y = o.y + h * d.y - c.y := rfl
  have ez : x.z = o.z + h * d.z - c.z := rfl
  refine ⟨⟨?_, ?_, ?_⟩, ?_⟩
  · rw [show h * d.x = x.x - (o.x - c.x) by rw [ex]; ring]
    exact (abs_sub_le' x1 le_rfl).trans (by linarith)
  · rw [show h * d.y = x.y - (o.y - c.y) by rw [ey]; ring]
    exact (abs_sub_le' x2 le_rfl).trans (by linarith)
  · rw [show h * d.z = x.z - (o.z - c.z) by rw [ez]; ring]
    exact (abs_sub_le' x3 le_rfl).trans (by linarith)
  intro h1 h2 h3
  have fx : p.x - c.x = x.x + (p.x - (along o d h).x) := by rw [hx]; show _ = ((along o d h).x - c.x) + _; ring
  have fy : p.y - c.y = x.y + (p.y - (along o d h).y) := by rw [hx]; show _ = ((along o d h).y - c.y) + _; ring
  have fz : p.z - c.z = x.z + (p.z - (along o d h).z) := by rw [hx]; show _ = ((along o d h).z - c.z) + _; ring
  set ex' := p.x - (along o d h).x
  set ey' := p.y - (along o d h).y
  set ez' := p.z - (along o d h).z
  have hprod : 34 / 100 * L * (8 * (u * L)) = 272 / 100 * (u * L ^ 2) := by ring
  constructor
  · have e : Vec3.dot (p - c) (p - c) - r * r = (Vec3.dot x x - r * r) + 2 * (x.x * ex') + 2 * (x.y * ey') + 2 * (x.z * ez') +
        (ex' * ex' + ey' * ey' + ez' * ez') := by
      show (p.x - c.x) * (p.x - c.x) + (p.y - c.y) * (p.y - c.y) + (p.z - c.z) * (p.z - c.z) - r * r =
        (x.x * x.x + x.y * x.y + x.z * x.z - r * r) + _ + _ + _ + _
      rw [fx, fy, fz]; ring
    rw [e]
    have m1 := (abs_le.1 (abs_mul_le x1 h1)).1
    have m2 := (abs_le.1 (abs_mul_le x2 h2)).1
    have m3 := (abs_le.1 (abs_mul_le x3 h3)).1
    rw [hprod] at m1 m2 m3
    linarith [mul_self_nonneg ex', mul_self_nonneg ey', mul_self_nonneg ez']
  · have hone : oneNorm x ≤ 584 / 1000 * L := by
      refine le_of_abs_le (abs_le_of_sq_le_sq ?_ (by linarith))
      refine (oneNorm_sq_le x).trans ?_
      rw [show (584 / 1000 * L) ^ 2 = 341056 / 1000000 * L ^ 2 by ring]
      linarith
    unfold oneNorm at hone
    rw [fx, fy, fz]
    have n1 := abs_add_le' (le_refl |x.x|) h1
    have n2 := abs_add_le' (le_refl |x.y|) h2
    have n3 := abs_add_le' (le_refl |x.z|) h3
    linarith

/-- a point on a rectangle up to rounding, rounded once more -/
theorem rect_point_near {ε : K} (hs : Scale u η hi L) {o d c p y : Vec3 K} {a b h : K} {R : Mat3 K} (hR : NearOrtho ε R) (hε : ε ≤ 1 / 1000)
    (hL : |o.x - c.x| + |o.y - c.y| + |o.z - c.z| + 3 * (|a| + |b|) ≤ L) (hy : InRect c a b R y)
    (hnear : ∀ k, |(along o d h).get k - y.get k| ≤ 600 * u * L + 40 * ε * L) :
    (|h * d.x| ≤ 3 * L ∧ |h * d.y| ≤ 3 * L ∧ |h * d.z| ≤ 3 * L) ∧
    (|p.x - (along o d h).x| ≤ 8 * (u * L) → |p.y - (along o d h).y| ≤ 8 * (u * L) → |p.z - (along o d h).z| ≤ 8 * (u * L) →
      |Vec3.dot R.trans.r2 (p - c)| ≤ 1830 * (u * L) + 122 * (ε * L) ∧
      |p.x - c.x| + |p.y - c.y| + |p.z - c.z| + |a| + |b| ≤ L) := by
  obtain ⟨u0, u1, η0, ηu, ηL, ηLL, ηuLL, ηuL, L0, uL0, uLL0, uL1, uLL1, hi1, hiL, hiLL⟩ := hs.sizes
  have ε0 := hR.rows.nonneg
  have εL0 : 0 ≤ ε * L := mul_nonneg ε0 L0.le
  have εL1 : ε * L ≤ 1 / 1000 * L := mul_le_mul_of_nonneg_right hε L0.le
  have a1 := abs_nonneg (o.x - c.x)
  have a2 := abs_nonneg (o.y - c.y)
  have a3 := abs_nonneg (o.z - c.z)
  have a4 := abs_nonneg a
  have a5 := abs_nonneg b
  obtain ⟨x', y', i1, i2, i3, i4, rfl⟩ := hy
  have hx' : |x'| ≤ |a| / 2 := abs_le.2 ⟨by linarith [le_abs_self a], by linarith [le_abs_self a]⟩
  have hy' : |y'| ≤ |b| / 2 := abs_le.2 ⟨by linarith [le_abs_self b], by linarith [le_abs_self b]⟩
  set v : Vec3 K := ⟨x', y', 0⟩ with hv
  have hov : oneNorm v ≤ (|a| + |b|) / 2 := by unfold oneNorm; simp only [hv, abs_zero]; linarith
  set w := R.mulVec v with hw
  have w1 : |w.x| ≤ 1001 / 1000 * ((|a| + |b|) / 2) := (unit_dot hR.rows.aa hε).2.trans (mul_le_mul_of_nonneg_left hov (by norm_num))
  have w2 : |w.y| ≤ 1001 / 1000 * ((|a| + |b|) / 2) := (unit_dot hR.rows.bb hε).2.trans (mul_le_mul_of_nonneg_left hov (by norm_num))
  have w3 : |w.z| ≤ 1001 / 1000 * ((|a| + |b|) / 2) := (unit_dot hR.rows.cc hε).2.trans (mul_le_mul_of_nonneg_left hov (by norm_num))
  have e0 : 600 * u * L + 40 * ε * L = 600 * (u * L) + 40 * (ε * L) := by ring
  have k0 : |o.x + h * d.x - (c.x + w.x)| ≤ 600 * (u * L) + 40 * (ε * L) := by rw [← e0]; exact hnear 0
  have k1 : |o.y + h * d.y - (c.y + w.y)| ≤ 600 * (u * L) + 40 * (ε * L) := by rw [← e0]; exact hnear 1
  have k2 : |o.z + h * d.z - (c.z + w.z)| ≤ 600 * (u * L) + 40 * (ε * L) := by rw [← e0]; exact hnear 2
  have step : ∀ {o c d w : K}, |o - c| ≤ L → |w| ≤ 1001 / 1000 * ((|a| + |b|) / 2) → |o + h * d - (c + w)| ≤ 600 * (u * L) + 40 * (ε * L) →
      |h * d| ≤ 3 * L := by
    intro o c d w h1 h2 h3
    rw [show h * d = (o + h * d - (c + w)) + w - (o - c) by ring]
    exact (abs_sub_le' (abs_add_le' h3 h2) h1).trans (by linarith)
  refine ⟨⟨step (by linarith) w1 k0, step (by linarith) w2 k1, step (by linarith) w3 k2⟩, fun h1 h2 h3 => ?_⟩
  have g1 : |p.x - c.x - w.x| ≤ 608 * (u * L) + 40 * (ε * L) := by
    rw [show p.x - c.x - w.x = (p.x - (along o d h).x) + (o.x + h * d.x - (c.x + w.x)) by
      show _ = (p.x - (o.x + h * d.x)) + _; ring]
    exact (abs_add_le' h1 k0).trans (by linarith)
  have g2 : |p.y - c.y - w.y| ≤ 608 * (u * L) + 40 * (ε * L) := by
    rw [show p.y - c.y - w.y = (p.y - (along o d h).y) + (o.y + h * d.y - (c.y + w.y)) by
      show _ = (p.y - (o.y + h * d.y)) + _; ring]
    exact (abs_add_le' h2 k1).trans (by linarith)
  have g3 : |p.z - c.z - w.z| ≤ 608 * (u * L) + 40 * (ε * L) := by
    rw [show p.z - c.z - w.z = (p.z - (along o d h).z) + (o.z + h * d.z - (c.z + w.z)) by
      show _ = (p.z - (o.z + h * d.z)) + _; ring]
    exact (abs_add_le' h3 k2).trans (by linarith)
  constructor
  · have e : Vec3.dot R.trans.r2 (p - c) = Vec3.dot R.trans.r2 ((p - c) - w) + (R.trans.mulVec (R.mulVec ⟨x', y', 0⟩)).z := by
      show _ = Vec3.dot R.trans.r2 ((p - c) - w) + Vec3.dot R.trans.r2 w
      show R.trans.r2.x * (p.x - c.x) + R.trans.r2.y * (p.y - c.y) + R.trans.r2.z * (p.z - c.z) =
        R.trans.r2.x * (p.x - c.x - w.x) + R.trans.r2.y * (p.y - c.y - w.y) + R.trans.r2.z * (p.z - c.z - w.z) +
          (R.trans.r2.x * w.x + R.trans.r2.y * w.y + R.trans.r2.z * w.z)
      ring
    rw [e]
    have q1 : |Vec3.dot R.trans.r2 ((p - c) - w)| ≤ 1001 / 1000 * (3 * (608 * (u * L) + 40 * (ε * L))) := by
      refine (unit_dot hR.cols.cc hε).2.trans (mul_le_mul_of_nonneg_left ?_ (by norm_num))
      show |p.x - c.x - w.x| + |p.y - c.y - w.y| + |p.z - c.z - w.z| ≤ _
      linarith
    have q2 : ε * (|x'| + |y'|) ≤ ε * L := mul_le_mul_of_nonneg_left (by linarith) ε0
    exact (abs_add_le' q1 ((hR.forth x' y').2.2.trans q2)).trans (by linarith)
  · have f : ∀ {x w : K}, |w| ≤ 1001 / 1000 * ((|a| + |b|) / 2) → |x - w| ≤ 608 * (u * L) + 40 * (ε * L) →
        |x| ≤ 1001 / 1000 * ((|a| + |b|) / 2) + (608 * (u * L) + 40 * (ε * L)) := fun h1 h2 => abs_le_of_near h2 h1
    have f1 := f w1 g1
    have f2 := f w2 g2
    have f3 := f w3 g3
    linarith

/-- a point in the plane of a face up to rounding, rounded once more -/
theorem face_point_near (hs : Scale u η hi L) {o d A B C p : Vec3 K} {h : K} (h0 : 0 ≤ h) (hh : h ≤ L)
    (hD : Vec3.dot d d ≤ 5 / 4) (hAB : oneNorm (A - B) ≤ L) (hCA : oneNorm (C - A) ≤ L)
    (hn : |Vec3.dot (normalOf A B C) (along o d h - A)| ≤ 12 * u * L ^ 2 * (L + h)) :
    (|h * d.x| ≤ 3 * L ∧ |h * d.y| ≤ 3 * L ∧ |h * d.z| ≤ 3 * L) ∧
    (|p.x - (along o d h).x| ≤ 8 * (u * L) → |p.y - (along o d h).y| ≤ 8 * (u * L) → |p.z - (along o d h).z| ≤ 8 * (u * L) →
      |Vec3.dot (normalOf A B C) (A - p)| ≤ 32 * (u * L ^ 3)) := by
  obtain ⟨u0, u1, η0, ηu, ηL, ηLL, ηuLL, ηuL, L0, uL0, uLL0, uL1, uLL1, hi1, hiL, hiLL⟩ := hs.sizes
  obtain ⟨d1, d2, d3⟩ := comp_le hD
  have step : ∀ {x : K}, |x| ≤ 9 / 8 → |h * x| ≤ 3 * L := by
    intro x hx
    have := abs_mul_le (by rw [abs_of_nonneg h0]; exact hh : |h| ≤ L) hx
    linarith
  refine ⟨⟨step d1, step d2, step d3⟩, fun h1 h2 h3 => ?_⟩
  have hnn : |(normalOf A B C).x| + |(normalOf A B C).y| + |(normalOf A B C).z| ≤ L ^ 2 := by
    exact (oneNorm_cross_le hAB hCA).trans_eq (by ring)
  have e : Vec3.dot (normalOf A B C) (A - p) = -(Vec3.dot (normalOf A B C) (along o d h - A)) -
      Vec3.dot (normalOf A B C) (p - along o d h) := by
    set n := normalOf A B C
    show n.x * (A.x - p.x) + n.y * (A.y - p.y) + n.z * (A.z - p.z) =
      -(n.x * ((along o d h).x - A.x) + n.y * ((along o d h).y - A.y) + n.z * ((along o d h).z - A.z)) -
      (n.x * (p.x - (along o d h).x) + n.y * (p.y - (along o d h).y) + n.z * (p.z - (along o d h).z))
    ring
  rw [e]
  have q1 : 12 * u * L ^ 2 * (L + h) ≤ 24 * (u * L ^ 3) := by
    have := mul_le_mul_of_nonneg_left hh uLL0.le
    have e : 12 * u * L ^ 2 * (L + h) = 12 * (u * L ^ 3) + 12 * (u * L ^ 2 * h) := by ring
    have e' : u * L ^ 2 * L = u * L ^ 3 := by ring
    linarith
  have q2 : |Vec3.dot (normalOf A B C) (p - along o d h)| ≤ 8 * (u * L ^ 3) := by
    set n := normalOf A B C
    have m1 := abs_mul_le (le_refl |n.x|) h1
    have m2 := abs_mul_le (le_refl |n.y|) h2
    have m3 := abs_mul_le (le_refl |n.z|) h3
    refine (abs_add_le' (abs_add_le' m1 m2) m3).trans ?_
    have := mul_le_mul_of_nonneg_right hnn (by linarith : 0 ≤ 8 * (u * L))
    have e : L ^ 2 * (8 * (u * L)) = 8 * (u * L ^ 3) := by ring
    linarith
  rw [← abs_neg] at hn
  exact (abs_sub_le' (hn.trans q1) q2).trans (by linarith)

end
end Blazert
