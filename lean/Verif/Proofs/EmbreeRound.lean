/- Helper lemmas: hits of the Embree callbacks with rounding. -/
import Verif.Proofs.Embree
import Verif.Proofs.EmbreeTrace
import Verif.Proofs.NormalRound
import Verif.Proofs.PlaneFound
import Verif.Spec.EmbreeRound

set_option autoImplicit false
set_option linter.unusedSectionVars false

namespace Blazert
open Scalar

/-! ### where the record comes from -/

section
variable {T : Type} [Scalar T]

theorem Records.line {rh rh' : RtcRayHit T} {g : Nat} {t : T} {n : Vec3 T} (h : Records rh rh' g t n) : SameLine rh'.ray rh.ray := by
  rw [h.ray]; exact ⟨rfl, rfl, rfl⟩

theorem SameLine.trans {x y z : RtcRay T} (h : SameLine x y) (h' : SameLine y z) : SameLine x z :=
  ⟨h.org.trans h'.org, h.dir.trans h'.dir, h.near.trans h'.near⟩

/-- a query that returns true reports what one callback has recorded for the given ray, or what Embree has found on a mesh -/
theorem intersect1_source {l : Layout} {calls : List (EmbCall T)} {s : EmbScene T} (hrun : embRun l .init calls = .ok s) {rtc : Rtc T}
    (htidy : rtc.Tidy) {ray : Ray T} {rayhit out : RayHit T} (h : s.Intersect1 rtc ray rayhit (.ok (true, out))) :
    ∃ i, (∃ g rh t n, s.HasUser i g ∧ SameLine rh.ray ray.toRtc.ray ∧ g.intersect invalidId rh ≠ rh ∧
        Records rh (g.intersect invalidId rh) g.geomID t n ∧ out.hitDistance = t ∧ out.normal = n ∧ out.primId = 0) ∨
      ∃ v f, s.HasMesh i v f := by
  rcases intersect1_cases h with ⟨h, _⟩ | ⟨b, _, _, order, r', _, ht, hr⟩
  · cases h
  cases r' with
  | error e => cases hr
  | ok z =>
    have e : (true, out) = z.copyTo rayhit := Except.ok.inj hr
    let P : RtcRayHit T → Prop := fun x => SameLine x.ray ray.toRtc.ray ∧ (x.hit.geomID = invalidId ∨ ∃ i,
      (∃ g rh t n, s.HasUser i g ∧ SameLine rh.ray ray.toRtc.ray ∧ x = g.intersect invalidId rh ∧ x ≠ rh ∧
        Records rh x g.geomID t n) ∨
      (∃ v f, s.HasMesh i v f))
    have hP : P z := by
      refine ht.invariant P ⟨⟨rfl, rfl, rfl⟩, .inl rfl⟩ (fun i _ a c ha hc => ?_) z rfl
      rcases process_cases hc with ⟨g, hg, hc⟩ | ⟨v, f, hm, hc⟩
      · by_cases hne : g.intersect invalidId a = a
        · rw [hc, hne]; exact ha
        · obtain ⟨t, n, h1⟩ := (g.intersect_mayRecord invalidId a).resolve_left hne
          rw [hc]
          exact ⟨h1.line.trans ha.1, .inr ⟨i, .inl ⟨g, a, t, n, hg, ha.1, rfl, hne, h1⟩⟩⟩
      · rw [hc]
        exact ⟨(htidy v f i a).trans ha.1, .inr ⟨i, .inr ⟨v, f, hm⟩⟩⟩
    by_cases hz : z.hit.geomID = invalidId
    · rw [RtcRayHit.copyTo, if_neg (by simpa using hz)] at e
      cases e
    · rw [RtcRayHit.copyTo, if_pos hz] at e
      have e2 := (Prod.mk.inj e).2
      rcases hP.2 with hP | ⟨i, ⟨g, rh, t, n, hg, hl, hx, hne, hrec⟩ | hm⟩
      · exact absurd hP hz
      · refine ⟨i, .inl ⟨g, rh, t, n, hg, hl, hx ▸ hne, hx ▸ hrec, ?_, ?_, ?_⟩⟩
        · rw [e2]; show z.ray.tfar = t; rw [hrec.ray]
        · rw [e2]; exact hrec.normal
        · rw [e2]; exact hrec.prim
      · exact ⟨i, .inr hm⟩

theorem EmbSphere.hit_line (s : EmbSphere T) (inst : Nat) (rh : RtcRayHit T) (t : T) : SameLine (s.hit inst rh t).ray rh.ray :=
  ⟨rfl, rfl, rfl⟩

/-- what is recorded by the callback of a sphere comes from one of the roots, which is above the lower limit -/
theorem EmbSphere.records_root {s : EmbSphere T} {inst : Nat} {rh : RtcRayHit T} {t : T} {n : Vec3 T} {g : Nat}
    (hne : s.intersect inst rh ≠ rh) (h : Records rh (s.intersect inst rh) g t n) :
    ∃ x0 x1 x, sphereRoots rh.ray.org rh.ray.dir s.center s.radius = some (x0, x1) ∧ (x = x0 ∨ x = x1) ∧
      gt x rh.ray.tnear = true ∧ t = Vec3.norm (Vec3.smul x rh.ray.dir) ∧
      n = Vec3.normalize (rh.ray.org + Vec3.smul x rh.ray.dir - s.center) := by
  cases hr : sphereRoots rh.ray.org rh.ray.dir s.center s.radius with
  | none => exact absurd (EmbSphere.intersect_none hr) hne
  | some x =>
    obtain ⟨x0, x1⟩ := x
    have key : ∀ x, s.intersect inst rh = s.hit inst rh x ∨ s.intersect inst rh = s.hit inst (s.hit inst rh x0) x →
        t = Vec3.norm (Vec3.smul x rh.ray.dir) ∧ n = Vec3.normalize (rh.ray.org + Vec3.smul x rh.ray.dir - s.center) := by
      intro x hx
      have h1 := congrArg RtcRay.tfar h.ray
      have h2 := h.normal
      rcases hx with hx | hx <;> rw [hx] at h1 h2 <;> exact ⟨h1.symm, h2.symm⟩
    have hi := EmbSphere.intersect_some (inst := inst) hr
    have near : ∀ r : RtcRay T, ∀ x, r.within x = true → gt x r.tnear = true := by
      intro r x hx
      unfold RtcRay.within at hx
      rw [Bool.and_eq_true] at hx
      exact hx.1
    by_cases c0 : rh.ray.within x0 = true
    · rw [if_pos c0] at hi
      by_cases c1 : (s.hit inst rh x0).ray.within x1 = true
      · rw [if_pos c1] at hi
        exact ⟨x0, x1, x1, rfl, .inr rfl, near (s.hit inst rh x0).ray _ c1, key x1 (.inr hi)⟩
      · rw [if_neg c1] at hi
        exact ⟨x0, x1, x0, rfl, .inl rfl, near _ _ c0, key x0 (.inl hi)⟩
    · rw [if_neg c0] at hi
      by_cases c1 : rh.ray.within x1 = true
      · rw [if_pos c1] at hi
        exact ⟨x0, x1, x1, rfl, .inr rfl, near _ _ c1, key x1 (.inl hi)⟩
      · rw [if_neg c1] at hi
        exact absurd hi hne

end

/-! ### spheres with rounding -/

section
variable {K : Type} [Field K] [LinearOrder K] [IsStrictOrderedRing K] [FloorRing K] {F : Fmt K} {u η hi L : K}

/-- `sphere_run` for the two candidates -/
theorem sphere_roots_run (hF : F.Rounds u η hi) (hs : Scale u η hi L) {org dir cen : Vec3 (XF F)} {rad : XF F}
    {o d c : Vec3 K} {r : K} (ho : IsV org o) (hd : IsV dir d) (hc : IsV cen c) (hr : rad.Is r)
    (hN0 : 3 / 4 ≤ Vec3.dot d d) (hN1 : Vec3.dot d d ≤ 5 / 4)
    (hL : |o.x - c.x| + |o.y - c.y| + |o.z - c.z| + |r| ≤ L) :
    ∃ A B C D, CoefBounds A B C L ∧ |A - Vec3.dot d d| ≤ 6 * u ∧ |B - 2 * Vec3.dot (o - c) d| ≤ 14 * (u * L) ∧
      |C - (Vec3.dot (o - c) (o - c) - r * r)| ≤ 9 * (u * L ^ 2) ∧ |D - (B * B - 4 * A * C)| ≤ 26 * (u * L ^ 2) ∧
      (D < 0 → sphereRoots org dir cen rad = none) ∧
      (0 ≤ D → ∃ Q x0 x1 t0 t1, 0 ≤ Q ∧ Q ≤ 33 / 10 * L ∧ |Q ^ 2 - (B * B - 4 * A * C)| ≤ 68 * (u * L ^ 2) ∧
        x0.Is t0 ∧ x1.Is t1 ∧ |t0 - (-B - Q) / (2 * A)| ≤ 16 * (u * L) ∧ |t1 - (-B + Q) / (2 * A)| ≤ 16 * (u * L) ∧
        |t0| ≤ 38 / 10 * L ∧ |t1| ≤ 38 / 10 * L ∧ sphereRoots org dir cen rad = some (x0, x1)) := by
  obtain ⟨A, B, C, a1, b1, c1, hA, hB, hC, hb, hc'⟩ := sphere_coeffs hF hs ho hd hc hr hN1 hL
  have hcb := CoefBounds.of hs hA hB hC hN0 hN1 hb hc'
  obtain ⟨D, d1, hD, hD'⟩ := sphere_disc hF hs a1 b1 c1 hcb
  refine ⟨A, B, C, D, hcb, hA, hB, hC, hD, fun h0 => ?_, fun h0 => ?_⟩
  · unfold sphereRoots
    simp only
    rw [if_pos ((XF.Is.lt d1 hF.nat0).2 h0)]
  · obtain ⟨Q, q1, q2, q3, q4⟩ := sphere_sqrt hF hs d1 h0 hD' hD
    obtain ⟨u0, u1, η0, ηu, ηL, ηLL, -, -, L0, uL0, uLL0, uL1, uLL1, hi1, hiL, hiLL⟩ := hs.sizes
    have hQ : |Q| ≤ 33 / 10 * L := by rw [abs_of_nonneg q2]; exact q3
    have hBn : |-B| ≤ 226 / 100 * L := by rw [abs_neg]; exact hcb.B
    have h1 : |-B - Q| ≤ 556 / 100 * L := (abs_sub_le' hBn hQ).trans_eq (by ring)
    have h2 : |-B + Q| ≤ 556 / 100 * L := (abs_add_le' hBn hQ).trans_eq (by ring)
    obtain ⟨m0, m1, m2, -⟩ := rnd_sub hF.toGradual u0.le b1.neg q1 h1 (by linarith)
    obtain ⟨n0, n1, n2, -⟩ := rnd_add hF.toGradual u0.le b1.neg q1 h2 (by linarith)
    obtain ⟨t0, t01, t02, t03⟩ := sphere_root hF hs a1 m1 hcb.A0 h1 (by linarith)
    obtain ⟨t1, t11, t12, t13⟩ := sphere_root hF hs a1 n1 hcb.A0 h2 (by linarith)
    refine ⟨Q, _, _, t0, t1, q2, q3, q4, t01, t11, t02, t12, t03, t13, ?_⟩
    have hlt : lt (nat 2 * Vec3.dot (org - cen) dir * (nat 2 * Vec3.dot (org - cen) dir) -
        nat 4 * Vec3.dot dir dir * (Vec3.dot (org - cen) (org - cen) - rad * rad)) (nat 0) = false := by
      rw [Bool.eq_false_iff, ne_eq, XF.Is.lt d1 hF.nat0]
      exact not_lt.2 h0
    unfold sphereRoots
    simp only
    rw [hlt]
    simp only [Bool.false_eq_true, if_false]

/-- both candidates are on the sphere -/
theorem sphere_roots_near (hF : F.Rounds u η hi) (hs : Scale u η hi L) {org dir cen : Vec3 (XF F)} {rad : XF F}
    {o d c : Vec3 K} {r : K} (ho : IsV org o) (hd : IsV dir d) (hc : IsV cen c) (hr : rad.Is r)
    (hN0 : 3 / 4 ≤ Vec3.dot d d) (hN1 : Vec3.dot d d ≤ 5 / 4)
    (hL : |o.x - c.x| + |o.y - c.y| + |o.z - c.z| + |r| ≤ L) {x0 x1 x : XF F} (h : sphereRoots org dir cen rad = some (x0, x1))
    (hx : x = x0 ∨ x = x1) : ∃ t, x.Is t ∧ |t| ≤ 38 / 10 * L ∧
      |Vec3.dot (along o d t - c) (along o d t - c) - r * r| ≤ 400 * (u * L ^ 2) := by
  obtain ⟨A, B, C, D, hcb, hA, hB, hC, hD, hneg, hpos⟩ := sphere_roots_run hF hs ho hd hc hr hN0 hN1 hL
  rcases lt_or_ge D 0 with hlt | hge
  · rw [hneg hlt] at h; cases h
  obtain ⟨Q, y0, y1, t0, t1, q1, q2, q3, e0, e1, f0, f1, g0, g1, heq⟩ := hpos hge
  rw [heq] at h
  simp only [Option.some.injEq, Prod.mk.injEq] at h
  rw [← h.1, ← h.2] at hx
  rcases hx with rfl | rfl
  · refine ⟨t0, e0, g0, ?_⟩
    rw [along_sq]
    refine root_residual hs hcb hA hB hC rfl ?_ f0 g0
    rw [show -B - Q + B = -Q by ring, neg_sq]
    exact q3
  · refine ⟨t1, e1, g1, ?_⟩
    rw [along_sq]
    refine root_residual hs hcb hA hB hC rfl ?_ f1 g1
    rw [show -B + Q + B = Q by ring]
    exact q3

/-- what the callback of a sphere records -/
theorem EmbSphere.near (hF : F.Rounds u η hi) (hs : Scale u η hi L) {s : EmbSphere (XF F)} {inst : Nat} {rh : RtcRayHit (XF F)}
    {g : Nat} {x : XF F} {n : Vec3 (XF F)} {o d c : Vec3 K} {r m : K} (ho : IsV rh.ray.org o) (hd : IsV rh.ray.dir d)
    (hm : rh.ray.tnear.Is m) (hm0 : 0 ≤ m) (hN : |Vec3.dot d d - 1| ≤ 11 * u) (hc : IsV s.center c) (hr : s.radius.Is r)
    (hL : |o.x - c.x| + |o.y - c.y| + |o.z - c.z| + |r| ≤ L) (hne : s.intersect inst rh ≠ rh)
    (h : Records rh (s.intersect inst rh) g x n) :
    ∃ h t y, x.Is h ∧ y.Is t ∧ n = Vec3.normalize (rh.ray.org + Vec3.smul y rh.ray.dir - s.center) ∧ 0 ≤ h ∧ m < t ∧
      t ≤ 38 / 10 * L ∧ |h - t| ≤ 110 * (u * L) ∧ |power c r (along o d t)| ≤ 400 * (u * L ^ 2) ∧
      |power c r (along o d h)| ≤ 2000 * (u * L ^ 2) := by
  obtain ⟨u0, u1, η0, ηu, ηL, ηLL, ηuLL, ηuL, L0, uL0, uLL0, uL1, uLL1, hi1, hiL, hiLL⟩ := hs.sizes
  obtain ⟨n1, n2⟩ := abs_le.1 hN
  have hN0 : 3 / 4 ≤ Vec3.dot d d := by linarith
  have hN1 : Vec3.dot d d ≤ 5 / 4 := by linarith
  obtain ⟨x0, x1, y, hroots, hy, hgt, ht, hn⟩ := EmbSphere.records_root hne h
  obtain ⟨t, t1, t2, t3⟩ := sphere_roots_near hF hs ho hd hc hr hN0 hN1 hL hroots hy
  have hmt : m < t := (XF.Is.gt t1 hm).1 hgt
  have t0 : 0 ≤ t := by linarith
  obtain ⟨k, k1, k2, k3⟩ := norm_scaled hF hs t1 hd hN1 t2
  have k4 := dist_near hs k2 t0 hN hs.eleven k3
  have htL : t ≤ 38 / 10 * L := (le_abs_self _).trans t2
  obtain ⟨A', B', C', -, -, -, -, -, -, hb, -⟩ := sphere_coeffs hF hs ho hd hc hr hN1 hL
  refine ⟨k, t, y, ht ▸ k1, t1, hn, k2, hmt, htL, ?_, t3, ?_⟩
  · have := mul_le_mul_of_nonneg_left htL u0.le
    refine k4.trans ?_
    have e : (11 * u + 13 * u) * t = 24 * (u * t) := by ring
    rw [e]; linarith
  · have t4 := t3
    rw [along_sq] at t4
    have := residual_at_distance hs t0 hN hs.eleven htL hb k4 t4
    rw [← along_sq] at this
    exact this.trans (by nlinarith)

theorem shift_near {r e f : K} (u0 : 0 ≤ u) (L0 : 0 < L) (r0 : 0 < r) (hrL : r ≤ L) (he : |e| ≤ 110 * (u * L)) (hf : |f| ≤ 9 / 8) :
    |e * f / r| ≤ 124 * u * (L / r) ^ 2 := by
  rw [abs_div, abs_of_pos r0, div_le_iff₀ r0]
  refine (abs_mul_le he hf).trans ?_
  have h1 : L ≤ (L / r) ^ 2 * r := by
    rw [div_pow, div_mul_eq_mul_div, le_div_iff₀ (by positivity), pow_two, pow_two]
    have := mul_le_mul_of_nonneg_left hrL (mul_pos L0 r0).le
    linarith
  have h2 := mul_le_mul_of_nonneg_left h1 u0
  have h3 := mul_nonneg u0 L0.le
  linarith

/-- the normal the callback of a sphere records -/
theorem EmbSphere.normal_near (hF : F.Rounds u η hi) {s : EmbSphere (XF F)} {inst : Nat} {rh : RtcRayHit (XF F)}
    {g : Nat} {x : XF F} {n : Vec3 (XF F)} {o d c : Vec3 K} {r m : K} (ho : IsV rh.ray.org o) (hd : IsV rh.ray.dir d)
    (hm : rh.ray.tnear.Is m) (hm0 : 0 ≤ m) (hN : |Vec3.dot d d - 1| ≤ 11 * u) (hc : IsV s.center c) (hr : s.radius.Is r)
    (hs : Scale u η hi (4 * L)) (hsr : Scale u η hi (r / 2)) (hL : |o.x| + |o.y| + |o.z| + |c.x| + |c.y| + |c.z| + r ≤ L)
    (hsmall : 5000 * u * L ^ 2 ≤ r ^ 2) (hne : s.intersect inst rh ≠ rh) (h : Records rh (s.intersect inst rh) g x n) :
    ∃ h n', x.Is h ∧ IsV n n' ∧ |Vec3.dot n' n' - 1| ≤ 11 * u ∧
      ∀ k, |n'.get k - ((along o d h).get k - c.get k) / r| ≤ 2300 * u * (L / r) ^ 2 := by
  have r0 : 0 < r := by linarith [hsr.pos]
  have b1 := abs_sub_le' (le_refl |o.x|) (le_refl |c.x|)
  have b2 := abs_sub_le' (le_refl |o.y|) (le_refl |c.y|)
  have b3 := abs_sub_le' (le_refl |o.z|) (le_refl |c.z|)
  have hrL : r ≤ L := by
    have := abs_nonneg o.x; have := abs_nonneg o.y; have := abs_nonneg o.z
    have := abs_nonneg c.x; have := abs_nonneg c.y; have := abs_nonneg c.z
    linarith
  have hsL : Scale u η hi L := hsr.between hs (by linarith) (by linarith)
  obtain ⟨u0, u1, η0, ηu, ηL, ηLL, ηuLL, ηuL, L0, uL0, uLL0, uL1, uLL1, hi1, hiL, hiLL⟩ := hsL.sizes
  obtain ⟨k, t, y, k1, k2, k3, k4, k5, k6, k7, k8, -⟩ := EmbSphere.near hF hsL ho hd hm hm0 hN hc hr
    (by rw [abs_of_pos r0]; linarith) hne h
  obtain ⟨n', n1, n2, n3⟩ := sphere_normal_near hF hs hsr ho hd hc k2 hL hsmall (k8.trans (by nlinarith))
  refine ⟨k, n', k1, k3 ▸ n1, n2, fun j => ?_⟩
  have hN1 : Vec3.dot d d ≤ 5 / 4 := by linarith [(abs_le.1 hN).2]
  obtain ⟨dx, dy, dz⟩ := comp_le hN1
  have hd9 : |d.get j| ≤ 9 / 8 := by
    match j with
    | 0 => exact dx
    | 1 => exact dy
    | 2 => exact dz
  have e : (along o d k).get j = (along o d t).get j + (k - t) * d.get j := by
    match j with
    | 0 => show o.x + k * d.x = o.x + t * d.x + (k - t) * d.x; ring
    | 1 => show o.y + k * d.y = o.y + t * d.y + (k - t) * d.y; ring
    | 2 => show o.z + k * d.z = o.z + t * d.z + (k - t) * d.z; ring
  rw [e, show n'.get j - ((along o d t).get j + (k - t) * d.get j - c.get j) / r =
    (n'.get j - ((along o d t).get j - c.get j) / r) - (k - t) * d.get j / r by field_simp; ring]
  have h1 := shift_near u0.le L0 r0 hrL k7 hd9
  have := abs_sub_le' (n3 j) h1
  have h4 : 0 ≤ u * (L / r) ^ 2 := by positivity
  linarith


/-! ### planes with rounding -/

variable {ε : K}

/-- both normals the callback of a plane may record in the interior -/
theorem emb_plane_normal (hF : F.Rounds u η hi) (h1 : Scale u η hi (1 / 2)) (h4 : Scale u η hi 4) {rot : Mat3 (XF F)} {R : Mat3 K}
    {z : XF F} {a : K} (hR : IsM rot R) (hortho : NearOrtho ε R) (hε : ε ≤ 1 / 1000) (hz : z.Is a) (ha : a ≠ 0)
    {v n : Vec3 (XF F)} (hv : v = Vec3.smul (z / abs z) (rot.mulVec ⟨nat 0, nat 0, nat 1⟩)) (hn : n = v ∨ n = Vec3.divs v (Vec3.norm v)) :
    ∃ n' σ, IsV n n' ∧ (σ = 1 ∨ σ = -1) ∧ 0 < σ * a ∧ ∀ k, |n'.get k - σ * (perp R).get k| ≤ 80 * u + ε := by
  rcases hn with rfl | rfl
  · have u0 := h1.u_pos
    have ε0 := hortho.rows.nonneg
    have hone : Scale u η hi 1 := h1.between h4 (by norm_num) (by norm_num)
    obtain ⟨s, σ, s1, s2, s3, s4⟩ := sign_near hF hone hz ha
    have hcc : |Vec3.dot (perp R) (perp R) - 1| ≤ ε := hortho.cols.cc
    obtain ⟨wx, wy, wz⟩ := unit_comp hcc hε
    obtain ⟨x, x1, x2⟩ := third_col hF hone hR.1 (wx.trans (by norm_num)) s1 s2 s4
    obtain ⟨y, y1, y2⟩ := third_col hF hone hR.2.1 (wy.trans (by norm_num)) s1 s2 s4
    obtain ⟨w, w1, w2⟩ := third_col hF hone hR.2.2 (wz.trans (by norm_num)) s1 s2 s4
    refine ⟨⟨x, y, w⟩, σ, hv ▸ ⟨x1, y1, w1⟩, s2, s3, fun k => ?_⟩
    have : 7 * u ≤ 80 * u + ε := by linarith
    match k with
    | 0 => exact x2.trans this
    | 1 => exact y2.trans this
    | 2 => exact w2.trans this
  · obtain ⟨n', σ, n1, -, n3, n4, n5⟩ := plane_normal_near hF h1 h4 hR hortho hε hz ha
    exact ⟨n', σ, hv ▸ n1, n3, n4, n5⟩

/-- what the callback of a plane records -/
theorem EmbPlane.near (hF : F.Rounds u η hi) (hfa : F.Faithful u η) (hodd : F.Odd) (hs : Scale u η hi L) (hhalf : Scale u η hi (1 / 2))
    (hfour : Scale u η hi 4) {p : EmbPlane (XF F)} {inst : Nat} {rh : RtcRayHit (XF F)} {g : Nat} {x : XF F} {n : Vec3 (XF F)}
    {o d c : Vec3 K} {a b m : K} {R : Mat3 K} (ho : IsV rh.ray.org o) (hd : IsV rh.ray.dir d)
    (hm : rh.ray.tnear.Is m) (hm0 : 0 ≤ m) (hN : |Vec3.dot d d - 1| ≤ 11 * u) (hq : PlaneWithin ε o L p.native c a b R)
    (hε : ε ≤ 1 / 1000) (hne : p.intersect inst rh ≠ rh) (h : Records rh (p.intersect inst rh) g x n) :
    ∃ h, x.Is h ∧ 0 ≤ h ∧ (∃ y, InRect c a b R y ∧ ∀ k, |(along o d h).get k - y.get k| ≤ 600 * (u * L) + 40 * (ε * L)) ∧
      (|(R.trans.mulVec (along o d h - c)).x| + 185 * (u * L) + 11 * (ε * L) < a / 2 →
      |(R.trans.mulVec (along o d h - c)).y| + 185 * (u * L) + 11 * (ε * L) < b / 2 →
      ∃ n' σ, IsV n n' ∧ (σ = 1 ∨ σ = -1) ∧ (∀ k, |n'.get k - σ * (perp R).get k| ≤ 80 * u + ε) ∧
        -(6 * (u * L)) ≤ σ * Vec3.dot (perp R) (o - c) ∧ σ * Vec3.dot (perp R) d ≤ 8 * u) := by
  set ray : Ray (XF F) := Ray.make' rh.ray.org rh.ray.dir
  have hag := p.agree inst rh ray
  have hhit : (planeIntersect rh.ray.planeI p.native ray).2 = true := by
    rw [← Bool.not_eq_false]
    exact fun hc => hne (hag.miss hc).1
  obtain ⟨n0, hrec, hn0⟩ := hag.hit hhit
  have hx : x = (planeIntersect rh.ray.planeI p.native ray).1.hd := by
    have h1 := congrArg RtcRay.tfar h.ray
    have h2 := congrArg RtcRay.tfar hrec.ray
    exact h1.symm.trans h2
  have hn : n = n0 := h.normal.symm.trans hrec.normal
  obtain ⟨k, T, a1, a2, -, -, -, -, -, ⟨z, e, z1, z2, z3, z4⟩, a3, a4⟩ := plane_hit_near hF hfa hodd hs ray (i := rh.ray.planeI)
    ho hd hq hε hm hm0 hN (i' := (planeIntersect rh.ray.planeI p.native ray).1) (Prod.ext rfl hhit)
  refine ⟨k, hx ▸ a1, a2, a4, fun ix iy => ?_⟩
  have hz0 : z ≠ 0 := by
    rintro rfl
    rw [zero_mul] at z4
    exact lt_irrefl _ z4
  obtain ⟨n', σ, n1, n3, n4, n5⟩ := emb_plane_normal hF hhalf hfour hq.rot hq.ortho hε z1 hz0 (a3 ix iy) (hn ▸ hn0)
  refine ⟨n', σ, n1, n3, n5, ?_, ?_⟩
  · obtain ⟨y1, y2⟩ := abs_le.1 z2
    change -(6 * (u * L)) ≤ σ * (R.trans.mulVec (o - c)).z
    rcases n3 with rfl | rfl <;> linarith
  · obtain ⟨y1, y2⟩ := abs_le.1 z3
    change σ * (R.trans.mulVec d).z ≤ 8 * u
    rcases n3 with rfl | rfl
    · have : e < 0 := by
        by_contra hneg
        have := mul_nonneg (by linarith : 0 ≤ z) (not_lt.1 hneg)
        linarith
      linarith
    · have : 0 < e := by
        by_contra hneg
        have := mul_nonneg_of_nonpos_of_nonpos (by linarith : z ≤ 0) (not_lt.1 hneg)
        linarith
      linarith

end
end Blazert
