/- The callbacks of spheres and planes against the native tests and the limits of the ray, with rounding. -/
import Verif.Proofs.EmbreeFound

set_option autoImplicit false

namespace Blazert
open Scalar

section
variable {K : Type} [Field K] [LinearOrder K] [IsStrictOrderedRing K] [FloorRing K] {F : Fmt K} {u η hi L ε : K}

/-- if the native test accepts, the callback records nearly the same distance, and nearly one within the limits -/
theorem EmbSphere.agree_near (hF : F.Rounds u η hi) (hs : Scale u η hi L) (s : EmbSphere (XF F)) (inst : Nat) {rh : RtcRayHit (XF F)}
    {o d c : Vec3 K} {r m : K} (ho : IsV rh.ray.org o) (hd : IsV rh.ray.dir d)
    (hm : rh.ray.tnear.Is m) (hm0 : 0 ≤ m) (hN : |Vec3.dot d d - 1| ≤ 11 * u) (hc : IsV s.center c) (hr : s.radius.Is r)
    (hL : |o.x - c.x| + |o.y - c.y| + |o.z - c.z| + |r| ≤ L) (ray : Ray (XF F))
    (hhit : (sphereIntersect rh.ray.sphereI s.native ray).2 = true) :
    ∃ h h' x n, Records rh (s.intersect inst rh) s.geomID x n ∧ x.Is h ∧
      (sphereIntersect rh.ray.sphereI s.native ray).1.hd.Is h' ∧ |h - h'| ≤ 330 * (u * L) ∧ m - 110 * (u * L) < h ∧
      ∀ M, rh.ray.tfar.Is M → h < M + 220 * (u * L) := by
  obtain ⟨u0, u1, η0, ηu, ηL, ηLL, ηuLL, ηuL, L0, uL0, uLL0, uL1, uLL1, hi1, hiL, hiLL⟩ := hs.sizes
  obtain ⟨n1, n2⟩ := abs_le.1 hN
  have hN0 : 3 / 4 ≤ Vec3.dot d d := by linarith
  have hN1 : Vec3.dot d d ≤ 5 / 4 := by linarith
  obtain ⟨A, B, C, D, hcb, hA, hB, hC, hD, hneg, hpos⟩ := sphere_roots_run hF hs ho hd hc hr hN0 hN1 hL
  rcases lt_or_ge D 0 with hlt | hge
  · rw [sphereIntersect_none (i := rh.ray.sphereI) (s := s.native) (hneg hlt)] at hhit
    cases hhit
  obtain ⟨Q, x0, x1, t0, t1, q1, q2, q3, e0, e1, f0, f1, g0, g1, heq⟩ := hpos hge
  have hord : t0 - 32 * (u * L) ≤ t1 := by
    have a1 := (abs_le.1 f0).2
    have a2 := (abs_le.1 f1).1
    have A0 : 0 < 2 * A := by linarith [hcb.A0]
    have : (-B - Q) / (2 * A) ≤ (-B + Q) / (2 * A) := by
      rw [div_le_div_iff_of_pos_right A0]; linarith
    linarith
  have near : ∀ (r : RtcRay (XF F)) (x : XF F) (t : K), r.tnear = rh.ray.tnear → x.Is t → r.within x = true →
      m < t ∧ ∀ M, r.tfar.Is M → t < M := by
    intro r x t hr hx hw
    unfold RtcRay.within at hw
    rw [Bool.and_eq_true] at hw
    exact ⟨(XF.Is.gt hx (hr ▸ hm)).1 hw.1, fun M hM => (XF.Is.lt hx hM).1 hw.2⟩
  have e := EmbSphere.intersect_some (inst := inst) heq
  have e' := sphereIntersect_some (i := rh.ray.sphereI) (s := s.native) (ray := ray) heq
  have ew : ∀ X, (gt X rh.ray.sphereI.minHit && lt X rh.ray.sphereI.hd) = rh.ray.within X := fun X => rfl
  rw [ew, ew] at e'
  by_cases c0 : rh.ray.within x0 = true
  · obtain ⟨i1, i2⟩ := near _ _ _ rfl e0 c0
    obtain ⟨k0, j1, j2⟩ := s.hit_limit hF hs inst (rh := rh) hd hm0 hN e0 g0 i1
    obtain ⟨j3, j4⟩ := abs_le.1 j2
    rw [if_pos c0] at e e'
    rw [e']
    by_cases c1 : (s.hit inst rh x0).ray.within x1 = true
    · rw [if_pos c1] at e
      obtain ⟨w1, w2⟩ := near (s.hit inst rh x0).ray _ _ rfl e1 c1
      obtain ⟨k1, l1, l2⟩ := s.hit_limit hF hs inst (rh := rh) hd hm0 hN e1 g1 w1
      obtain ⟨l3, l4⟩ := abs_le.1 l2
      have w3 := w2 _ j1
      rw [e]
      refine ⟨k1, k0, _, _, ⟨rfl, rfl, rfl, rfl⟩, l1, j1, ?_, by linarith, fun M hM => ?_⟩
      · rw [abs_le]; constructor <;> linarith
      · have := i2 M hM; linarith
    · rw [if_neg c1] at e
      rw [e]
      refine ⟨k0, k0, _, _, s.hit_records inst rh x0, j1, j1, ?_, by linarith, fun M hM => ?_⟩
      · rw [sub_self, abs_zero]; positivity
      · have := i2 M hM; linarith
  · rw [if_neg c0] at e e'
    by_cases c1 : rh.ray.within x1 = true
    · obtain ⟨i1, i2⟩ := near _ _ _ rfl e1 c1
      obtain ⟨k0, j1, j2⟩ := s.hit_limit hF hs inst (rh := rh) hd hm0 hN e1 g1 i1
      obtain ⟨j3, j4⟩ := abs_le.1 j2
      rw [if_pos c1] at e e'
      rw [e, e']
      refine ⟨k0, k0, _, _, s.hit_records inst rh x1, j1, j1, ?_, by linarith, fun M hM => ?_⟩
      · rw [sub_self, abs_zero]; positivity
      · have := i2 M hM; linarith
    · rw [if_neg c1] at e'
      rw [e'] at hhit
      cases hhit

/-- a number between the two candidates is not clearly outside -/
theorem between_roots (u0 : 0 < u) (L0 : 0 < L) (u1 : u ≤ 1 / 2 ^ 20) {A B C Q t0 t1 m : K} (A0 : 74 / 100 ≤ A) (A1 : A ≤ 126 / 100)
    (q0 : 0 ≤ Q) (q2 : |Q ^ 2 - (B * B - 4 * A * C)| ≤ 68 * (u * L ^ 2)) (f0 : |t0 - (-B - Q) / (2 * A)| ≤ 16 * (u * L))
    (f1 : |t1 - (-B + Q) / (2 * A)| ≤ 16 * (u * L)) (g0 : |t0| ≤ 38 / 10 * L) (g1 : |t1| ≤ 38 / 10 * L)
    (hm : t0 ≤ m ∧ m < t1 ∨ t1 ≤ m ∧ m < t0) : A * m ^ 2 + B * m + C ≤ 180 * (u * L ^ 2) := by
  have uL0 : 0 < u * L := mul_pos u0 L0
  have uLL0 : 0 < u * L ^ 2 := by positivity
  have hA0 : 0 < 2 * A := by linarith
  have uL1 : 16 * (u * L) ≤ 1 / 100 * L := by
    have := mul_le_mul_of_nonneg_right u1 L0.le
    linarith
  obtain ⟨a, ha⟩ : ∃ a, a = (-B - Q) / (2 * A) := ⟨_, rfl⟩
  obtain ⟨b, hb⟩ : ∃ b, b = (-B + Q) / (2 * A) := ⟨_, rfl⟩
  have hab : a ≤ b := by
    rw [ha, hb, div_le_div_iff_of_pos_right hA0]; linarith
  have e1 : 2 * A * a = -B - Q := by rw [ha]; field_simp
  have e2 : 2 * A * b = -B + Q := by rw [hb]; field_simp
  rw [← ha] at f0
  rw [← hb] at f1
  clear ha hb
  obtain ⟨f2, f3⟩ := abs_le.1 f0
  obtain ⟨f4, f5⟩ := abs_le.1 f1
  obtain ⟨g2, g3⟩ := abs_le.1 g0
  obtain ⟨g4, g5⟩ := abs_le.1 g1
  have h1 : a - 16 * (u * L) ≤ m := by rcases hm with h | h <;> linarith [h.1]
  have h2 : m ≤ b + 16 * (u * L) := by rcases hm with h | h <;> linarith [h.2]
  have hm1 : m ≤ 38 / 10 * L := by rcases hm with h | h <;> linarith [h.2]
  have hm2 : -(38 / 10 * L) ≤ m := by rcases hm with h | h <;> linarith [h.1]
  have hprod : (m - a) * (m - b) ≤ 122 * (u * L ^ 2) := by
    have key : ∀ x y : K, 0 ≤ x → x ≤ 16 * (u * L) → 0 ≤ y → y ≤ 762 / 100 * L → x * y ≤ 122 * (u * L ^ 2) := by
      intro x y x0 x1 y0 y1
      refine (mul_le_mul x1 y1 y0 (by positivity)).trans ?_
      have : 16 * (u * L) * (762 / 100 * L) = 12192 / 100 * (u * L ^ 2) := by ring
      rw [this]; linarith
    rcases lt_or_ge m a with ha | ha
    · have := key (a - m) (b - m) (by linarith) (by linarith) (by linarith) (by linarith)
      have e : (m - a) * (m - b) = (a - m) * (b - m) := by ring
      rw [e]; exact this
    · rcases lt_or_ge b m with hb | hb
      · have := key (m - b) (m - a) (by linarith) (by linarith) (by linarith) (by linarith)
        have e : (m - a) * (m - b) = (m - b) * (m - a) := by ring
        rw [e]; exact this
      · have := mul_nonneg (sub_nonneg.2 ha) (sub_nonneg.2 hb)
        have e : (m - a) * (m - b) = -((m - a) * (b - m)) := by ring
        rw [e]; linarith
  have hfac : 4 * A * (A * m ^ 2 + B * m + C) = 4 * A * (A * ((m - a) * (m - b))) + (Q ^ 2 - (B * B - 4 * A * C)) := by
    have h3 : (2 * A * m - 2 * A * a) * (2 * A * m - 2 * A * b) = 4 * A * (A * ((m - a) * (m - b))) := by ring
    rw [← h3, e1, e2]; ring
  have hA4 : 0 ≤ 4 * A * A := by positivity
  have h4 : A * ((m - a) * (m - b)) ≤ 15372 / 100 * (u * L ^ 2) := by
    have i1 : A * ((m - a) * (m - b)) ≤ A * (122 * (u * L ^ 2)) := mul_le_mul_of_nonneg_left hprod (by linarith)
    have i2 : A * (122 * (u * L ^ 2)) ≤ 126 / 100 * (122 * (u * L ^ 2)) := mul_le_mul_of_nonneg_right A1 (by positivity)
    linarith
  by_contra hcon
  have hcon := not_le.1 hcon
  have h5 : 26 * (u * L ^ 2) < (A * m ^ 2 + B * m + C) - A * ((m - a) * (m - b)) := by linarith
  have h6 : 4 * (74 / 100) * (26 * (u * L ^ 2)) ≤ 4 * A * ((A * m ^ 2 + B * m + C) - A * ((m - a) * (m - b))) :=
    mul_le_mul (by linarith) h5.le (by positivity) (by linarith)
  have h7 := (abs_le.1 q2).2
  have h8 : 4 * A * ((A * m ^ 2 + B * m + C) - A * ((m - a) * (m - b))) = Q ^ 2 - (B * B - 4 * A * C) := by
    rw [mul_sub, hfac]; ring
  rw [h8] at h6
  linarith

/-- `poly_near` for the range of the candidates -/
theorem poly_near_wide (L0 : 0 < L) (u0 : 0 < u) {A B C N b c t : K} (hA : |A - N| ≤ 6 * u)
    (hB : |B - b| ≤ 14 * (u * L)) (hC : |C - c| ≤ 9 * (u * L ^ 2)) (ht : |t| ≤ 38 / 10 * L) :
    |(A * t ^ 2 + B * t + C) - (N * t ^ 2 + b * t + c)| ≤ 150 * (u * L ^ 2) := by
  have uLL0 : 0 < u * L ^ 2 := by positivity
  have htt : |t ^ 2| ≤ 1444 / 100 * L ^ 2 := by
    rw [abs_pow]
    have := pow_le_pow_left₀ (abs_nonneg t) ht 2
    refine this.trans_eq (by ring)
  have e : (A * t ^ 2 + B * t + C) - (N * t ^ 2 + b * t + c) = (A - N) * t ^ 2 + (B - b) * t + (C - c) := by ring
  rw [e]
  refine (abs_add_le' (abs_add_le' (abs_mul_le hA htt) (abs_mul_le hB ht)) hC).trans ?_
  have e2 : 6 * u * (1444 / 100 * L ^ 2) + 14 * (u * L) * (38 / 10 * L) + 9 * (u * L ^ 2) = 14884 / 100 * (u * L ^ 2) := by ring
  rw [e2]; linarith

/-- if the ray is clearly outside the sphere at `tnear`, the occlusion callback reports an occlusion if and only if the intersection
callback records a hit -/
theorem EmbSphere.occluded_agree (hF : F.Rounds u η hi) (hs : Scale u η hi L) (s : EmbSphere (XF F)) (inst : Nat) (inf : XF F)
    {rh : RtcRayHit (XF F)}
    {o d c : Vec3 K} {r m : K} (ho : IsV rh.ray.org o) (hd : IsV rh.ray.dir d)
    (hm : rh.ray.tnear.Is m) (hN : |Vec3.dot d d - 1| ≤ 11 * u) (hc : IsV s.center c) (hr : s.radius.Is r)
    (hL : |o.x - c.x| + |o.y - c.y| + |o.z - c.z| + |r| ≤ L) (hout : 400 * (u * L ^ 2) ≤ power c r (along o d m)) :
    OcclusionAgrees inf (.sphere s) inst rh := by
  obtain ⟨u0, u1, η0, ηu, ηL, ηLL, ηuLL, ηuL, L0, uL0, uLL0, uL1, uLL1, hi1, hiL, hiLL⟩ := hs.sizes
  obtain ⟨n1, n2⟩ := abs_le.1 hN
  have hN0 : 3 / 4 ≤ Vec3.dot d d := by linarith
  have hN1 : Vec3.dot d d ≤ 5 / 4 := by linarith
  obtain ⟨A, B, C, D, hcb, hA, hB, hC, hD, hneg, hpos⟩ := sphere_roots_run hF hs ho hd hc hr hN0 hN1 hL
  rcases lt_or_ge D 0 with hlt | hge
  · exact .inl ⟨EmbSphere.intersect_none (hneg hlt), EmbSphere.occluded_none (hneg hlt)⟩
  obtain ⟨Q, x0, x1, t0, t1, q1, q2, q3, e0, e1, f0, f1, g0, g1, heq⟩ := hpos hge
  have side : m < t0 ↔ m < t1 := by
    have no : ¬ (t0 ≤ m ∧ m < t1 ∨ t1 ≤ m ∧ m < t0) := by
      intro h
      have hmL : |m| ≤ 38 / 10 * L := by
        obtain ⟨g2, g3⟩ := abs_le.1 g0
        obtain ⟨g4, g5⟩ := abs_le.1 g1
        rw [abs_le]
        rcases h with h | h <;> constructor <;> linarith [h.1, h.2]
      have h1 := between_roots u0 L0 u1 hcb.A0 hcb.A1 q1 q3 f0 f1 g0 g1 h
      have h2 := (abs_le.1 (poly_near_wide L0 u0 hA hB hC hmL)).1
      unfold power at hout
      rw [along_sq] at hout
      linarith
    constructor
    · intro h
      by_contra hc
      exact no (.inr ⟨not_lt.1 hc, h⟩)
    · intro h
      by_contra hc
      exact no (.inl ⟨not_lt.1 hc, h⟩)
  have e := EmbSphere.intersect_some (inst := inst) heq
  have e' := EmbSphere.occluded_some (inf := inf) heq
  have w : ∀ x, rh.ray.within x = (gt x rh.ray.tnear && lt x rh.ray.tfar) := fun _ => rfl
  have blocked : ∀ b : Bool, (if b = true then (rh.ray.block inf).block inf else rh.ray.block inf) = rh.ray.block inf := by
    intro b; cases b <;> rfl
  rw [blocked] at e'
  by_cases c0 : rh.ray.within x0 = true
  · rw [if_pos c0] at e e'
    refine .inr ⟨?_, e'⟩
    by_cases c1 : (s.hit inst rh x0).ray.within x1 = true
    · rw [if_pos c1] at e
      exact ⟨_, _, (show Records rh (s.intersect inst rh) s.geomID _ _ by rw [e]; exact ⟨rfl, rfl, rfl, rfl⟩)⟩
    · rw [if_neg c1] at e
      exact ⟨_, _, (show Records rh (s.intersect inst rh) s.geomID _ _ by rw [e]; exact s.hit_records inst rh x0)⟩
  · rw [if_neg c0] at e e'
    have same : (lt rh.ray.tnear x0 && lt x1 rh.ray.tfar) = rh.ray.within x1 := by
      rw [w]
      congr 1
      rw [Bool.eq_iff_iff, XF.Is.lt hm e0, XF.Is.gt e1 hm]
      exact side
    rw [same] at e'
    by_cases c1 : rh.ray.within x1 = true
    · rw [if_pos c1] at e e'
      exact .inr ⟨⟨_, _, (show Records rh (s.intersect inst rh) s.geomID _ _ by rw [e]; exact s.hit_records inst rh x1)⟩, e'⟩
    · rw [if_neg c1] at e e'
      exact .inl ⟨e, e'⟩

/-- what the callback of a plane records is nearly within the limits -/
theorem EmbPlane.limits_near (hF : F.Rounds u η hi) (hfa : F.Faithful u η) (hodd : F.Odd) (hs : Scale u η hi L)
    {p : EmbPlane (XF F)} (inst : Nat) {rh : RtcRayHit (XF F)}
    {o d c : Vec3 K} {a b m : K} {R : Mat3 K} (ho : IsV rh.ray.org o) (hd : IsV rh.ray.dir d)
    (hm : rh.ray.tnear.Is m) (hm0 : 0 ≤ m) (hN : |Vec3.dot d d - 1| ≤ 11 * u) (hq : PlaneWithin ε o L p.native c a b R)
    (hε : ε ≤ 1 / 1000) :
    p.intersect inst rh = rh ∨ ∃ h x n, Records rh (p.intersect inst rh) p.geomID x n ∧ x.Is h ∧
      m - (152 * (u * L) + 10 * (ε * L)) < h ∧ ∀ M, rh.ray.tfar.Is M → h < M + (152 * (u * L) + 10 * (ε * L)) := by
  set ray : Ray (XF F) := Ray.make' rh.ray.org rh.ray.dir
  have hag := p.agree inst rh ray
  cases hhit : (planeIntersect rh.ray.planeI p.native ray).2 with
  | false => exact .inl (hag.miss hhit).1
  | true =>
    obtain ⟨n0, hrec, -⟩ := hag.hit hhit
    obtain ⟨k, T, a1, a2, a3, -, a4, a5, -⟩ := plane_hit_near hF hfa hodd hs ray (i := rh.ray.planeI)
      ho hd hq hε hm hm0 hN (i' := (planeIntersect rh.ray.planeI p.native ray).1) (Prod.ext rfl hhit)
    obtain ⟨b1, b2⟩ := abs_le.1 a5
    refine .inr ⟨k, _, n0, hrec, a1, by linarith, fun M hM => ?_⟩
    have := a4 M hM
    linarith

end

end Blazert
