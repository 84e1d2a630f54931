/- Rounding errors of the cylinder test: a ray which leaves the cylinder through a cap. -/
import Verif.Proofs.CylNear

set_option autoImplicit false
set_option linter.unusedSectionVars false

namespace Blazert
open Scalar

section
variable {K : Type} [Field K] [LinearOrder K] [IsStrictOrderedRing K] [FloorRing K] {F : Fmt K} {u η hi L ν μ : K}
variable {a' b' h' : XF F} {org dir : Vec3 (XF F)} {a b h : K} {p d : Vec3 K}

theorem Is.sub_post {x y : XF F} {r v w : K} (h : (x - y).Is r) (hx : x.Is v) (hy : y.Is w) : F.post (v - w) = some r := by
  obtain ⟨s, rfl⟩ := hx
  obtain ⟨t, rfl⟩ := hy
  rw [sub_eq_add_neg]
  exact XF.mk_is h

/-- the test whether the origin is within the tube -/
theorem inner_test (H : CylFloat u η hi L ν μ a' b' h' org dir a b h p d)
    (h3 : le (org.x * org.x * b' * b' + org.y * org.y * a' * a') (a' * a' * b' * b') = true) :
    tubeE a b p.x p.y ≤ 5 * (u * tubeH a b p.x p.y) := by
  have m2 := H.scale.lost'
  have ν0 := H.scale.ν_pos
  have ht := H.scale.tube
  have hin := H.tubeIn
  have hF := H.rounds.toGradual
  have aQ : |a| ≤ 101 / 100 * (1 + L) := by rw [abs_of_pos hin.a0]; linarith [hin.aQ, ht.Q1]
  have bQ : |b| ≤ 101 / 100 * (1 + L) := by rw [abs_of_pos hin.b0]; linarith [hin.bQ, ht.Q1]
  have hx := hin.xQ
  have hy := hin.yQ
  have hHQ := tubeH_le hin ht.Q1
  obtain ⟨t1, p1, p2⟩ := mono4 hF ht H.ho.1 H.ho.1 H.hb H.hb hx hx bQ bQ
  obtain ⟨t2, q1, q2⟩ := mono4 hF ht H.ho.2.1 H.ho.2.1 H.ha H.ha hy hy aQ aQ
  obtain ⟨W, w1, w2⟩ := mono4 hF ht H.ha H.ha H.hb H.hb aQ aQ bQ bQ
  have hD : ν ^ 4 ≤ a ^ 2 * b ^ 2 := by
    have := mul_le_mul (pow_le_pow_left₀ ν0.le H.aν 2) (pow_le_pow_left₀ ν0.le H.bν 2) (by positivity) (by positivity)
    rwa [show ν ^ 2 * ν ^ 2 = ν ^ 4 by ring] at this
  have hθ : 2 ^ 12 * (η * (1 + L) ^ 2) ≤ u * (a ^ 2 * b ^ 2) := m2.trans (mul_le_mul_of_nonneg_left hD ht.u0.le)
  rw [show p.x * p.x * b * b = b ^ 2 * p.x ^ 2 by ring] at p2
  rw [show p.y * p.y * a * a = a ^ 2 * p.y ^ 2 by ring] at q2
  rw [show a * a * b * b = a ^ 2 * b ^ 2 by ring] at w2
  unfold tubeH at hHQ ⊢
  unfold tubeE
  have M0 : 0 ≤ b ^ 2 * p.x ^ 2 := by positivity
  have N0 : 0 ≤ a ^ 2 * p.y ^ 2 := by positivity
  have D0 : 0 ≤ a ^ 2 * b ^ 2 := by positivity
  have Q40 : 0 ≤ (1 + L) ^ 4 := by positivity
  obtain ⟨V, v1, v2⟩ := quad_sum hF ht p1 q1 p2 q2 (by rw [abs_of_nonneg M0, abs_of_nonneg N0]; linarith)
  have hVW := (v1.le w1).1 h3
  rw [abs_of_nonneg M0, abs_of_nonneg N0] at v2
  rw [abs_of_nonneg D0] at w2
  have k1 := (abs_le.1 v2).1
  have k2 := (abs_le.1 w2).2
  have uD := mul_nonneg ht.u0.le D0
  have uM := mul_nonneg ht.u0.le M0
  have uN := mul_nonneg ht.u0.le N0
  have e1 : u * (a ^ 2 * b ^ 2 + b ^ 2 * p.x ^ 2 + a ^ 2 * p.y ^ 2) = u * (a ^ 2 * b ^ 2) + u * (b ^ 2 * p.x ^ 2) + u * (a ^ 2 * p.y ^ 2) := by ring
  have e2 : u * (b ^ 2 * p.x ^ 2 + a ^ 2 * p.y ^ 2) = u * (b ^ 2 * p.x ^ 2) + u * (a ^ 2 * p.y ^ 2) := by ring
  rw [e2] at k1
  rw [e1]
  linarith

/-- the tube is left beyond the cap -/
theorem beyond_cap (hodd : F.Odd) (hord : F.Ordered) (hzero : F.post 0 = some 0) (hfa : F.Faithful u η) {z l T P Z q h1 : K}
    (hq : F.post q = some h1) (hz1 : -h1 ≤ z) (hz2 : z ≤ h1) (hT : 0 < T)
    (hP : F.post (l * T) = some P) (hZ : F.post (z + P) = some Z) (hout : ¬ (-h1 ≤ Z ∧ Z ≤ h1)) :
    (0 < l → h1 - z ≤ l * T + (u * (l * T) + η)) ∧ (l < 0 → z + h1 ≤ -l * T + (u * (-l * T) + η)) := by
  have hq' : F.post (-q) = some (-h1) := by rw [hodd, hq]; rfl
  have hf := hfa _ _ hP
  constructor
  · intro hl
    have hlT : 0 < l * T := mul_pos hl hT
    have hP0 : 0 ≤ P := (hord _ _ _ _ hzero hP).1 hlT.le
    have k1 : -h1 ≤ Z := (hord _ _ _ _ hq' hZ).1 (by linarith)
    have k2 : ¬ z + P ≤ h1 := fun hle => hout ⟨k1, (hord _ _ _ _ hq hZ).2 hle⟩
    rw [abs_of_pos hlT] at hf
    have := (abs_le.1 hf).2
    linarith [not_le.1 k2]
  · intro hl
    have hlT : l * T < 0 := mul_neg_of_neg_of_pos hl hT
    have hP0 : P ≤ 0 := (hord _ _ _ _ hzero hP).2 hlT.le
    have k1 : Z ≤ h1 := (hord _ _ _ _ hq hZ).2 (by linarith)
    have k2 : ¬ -h1 ≤ z + P := fun hle => hout ⟨(hord _ _ _ _ hq' hZ).1 hle, k1⟩
    rw [abs_of_neg hlT] at hf
    have := (abs_le.1 hf).1
    rw [show -l * T = -(l * T) by ring]
    linarith [not_le.1 k2]

/-- where the ray leaves the tube -/
theorem tube_exit (H : CylFloat u η hi L ν μ a' b' h' org dir a b h p d) (hord : F.Ordered) (hjk : μ ≤ |d.x| ∨ μ ≤ |d.y|)
    (hE : tubeE a b p.x p.y ≤ -(27 * (u * tubeH a b p.x p.y))) {h1 : K} (e1 : (h' / nat 2).Is h1) (e2 : (-h' / nat 2).Is (-h1))
    (hq : F.post (h / 2) = some h1) (hz1 : -h1 ≤ p.z) (hz2 : p.z ≤ h1)
    (hC : lt (cylABC a' b' org dir).2.2 (nat 0) = false)
    (hout : (gt (cylT0 a' b' (cylABC a' b' org dir).1 (cylABC a' b' org dir).2.1 (cylABC a' b' org dir).2.2) (nat 0) &&
            cylInZ h' (org + Vec3.muls dir (cylT0 a' b' (cylABC a' b' org dir).1 (cylABC a' b' org dir).2.1 (cylABC a' b' org dir).2.2)).z) = false) :
    ∃ T, 0 < T ∧ tubeE a b (p.x + T * d.x) (p.y + T * d.y) ≤ 56 * (u * tubeH a b p.x p.y) ∧
      Mag (tubeA a b d.x d.y * tubeH a b p.x p.y) (1003 / 1000) (tubeA a b d.x d.y * T + tubeB a b p.x p.y d.x d.y) ∧
      (0 < d.z → h1 - p.z ≤ d.z * T + (u * (d.z * T) + η)) ∧ (d.z < 0 → p.z + h1 ≤ -d.z * T + (u * (-d.z * T) + η)) := by
  obtain ⟨u0, u1, η0, ηu, ηL, ηLL, ηuLL, ηuL, L0, uL0, uLL0, uL1, uLL1, hi1, hiL, hiLL⟩ := H.scale.toScale.sizes
  have hF := H.rounds.toGradual
  obtain ⟨T, T1, T2⟩ := cyl_T0_finite H hjk hC
  obtain ⟨-, r2, r3, r4⟩ := cyl_root_near H.rounds H.faith H.scale H.ha H.hb H.ho H.hd H.tubeIn H.aν H.bν H.sl.2 hC (.inl T1)
  have T0 := r4 T1 hE
  rw [(T1.gt H.rounds.nat0).2 T0, Bool.true_and] at hout
  have η1 : η ≤ 1 := by linarith
  have s1 : |d.z * T| ≤ 101 / 100 * |T| := by rw [abs_mul]; exact mul_le_mul_of_nonneg_right H.dz (abs_nonneg T)
  have T00 := abs_nonneg T
  obtain ⟨P, P1, P2, -⟩ := rnd_mul hF u0.le H.hd.2.2 T1 (le_refl |d.z * T|) (by linarith)
  have hP : |P| ≤ 2 * |T| + 1 := by
    have h2 := abs_le_of_near P2 s1
    have h3 : u * |d.z * T| ≤ 1 / 2 ^ 20 * (101 / 100 * |T|) := mul_le_mul u1 s1 (abs_nonneg _) (by positivity)
    linarith
  obtain ⟨Z, Z1, -, -⟩ := rnd_add hF u0.le H.ho.2.2 P1 (le_refl |p.z + P|) ((abs_add_le' H.sz hP).trans (by linarith))
  have hP' : F.post (d.z * T) = some P := Is.mul_post P1 H.hd.2.2 T1
  obtain ⟨P', P3, hZ'⟩ := Is.add_right Z1 H.ho.2.2
  rw [P3.unique P1] at hZ'
  refine ⟨T, T0, (abs_le.1 r2).2, r3, ?_⟩
  refine beyond_cap H.odd hord hF.zero H.faith hq hz1 hz2 T0 hP' hZ' fun hbad => ?_
  have hz : (org + Vec3.muls dir (cylT0 a' b' (cylABC a' b' org dir).1 (cylABC a' b' org dir).2.1 (cylABC a' b' org dir).2.2)).z.Is Z := Z1
  unfold cylInZ at hout
  rw [(hz.le e1).2 hbad.2, (hz.ge e2).2 hbad.1] at hout
  exact absurd hout (by simp)

/-- leaving through a cap -/
theorem cyl_inner (H : CylFloat u η hi L ν μ a' b' h' org dir a b h p d) (hord : F.Ordered)
    (hout : (∃ h1, (h' / nat 2).Is h1 ∧ h1 < |p.z|) ∨ 27 * (u * tubeH a b p.x p.y) ≤ |tubeE a b p.x p.y|) {t : XF F}
    (h1 : ge org.z (-h' / nat 2) = true) (h2 : le org.z (h' / nat 2) = true)
    (h3 : le (org.x * org.x * b' * b' + org.y * org.y * a' * a') (a' * a' * b' * b') = true)
    (h4 : CapParam h' org.z dir.z t)
    (h5 : (eq dir.x (nat 0) = true ∧ eq dir.y (nat 0) = true) ∨
      (lt (cylABC a' b' org dir).2.2 (nat 0) = false ∧
        (gt (cylT0 a' b' (cylABC a' b' org dir).1 (cylABC a' b' org dir).2.1 (cylABC a' b' org dir).2.2) (nat 0) &&
          cylInZ h' (org + Vec3.muls dir (cylT0 a' b' (cylABC a' b' org dir).1 (cylABC a' b' org dir).2.1 (cylABC a' b' org dir).2.2)).z) = false)) :
    ∃ T x1 c, t.Is T ∧ (h' / nat 2).Is x1 ∧ |x1 - h / 2| ≤ 6 / 10 * (u * L) ∧ (c = x1 ∨ c = -x1) ∧ 0 ≤ T ∧ |T * d.z| ≤ 16 / 10 * L ∧
      |p.z + T * d.z - c| ≤ 33 / 10 * (u * L) ∧
      tubeE a b (p.x + T * d.x) (p.y + T * d.y) ≤ 70 * (u * tubeH a b p.x p.y) := by
  obtain ⟨u0, u1, η0, ηu, ηL, ηLL, ηuLL, ηuL, L0, uL0, uLL0, uL1, uLL1, hi1, hiL, hiLL⟩ := H.scale.toScale.sizes
  obtain ⟨x1, e1, e2, hq, hq', e5, e6, e7⟩ := H.half
  have hz1 : -x1 ≤ p.z := (H.ho.2.2.ge e2).1 h1
  have hz2 : p.z ≤ x1 := (H.ho.2.2.le e1).1 h2
  have hE5 := inner_test H h3
  have uH : 0 ≤ u * tubeH a b p.x p.y := mul_nonneg u0.le tubeH_nonneg
  have hL : h ≤ L := by linarith [H.a0, H.b0, H.sum]
  have hx1 : |x1| ≤ 52 / 100 * L := by
    rw [abs_of_nonneg e5]
    have := (abs_le.1 e7).2
    linarith
  have hμ0 := H.scale.μ_pos
  -- the two caps alike
  have key : ∃ c c' l, c'.Is c ∧ t = (c' - org.z) / dir.z ∧ (c = x1 ∨ c = -x1) ∧ |c| ≤ 52 / 100 * L ∧ (l = d.z ∨ l = -d.z) ∧ 0 < l ∧
      0 ≤ (c - p.z) * (l / d.z) ∧ (∀ T, (0 < d.z → x1 - p.z ≤ d.z * T + (u * (d.z * T) + η)) ∧ (d.z < 0 → p.z + x1 ≤ -d.z * T + (u * (-d.z * T) + η)) →
        (c - p.z) * (l / d.z) ≤ l * T + (u * (l * T) + η)) := by
    rcases h4 with ⟨g1, g2⟩ | ⟨g1, g2⟩
    · have hl : d.z < 0 := (H.hd.2.2.lt H.rounds.nat0).1 g1
      have e : -d.z / d.z = -1 := by rw [neg_div, div_self hl.ne]
      refine ⟨-x1, _, -d.z, e2, g2, .inr rfl, by rw [abs_neg]; exact hx1, .inr rfl, by linarith, ?_, fun T hT => ?_⟩
      · rw [e]; linarith
      · have := hT.2 hl
        rw [e]; linarith
    · have hl : 0 < d.z := (H.hd.2.2.gt H.rounds.nat0).1 g1
      have e : d.z / d.z = 1 := div_self hl.ne'
      refine ⟨x1, _, d.z, e1, g2, .inl rfl, hx1, .inl rfl, hl, ?_, fun T hT => ?_⟩
      · rw [e]; linarith
      · have := hT.1 hl
        rw [e]; linarith
  obtain ⟨c, c', l, hc, ht, hcx, hcL, hl, l0, hg0, hg⟩ := key
  have hdz : d.z ≠ 0 := by rcases hl with rfl | rfl <;> intro h0 <;> rw [h0] at l0 <;> simp at l0
  obtain ⟨G, T, G1, T1, G2, T2, k1, k2, k3, k4, k5⟩ := cap_param H hdz hc hcL
  rw [← ht] at T1
  have hGpost := Is.sub_post G1 hc H.ho.2.2
  -- the sign of the difference
  set g := (c - p.z) * (l / d.z) with hgdef
  have hG' : 0 ≤ G * (l / d.z) ∧ G * (l / d.z) ≤ g + (u * g + η) ∧ G / d.z = G * (l / d.z) / l := by
    rcases hl with rfl | rfl
    · have e : d.z / d.z = 1 := div_self hdz
      rw [e, mul_one] at hgdef ⊢
      rw [hgdef] at hg0 ⊢
      rw [abs_of_nonneg hg0] at G2
      exact ⟨k5 hg0, by linarith [(abs_le.1 G2).2], rfl⟩
    · have e : -d.z / d.z = -1 := by rw [neg_div, div_self hdz]
      rw [e, mul_neg_one] at hgdef ⊢
      rw [hgdef] at hg0 ⊢
      have hneg : c - p.z ≤ 0 := by linarith
      rw [abs_of_nonpos hneg] at G2
      have hG3 := (hord _ _ _ _ H.rounds.zero hGpost).2 hneg
      exact ⟨by linarith, by linarith [(abs_le.1 G2).1], by rw [neg_div_neg_eq]⟩
  obtain ⟨hG0, hG1, hG2⟩ := hG'
  have hGd : 0 ≤ G / d.z := by rw [hG2]; exact div_nonneg hG0 l0.le
  have hT0 := k4 hGd
  refine ⟨T, x1, c, T1, e1, e7, hcx, hT0, k2, k1, ?_⟩
  by_cases hpar : d.x = 0 ∧ d.y = 0
  · rw [hpar.1, hpar.2, mul_zero, add_zero, add_zero]
    linarith
  · have hjk := H.sl.2.resolve_left hpar
    have hin := H.tubeIn
    obtain ⟨hf, -⟩ := H.scale.fine (x := p.x) (y := p.y) H.aν H.bν hjk
    have h5' := h5.resolve_left fun hbad => hpar ⟨(H.hd.1.eq H.rounds.nat0).1 hbad.1, (H.hd.2.1.eq H.rounds.nat0).1 hbad.2⟩
    have hE : tubeE a b p.x p.y ≤ -(27 * (u * tubeH a b p.x p.y)) := by
      rcases hout with ⟨x2, hx2, hlt⟩ | hout
      · rw [hx2.unique e1] at hlt
        exact absurd (abs_le.2 ⟨hz1, hz2⟩) (not_le.2 hlt)
      · rcases abs_cases (tubeE a b p.x p.y) with ⟨ea, _⟩ | ⟨ea, _⟩
        · rw [ea] at hout
          have hpos : 0 < tubeH a b p.x p.y := by
            have := hf.Zpos
            exact (mul_pos_iff_of_pos_left hf.Apos).1 this
          have := mul_pos u0 hpos
          linarith
        · rw [ea] at hout; linarith
    obtain ⟨Te, te0, te1, te2, te3⟩ := tube_exit H hord hjk hE e1 e2 hq hz1 hz2 h5'.1 h5'.2
    have hg' := hg Te te3
    have hlμ : μ ≤ l := by
      have h6 := H.sl.1.resolve_left hdz
      rcases hl with rfl | rfl
      · rwa [abs_of_pos l0] at h6
      · rwa [abs_of_neg (by linarith)] at h6
    have hl1 : l ≤ 102 / 100 := by
      have h6 := (abs_le.1 H.dz)
      rcases hl with rfl | rfl <;> linarith
    have hTc : T ≤ G * (l / d.z) / l + (u * (G * (l / d.z) / l) + η) := by
      rw [← hG2]
      rw [abs_of_nonneg hGd] at T2
      linarith [(abs_le.1 T2).2]
    have hct := cap_time u0 u1 η0 hμ0 hlμ hl1 te0.le hg' hg0 hG1 hG0 hTc
    exact cap_inside u0 u1 hf.Apos te0 hT0 (by linarith) te1 te2
      (Mag.of_le abs_tubeB_le ⟨zero_le_one, by rw [one_pow, one_mul]; exact tubeP_sq⟩)
      (H.scale.underflow hin H.aν H.bν) (by positivity) hct

end
end Blazert
