/- Rounding errors of the cylinder test: every recorded hit is near the surface. -/
import Verif.Proofs.CylCaps
import Verif.Proofs.CylTaken

set_option autoImplicit false
set_option linter.unusedSectionVars false

namespace Blazert
open Scalar

section
variable {K : Type} [Field K] [LinearOrder K] [IsStrictOrderedRing K] [FloorRing K] {F : Fmt K} {u η hi L ν μ : K}

/-- the numbers with which a cylinder is tested -/
structure CylFloat (u η hi L ν μ : K) (a' b' h' : XF F) (org dir : Vec3 (XF F)) (a b h : K) (p d : Vec3 K) : Prop where
  scale : TubeScale u η hi L ν μ
  rounds : F.Rounds u η hi
  faith : F.Faithful u η
  odd : F.Odd
  ha : a'.Is a
  hb : b'.Is b
  hh : h'.Is h
  ho : IsV org p
  hd : IsV dir d
  aν : ν ≤ a
  bν : ν ≤ b
  h0 : 0 < h
  sum : a + b + h ≤ L
  sx : |p.x| ≤ 101 / 100 * L
  sy : |p.y| ≤ 101 / 100 * L
  sz : |p.z| ≤ 101 / 100 * L
  dx : |d.x| ≤ 101 / 100
  dy : |d.y| ≤ 101 / 100
  dz : |d.z| ≤ 101 / 100
  sl : Slanted μ d

variable {a' b' h' : XF F} {org dir : Vec3 (XF F)} {a b h : K} {p d : Vec3 K}

theorem CylFloat.a0 (H : CylFloat u η hi L ν μ a' b' h' org dir a b h p d) : 0 < a := H.scale.ν_pos.trans_le H.aν
theorem CylFloat.b0 (H : CylFloat u η hi L ν μ a' b' h' org dir a b h p d) : 0 < b := H.scale.ν_pos.trans_le H.bν

theorem CylFloat.tubeIn (H : CylFloat u η hi L ν μ a' b' h' org dir a b h p d) : TubeIn (1 + L) a b p.x p.y d.x d.y := by
  have := H.a0
  have := H.b0
  have := H.h0
  have := H.sum
  have := H.sx
  have := H.sy
  exact ⟨H.a0, H.b0, by linarith, by linarith, by linarith, by linarith, H.dx, H.dy⟩

/-- half the height, as computed -/
theorem CylFloat.half (H : CylFloat u η hi L ν μ a' b' h' org dir a b h p d) :
    ∃ h1, (h' / nat 2).Is h1 ∧ (-h' / nat 2).Is (-h1) ∧ F.post (h / 2) = some h1 ∧ F.post (-(h / 2)) = some (-h1) ∧ 0 ≤ h1 ∧
      |h1 - h / 2| ≤ u * |h / 2| + η ∧ |h1 - h / 2| ≤ 6 / 10 * (u * L) := by
  have hL : |h| ≤ L := by rw [abs_of_pos H.h0]; linarith [H.a0, H.b0, H.sum]
  obtain ⟨h1, e1, e2, e3⟩ := half_is H.rounds H.scale.toScale H.hh hL
  have e4 := (Is.div_post e1 H.hh H.rounds.nat2).2
  refine ⟨h1, e1, neg_half_is H.odd H.rounds.nat2 H.hh e1, e4, ?_, e3 H.h0.le, e2, (near_half H.scale.toScale hL e2).1⟩
  rw [H.odd, e4]; rfl

/-- the height passed the test -/
theorem inZ_is {z : XF F} {h1 : K} (h1' : (h' / nat 2).Is h1) (h2' : (-h' / nat 2).Is (-h1)) (h : cylInZ h' z = true) :
    ∃ Z, z.Is Z ∧ -h1 ≤ Z ∧ Z ≤ h1 := by
  unfold cylInZ at h
  rw [Bool.and_eq_true] at h
  obtain ⟨e1, e2⟩ := h
  match z, e1, e2 with
  | .fin v s, e1, e2 =>
    have hz : (XF.fin v s : XF F).Is v := ⟨s, rfl⟩
    exact ⟨v, hz, (hz.ge h2').1 e2, (hz.le h1').1 e1⟩
  | .inf true, e1, e2 =>
    obtain ⟨s, hs⟩ := h2'
    rw [hs] at e2
    exact absurd e2 (by simp [ge, le, XF.le])
  | .inf false, e1, e2 =>
    obtain ⟨s, hs⟩ := h1'
    rw [hs] at e1
    exact absurd e1 (by simp [ge, le, XF.le])
  | .nan, e1, e2 =>
    obtain ⟨s, hs⟩ := h1'
    rw [hs] at e1
    exact absurd e1 (by simp [ge, le, XF.le])

/-- a hit on the tube -/
theorem cyl_side (H : CylFloat u η hi L ν μ a' b' h' org dir a b h p d) {t : XF F}
    (h1 : lt (cylABC a' b' org dir).2.2 (nat 0) = false)
    (h2 : t = cylT0 a' b' (cylABC a' b' org dir).1 (cylABC a' b' org dir).2.1 (cylABC a' b' org dir).2.2 ∨
      t = cylT1 a' b' (cylABC a' b' org dir).1 (cylABC a' b' org dir).2.1 (cylABC a' b' org dir).2.2)
    (h3 : gt t (nat 0) = true) (h4 : cylInZ h' (org + Vec3.muls dir t).z = true) :
    ∃ T, t.Is T ∧ 0 < T ∧ |tubeE a b (p.x + T * d.x) (p.y + T * d.y)| ≤ 56 * (u * tubeH a b p.x p.y) ∧
      |T * d.z| ≤ 154 / 100 * L ∧ |p.z + T * d.z| ≤ h / 2 + 3 * (u * L) := by
  obtain ⟨u0, u1, η0, ηu, ηL, ηLL, ηuLL, ηuL, L0, uL0, uLL0, uL1, uLL1, hi1, hiL, hiLL⟩ := H.scale.toScale.sizes
  obtain ⟨x1, e1, e2, -, -, e5, e6, e7⟩ := H.half
  obtain ⟨Z, z1, z2, z3⟩ := inZ_is e1 e2 h4
  have hZ : (org.z + dir.z * t).Is Z := z1
  obtain ⟨Pz, f1, f2⟩ := Is.add_right hZ H.ho.2.2
  obtain ⟨l, T, g1, g2, g3⟩ := Is.mul_inv f1
  rw [g1.unique H.hd.2.2, mul_comm] at g3
  have hL : |h| ≤ L := by rw [abs_of_pos H.h0]; linarith [H.a0, H.b0, H.sum]
  have hZ1 : |Z| ≤ |x1| := by rw [abs_of_nonneg e5]; exact abs_le.2 ⟨z2, z3⟩
  obtain ⟨k1, k2⟩ := plane_coord H.scale.toScale (H.faith _ _ f2) (H.faith _ _ g3) e6 hL H.sz hZ1
  obtain ⟨-, r2, -⟩ := cyl_root_near H.rounds H.faith H.scale H.ha H.hb H.ho H.hd H.tubeIn H.aν H.bν H.sl.2 h1
    (T := T) (by rcases h2 with h2 | h2 <;> [left; right] <;> exact h2 ▸ g2)
  refine ⟨T, g2, (g2.gt H.rounds.nat0).1 h3, r2, k1, ?_⟩
  have k3 : |Z| ≤ h / 2 + 6 / 10 * (u * L) := by
    have := (abs_le.1 e7).2
    rw [abs_of_nonneg e5] at hZ1
    linarith
  have := abs_sub_le' k3 k2
  rw [show Z - (Z - (p.z + T * d.z)) = p.z + T * d.z by ring] at this
  linarith

theorem tubeH_le {Q x y j k : K} (hin : TubeIn Q a b x y j k) (Q1 : 1 ≤ Q) : tubeH a b x y ≤ 31 / 10 * Q ^ 4 := by
  obtain ⟨a0, b0, aQ, bQ, xQ, yQ, j1, k1⟩ := hin
  have ha : a ^ 2 ≤ Q ^ 2 := pow_le_pow_left₀ a0.le aQ 2
  have hb : b ^ 2 ≤ Q ^ 2 := pow_le_pow_left₀ b0.le bQ 2
  have hx := sq_le_sq_of_abs xQ
  have hy := sq_le_sq_of_abs yQ
  rw [mul_pow] at hx hy
  have h1 := mul_le_mul ha hb (by positivity) (by positivity)
  have h2 := mul_le_mul hb hx (by positivity) (by positivity)
  have h3 := mul_le_mul ha hy (by positivity) (by positivity)
  unfold tubeH
  have e1 : Q ^ 2 * Q ^ 2 = Q ^ 4 := by ring
  have e2 : Q ^ 2 * ((101 / 100) ^ 2 * Q ^ 2) = 10201 / 10000 * Q ^ 4 := by ring
  rw [e1] at h1
  rw [e2] at h2 h3
  have : 0 ≤ Q ^ 4 := by positivity
  linarith

theorem mag_cube {Q A H X c : K} (Q1 : 1 ≤ Q) (A0 : 0 ≤ A) (H0 : 0 ≤ H) (hA : A ≤ 21 / 10 * Q ^ 2) (hH : H ≤ 31 / 10 * Q ^ 4) (hX : Mag (A * H) c X)
    (hc : c ≤ 1002 / 1000) : |X| ≤ 26 / 10 * Q ^ 3 := by
  refine abs_le_of_sq_le_sq ?_ (by positivity)
  have h1 := mul_le_mul hA hH H0 (by positivity)
  have h2 : c ^ 2 ≤ (1002 / 1000) ^ 2 := pow_le_pow_left₀ hX.nonneg hc 2
  have h3 := mul_le_mul h2 h1 (mul_nonneg A0 H0) (by positivity)
  refine hX.sq.trans (h3.trans ?_)
  have : (0 : K) ≤ Q ^ 6 := by positivity
  calc (1002 / 1000 : K) ^ 2 * (21 / 10 * Q ^ 2 * (31 / 10 * Q ^ 4)) = (1002 / 1000) ^ 2 * (21 / 10) * (31 / 10) * Q ^ 6 := by ring
    _ ≤ (26 / 10) ^ 2 * Q ^ 6 := mul_le_mul_of_nonneg_right (by norm_num) this
    _ = _ := by ring

/-- the magnitude of a root -/
theorem root_finite (hF : F.Gradual u η hi) (u0 : 0 ≤ u) (u1 : u ≤ 1 / 2 ^ 20) (η0 : 0 ≤ η) (η1 : η ≤ 1 / 2 ^ 12) {m A B S : XF F} {Q w A' B' s σ : K}
    (Q1 : 1 ≤ Q) (w0 : 0 < w) (w1 : w ≤ 1) (hw : 2 ^ 10 * Q ^ 3 ≤ hi * w) (hm : m.Is σ) (hσ : |σ| = 1) (hA : A.Is A') (hB : B.Is B') (hS : S.Is s)
    (hA1 : 99 / 100 * w ≤ A') (hB1 : |B'| ≤ 27 / 10 * Q ^ 3) (hs1 : |s| ≤ 26 / 10 * Q ^ 3) :
    ∃ T, (m / A * (B + S)).Is T ∧ 16 * |T| + 16 * Q ≤ hi := by
  have Q3 : 1 ≤ Q ^ 3 := one_le_pow₀ Q1
  have QQ : Q ≤ Q ^ 3 := by
    have := pow_le_pow_right₀ Q1 (show 1 ≤ 3 by norm_num)
    rwa [pow_one] at this
  have iw : 1 ≤ 1 / w := by rw [le_div_iff₀ w0]; linarith
  set I := Q ^ 3 * (1 / w) with hI
  have hI1 : 2 ^ 10 * I ≤ hi := by
    rw [hI, ← mul_assoc, mul_one_div, div_le_iff₀ w0]; exact hw
  have hQI : Q ^ 3 ≤ I := le_mul_of_one_le_right (by linarith) iw
  have hwI : 1 / w ≤ I := le_mul_of_one_le_left (by linarith) Q3
  have A0 : 0 < A' := lt_of_lt_of_le (by positivity) hA1
  have h1 : |σ / A'| ≤ 102 / 100 * (1 / w) := by
    rw [abs_div, hσ, abs_of_pos A0, mul_one_div, div_le_div_iff₀ A0 w0]
    linarith
  obtain ⟨q, q1, q2, -⟩ := rnd_div hF u0 hm hA A0.ne' h1 (by linarith)
  have hq : |q| ≤ 104 / 100 * (1 / w) := by
    have h2 := abs_le_of_near q2 h1
    have h3 : u * (102 / 100 * (1 / w)) ≤ 1 / 2 ^ 20 * (102 / 100 * (1 / w)) := mul_le_mul_of_nonneg_right u1 (by linarith)
    linarith
  have h4 : |B' + s| ≤ 54 / 10 * Q ^ 3 := (abs_add_le' hB1 hs1).trans (by linarith)
  obtain ⟨N, N1, N2, -⟩ := rnd_add hF u0 hB hS h4 (by linarith)
  have hN : |N| ≤ 55 / 10 * Q ^ 3 := by
    have h2 := abs_le_of_near N2 h4
    have h3 : u * (54 / 10 * Q ^ 3) ≤ 1 / 2 ^ 20 * (54 / 10 * Q ^ 3) := mul_le_mul_of_nonneg_right u1 (by linarith)
    linarith
  have h5 : |q * N| ≤ 58 / 10 * I := by
    refine (abs_mul_le hq hN).trans ?_
    rw [show 104 / 100 * (1 / w) * (55 / 10 * Q ^ 3) = 104 / 100 * (55 / 10) * I by rw [hI]; ring]
    linarith
  obtain ⟨T, T1, T2, -⟩ := rnd_mul hF u0 q1 N1 h5 (by linarith)
  refine ⟨T, T1, ?_⟩
  have h2 := abs_le_of_near T2 h5
  have h3 : u * (58 / 10 * I) ≤ 1 / 2 ^ 20 * (58 / 10 * I) := mul_le_mul_of_nonneg_right u1 (by linarith)
  linarith

/-- the root at which the tube is left is finite -/
theorem cyl_roots_finite (H : CylFloat u η hi L ν μ a' b' h' org dir a b h p d) (hjk : μ ≤ |d.x| ∨ μ ≤ |d.y|)
    (h1 : lt (cylABC a' b' org dir).2.2 (nat 0) = false) :
    (∃ T, (cylT0 a' b' (cylABC a' b' org dir).1 (cylABC a' b' org dir).2.1 (cylABC a' b' org dir).2.2).Is T ∧
      16 * |T| + 16 * (1 + L) ≤ hi) ∧
    (∃ T, (cylT1 a' b' (cylABC a' b' org dir).1 (cylABC a' b' org dir).2.1 (cylABC a' b' org dir).2.2).Is T ∧
      16 * |T| + 16 * (1 + L) ≤ hi) ∧
    ∃ A' B' s, (cylABC a' b' org dir).1.Is A' ∧ (cylABC a' b' org dir).2.1.Is B' ∧
      (a' * b' * sqrt (cylABC a' b' org dir).2.2).Is s ∧ 0 < A' ∧ 0 ≤ s := by
  have hF := H.rounds
  have ht := H.scale.tube
  have hin := H.tubeIn
  have hAQ := hin.A_le
  have A0 := hin.A_nonneg
  have hHQ := tubeH_le hin ht.Q1
  have hH0 : 0 ≤ tubeH a b p.x p.y := tubeH_nonneg
  obtain ⟨A', B', C', A1, B1, C1, A2, B2, C2⟩ := cyl_coeffs hF ht H.ha H.hb H.ho H.hd hin
  generalize cylABC a' b' org dir = abc at h1 A1 B1 C1 ⊢
  have hC0 : 0 ≤ C' := by
    by_contra hlt
    rw [(C1.lt hF.nat0).2 (not_le.1 hlt)] at h1
    exact absurd h1 (by simp)
  obtain ⟨s, r, s1, s0, r0, s2, r2⟩ := tube_sqrt hF ht H.ha H.hb C1 hin hC0 C2
  obtain ⟨hf, hw⟩ := H.scale.fine (x := p.x) (y := p.y) H.aν H.bν hjk
  obtain ⟨ss, ms⟩ := tube_sqrt_sq ht.u0 ht.u1 hin.a0 hin.b0 ht.θ0 hf r0 s2 r2
  have hP1 : |tubeB a b p.x p.y d.x d.y| ≤ tubeP a b p.x p.y d.x d.y := abs_tubeB_le
  have hP2 : Mag (tubeA a b d.x d.y * tubeH a b p.x p.y) 1 (tubeP a b p.x p.y d.x d.y) :=
    ⟨zero_le_one, by rw [one_pow, one_mul]; exact tubeP_sq⟩
  have hP3 := mag_cube ht.Q1 A0 hH0 hAQ hHQ hP2 (by norm_num)
  have hs3 := mag_cube ht.Q1 A0 hH0 hAQ hHQ ms le_rfl
  obtain ⟨u0, u1, η0, Q1, ηθ, ηQ, θ0, QQ, Q2, Q3, hi2, hi3, hi4, θu⟩ := ht
  have hθA := hf.θA
  have ν0 := H.scale.ν_pos
  have μ0 := H.scale.μ_pos
  have hi0 : 0 ≤ hi := by linarith
  have w1 : (μ * ν) ^ 2 ≤ 1 := pow_le_one₀ (by positivity) (mul_le_one₀ H.scale.μ_le ν0.le H.scale.ν_le)
  have uA : u * tubeA a b d.x d.y ≤ 1 / 2 ^ 20 * tubeA a b d.x d.y := mul_le_mul_of_nonneg_right u1 A0
  have hP4 : u * tubeP a b p.x p.y d.x d.y ≤ 1 / 2 ^ 20 * tubeP a b p.x p.y d.x d.y :=
    mul_le_mul_of_nonneg_right u1 ((abs_nonneg _).trans hP1)
  have hP5 := (le_abs_self _).trans hP3
  have hA1 : 99 / 100 * (μ * ν) ^ 2 ≤ A' := by
    have := (abs_le.1 A2).1
    linarith
  have hB1 : |B'| ≤ 27 / 10 * (1 + L) ^ 3 := by
    have := abs_le_of_near B2 (hP1.trans hP5)
    linarith
  refine ⟨?_, ?_, A', B', s, A1, B1, s1, lt_of_lt_of_le (by positivity) hA1, s0⟩
  · exact root_finite hF.toGradual u0.le u1 η0 (by linarith) Q1 (by positivity) w1 H.scale.inverse hF.nat1 abs_one A1 B1.neg s1 hA1
      (by rw [abs_neg]; exact hB1) hs3
  · exact root_finite hF.toGradual u0.le u1 η0 (by linarith) Q1 (by positivity) w1 H.scale.inverse hF.nat1.neg (by rw [abs_neg, abs_one]) A1
      B1 s1 hA1 hB1 hs3

theorem cyl_T0_finite (H : CylFloat u η hi L ν μ a' b' h' org dir a b h p d) (hjk : μ ≤ |d.x| ∨ μ ≤ |d.y|)
    (h1 : lt (cylABC a' b' org dir).2.2 (nat 0) = false) :
    ∃ T, (cylT0 a' b' (cylABC a' b' org dir).1 (cylABC a' b' org dir).2.1 (cylABC a' b' org dir).2.2).Is T ∧
      16 * |T| + 16 * (1 + L) ≤ hi :=
  (cyl_roots_finite H hjk h1).1

/-- the parameter at which a cap is met -/
theorem cap_param (H : CylFloat u η hi L ν μ a' b' h' org dir a b h p d) (hl : d.z ≠ 0) {c' : XF F} {c : K} (hc : c'.Is c)
    (hcL : |c| ≤ 52 / 100 * L) :
    ∃ G T, (c' - org.z).Is G ∧ ((c' - org.z) / dir.z).Is T ∧ |G - (c - p.z)| ≤ u * |c - p.z| + η ∧
      |T - G / d.z| ≤ u * |G / d.z| + η ∧ |p.z + T * d.z - c| ≤ 33 / 10 * (u * L) ∧ |T * d.z| ≤ 16 / 10 * L ∧
      |T| * μ ≤ 16 / 10 * L ∧ (0 ≤ G / d.z → 0 ≤ T) ∧ (0 ≤ c - p.z → 0 ≤ G) := by
  obtain ⟨u0, u1, η0, ηu, ηL, ηLL, ηuLL, ηuL, L0, uL0, uLL0, uL1, uLL1, hi1, hiL, hiLL⟩ := H.scale.toScale.sizes
  have hF := H.rounds.toGradual
  have m3 := H.scale.more.2.2.1
  have μ0 := H.scale.μ_pos
  have hlμ : μ ≤ |d.z| := H.sl.1.resolve_left hl
  have h1 : |c - p.z| ≤ 153 / 100 * L := (abs_sub_le' hcL H.sz).trans (by linarith)
  obtain ⟨G, G1, G2, G3⟩ := rnd_sub hF u0.le hc H.ho.2.2 (le_refl |c - p.z|) (by linarith)
  have h2 := mul_le_mul_of_nonneg_left h1 u0.le
  have hG : |G| ≤ 154 / 100 * L := by
    have := abs_le_of_near G2 h1
    linarith
  have hGl : |G / d.z| ≤ hi := by
    rw [abs_div, div_le_iff₀ (abs_pos.2 hl)]
    have := mul_le_mul_of_nonneg_left hlμ (by linarith : 0 ≤ hi)
    linarith
  obtain ⟨T, T1, T2, T3⟩ := rnd_div hF u0.le G1 H.hd.2.2 hl (le_refl |G / d.z|) hGl
  have h3 : |T * d.z - G| ≤ u * |G| + η * |d.z| := by
    have e1 : (T - G / d.z) * d.z = T * d.z - G := by field_simp
    have e2 : (u * |G / d.z| + η) * |d.z| = u * |G| + η * |d.z| := by
      rw [abs_div, add_mul, mul_assoc, div_mul_cancel₀ _ (abs_ne_zero.2 hl)]
    rw [← e1, ← e2, abs_mul]
    exact mul_le_mul_of_nonneg_right T2 (abs_nonneg _)
  have h4 := mul_le_mul_of_nonneg_left hG u0.le
  have h5 := mul_le_mul_of_nonneg_left H.dz η0
  have h6 : |T * d.z| ≤ 16 / 10 * L := by
    have := abs_le_of_near h3 hG
    linarith
  refine ⟨G, T, G1, T1, G2, T2, ?_, h6, ?_, T3, G3⟩
  · rw [show p.z + T * d.z - c = (T * d.z - G) + (G - (c - p.z)) by ring]
    refine (abs_add_le' h3 G2).trans ?_
    linarith
  · rw [abs_mul] at h6
    exact (mul_le_mul_of_nonneg_left hlμ (abs_nonneg T)).trans h6

/-- `b * b * X * X`, possibly far away -/
theorem sq_chain_is (hF : F.Gradual u η hi) (hfa : F.Faithful u η) (u0 : 0 < u) (u1 : u ≤ 1 / 2 ^ 20) (η0 : 0 ≤ η) (η1 : η ≤ 1 / 2 ^ 12)
    {b' x : XF F} {b X Q R : K} (hb : b'.Is b) (hx : x.Is X) (hη : 2 ^ 12 * η ≤ u * b ^ 2) (hbQ : |b| ≤ Q) (Q1 : 1 ≤ Q) (R1 : 1 ≤ R)
    (hX : |X| ≤ 27 / 10 * R) (hhi : 2 ^ 10 * (Q ^ 2 * R ^ 2) ≤ hi) :
    ∃ t, (b' * b' * x * x).Is t ∧ |t - b ^ 2 * X ^ 2| ≤ 31 / 10 * (u * (b ^ 2 * X ^ 2)) + 22 / 10 * η ∧ |t| ≤ 8 * (Q ^ 2 * R ^ 2) := by
  have RR : R ≤ R ^ 2 := by rw [pow_two]; exact le_mul_of_one_le_left (by linarith) R1
  have QQ : 1 ≤ Q ^ 2 := one_le_pow₀ Q1
  have k1 : Q ^ 2 ≤ Q ^ 2 * R := le_mul_of_one_le_right (by linarith) R1
  have k2 : Q ^ 2 * R ≤ Q ^ 2 * R ^ 2 := mul_le_mul_of_nonneg_left RR (by linarith)
  have h1 : |b * b| ≤ Q ^ 2 := by rw [pow_two]; exact abs_mul_le hbQ hbQ
  obtain ⟨β, e1, e2, -⟩ := rnd_mul hF u0.le hb hb (le_refl |b * b|) (by linarith)
  have hβ : |β| ≤ 101 / 100 * Q ^ 2 := by
    have h2 := abs_le_of_near e2 h1
    have h3 : u * |b * b| ≤ 1 / 2 ^ 20 * Q ^ 2 := mul_le_mul u1 h1 (abs_nonneg _) (by positivity)
    linarith
  have h4 : |β * X| ≤ 273 / 100 * (Q ^ 2 * R) := (abs_mul_le hβ hX).trans (by
    rw [show 101 / 100 * Q ^ 2 * (27 / 10 * R) = 101 / 100 * (27 / 10) * (Q ^ 2 * R) by ring]
    linarith)
  obtain ⟨m, f1, f2, -⟩ := rnd_mul hF u0.le e1 hx (le_refl |β * X|) (by linarith)
  have hm : |m| ≤ 275 / 100 * (Q ^ 2 * R) := by
    have h2 := abs_le_of_near f2 h4
    have h3 : u * |β * X| ≤ 1 / 2 ^ 20 * (273 / 100 * (Q ^ 2 * R)) := mul_le_mul u1 h4 (abs_nonneg _) (by positivity)
    linarith
  have h5 : |m * X| ≤ 75 / 10 * (Q ^ 2 * R ^ 2) := (abs_mul_le hm hX).trans (by
    rw [show 275 / 100 * (Q ^ 2 * R) * (27 / 10 * R) = 275 / 100 * (27 / 10) * (Q ^ 2 * R ^ 2) by ring]
    linarith)
  obtain ⟨t, g1, g2, -⟩ := rnd_mul hF u0.le f1 hx (le_refl |m * X|) (by linarith)
  have ht : |t| ≤ 8 * (Q ^ 2 * R ^ 2) := by
    have h2 := abs_le_of_near g2 h5
    have h3 : u * |m * X| ≤ 1 / 2 ^ 20 * (75 / 10 * (Q ^ 2 * R ^ 2)) := mul_le_mul u1 h5 (abs_nonneg _) (by positivity)
    linarith
  exact ⟨t, g1, sq_chain u0 u1 η0 hη e2 f2 g2, ht⟩

/-- a coordinate of the point at which a cap is met -/
theorem coord_far (hF : F.Gradual u η hi) (u0 : 0 < u) (u1 : u ≤ 1 / 2 ^ 20) (η0 : 0 ≤ η) (η1 : η ≤ 1 / 2 ^ 12) {x t j : XF F} {X T e R : K}
    (hx : x.Is X) (ht : t.Is T) (hj : j.Is e) (R1 : 1 ≤ R) (hhi : 2 ^ 10 * R ≤ hi) (hX : |X| ≤ 101 / 100 * R) (hT : |T| ≤ 16 / 10 * R)
    (he : |e| ≤ 101 / 100) :
    ∃ P Y, (x + t * j).Is Y ∧ |P - T * e| ≤ u * |T * e| + η ∧ |Y - (X + P)| ≤ u * |X + P| + η ∧ |Y| ≤ 27 / 10 * R := by
  have h1 : |T * e| ≤ 162 / 100 * R := (abs_mul_le hT he).trans (by linarith)
  obtain ⟨P, e1, e2, -⟩ := rnd_mul hF u0.le ht hj (le_refl |T * e|) (by linarith)
  have hP : |P| ≤ 163 / 100 * R := by
    have h2 := abs_le_of_near e2 h1
    have h3 : u * |T * e| ≤ 1 / 2 ^ 20 * (162 / 100 * R) := mul_le_mul u1 h1 (abs_nonneg _) (by positivity)
    linarith
  have h4 : |X + P| ≤ 265 / 100 * R := (abs_add_le' hX hP).trans (by linarith)
  obtain ⟨Y, f1, f2, -⟩ := rnd_add hF u0.le hx e1 (le_refl |X + P|) (by linarith)
  refine ⟨P, Y, f1, e2, f2, ?_⟩
  have h2 := abs_le_of_near f2 h4
  have h3 : u * |X + P| ≤ 1 / 2 ^ 20 * (265 / 100 * R) := mul_le_mul u1 h4 (abs_nonneg _) (by positivity)
  linarith

theorem coord_back (hs : Scale u η hi L) {p T e P X : K} (h1 : |X - (p + P)| ≤ u * |p + P| + η)
    (h2 : |P - T * e| ≤ u * |T * e| + η) (hp : |p| ≤ 101 / 100 * L) (hX : |X| ≤ 101 / 100 * L) :
    |X - (p + T * e)| ≤ 32 / 10 * (u * L) := by
  obtain ⟨u0, u1, η0, ηu, ηL, ηLL, ηuLL, ηuL, L0, uL0, uLL0, uL1, uLL1, hi1, hiL, hiLL⟩ := hs.sizes
  have h3 := faith_bound u0.le u1 h1 hX
  have h4 : |P| ≤ 203 / 100 * L := by
    have := abs_sub_le' h3 hp
    rw [show p + P - p = P by ring] at this
    linarith
  have h5 := faith_bound u0.le u1 h2 h4
  have h7 := mul_le_mul_of_nonneg_left h5 u0.le
  have h8 := mul_le_mul_of_nonneg_left h3 u0.le
  have h9 : |(p + P) - (p + T * e)| ≤ u * |T * e| + η := by
    rw [show (p + P) - (p + T * e) = P - T * e by ring]; exact h2
  have h10 := abs_near_trans h1 h9
  have h11 : u * η ≤ 1 * η := mul_le_mul_of_nonneg_right (by linarith) η0
  linarith

/-- squares of numbers close to each other -/
theorem sq_close {X q δ B : K} (h : |X - q| ≤ δ) (hX : |X| ≤ B) (hq : |q| ≤ B) : |q ^ 2 - X ^ 2| ≤ 2 * B * δ := by
  rw [show q ^ 2 - X ^ 2 = -((X + q) * (X - q)) by ring, abs_neg]
  refine (abs_mul_le (abs_add_le' hX hq) h).trans (le_of_eq ?_)
  ring

theorem tubeE_near {X Y x y δ B : K} (hx : |X - x| ≤ δ) (hy : |Y - y| ≤ δ) (hX : |X| ≤ B) (hY : |Y| ≤ B) (hx1 : |x| ≤ B) (hy1 : |y| ≤ B) :
    |tubeE a b x y - tubeE a b X Y| ≤ (a ^ 2 + b ^ 2) * (2 * B * δ) := by
  have h1 := mul_le_mul_of_nonneg_left (sq_close hx hX hx1) (pow_two_nonneg b)
  have h2 := mul_le_mul_of_nonneg_left (sq_close hy hY hy1) (pow_two_nonneg a)
  rw [show tubeE a b x y - tubeE a b X Y = b ^ 2 * (x ^ 2 - X ^ 2) + a ^ 2 * (y ^ 2 - Y ^ 2) by unfold tubeE; ring]
  refine (abs_add_le _ _).trans ?_
  rw [abs_mul, abs_mul, abs_of_nonneg (pow_two_nonneg a), abs_of_nonneg (pow_two_nonneg b)]
  linarith

/-- a hit on a cap from outside -/
theorem cyl_cap (H : CylFloat u η hi L ν μ a' b' h' org dir a b h p d) {t c' : XF F} {c : K} (hc : c'.Is c) (hcL : |c| ≤ 52 / 100 * L)
    (h2 : eq dir.z (nat 0) = false) (h3 : t = (c' - org.z) / dir.z) (h4 : lt t (nat 0) = false)
    (h5 : le (b' * b' * (org + Vec3.smul t dir).x * (org + Vec3.smul t dir).x + a' * a' * (org + Vec3.smul t dir).y * (org + Vec3.smul t dir).y)
        (a' * a' * b' * b') = true) :
    ∃ T, t.Is T ∧ 0 ≤ T ∧ |T * d.z| ≤ 16 / 10 * L ∧ |p.z + T * d.z - c| ≤ 33 / 10 * (u * L) ∧
      tubeE a b (p.x + T * d.x) (p.y + T * d.y) ≤ 20 * (u * ((a ^ 2 + b ^ 2) * L ^ 2)) := by
  obtain ⟨m1, m2, m3, m4⟩ := H.scale.more
  have hq := H.scale.quartic
  obtain ⟨-, -, -, Q1, ηθ, ηQ, θ0, QQ, Q2, Q3, hi2, hi3, hi4, θu⟩ := H.scale.tube
  obtain ⟨u0, u1, η0, ηu, ηL, ηLL, ηuLL, ηuL, L0, uL0, uLL0, uL1, uLL1, hi1, hiL, hiLL⟩ := H.scale.toScale.sizes
  have hF := H.rounds.toGradual
  have μ0 := H.scale.μ_pos
  have ν0 := H.scale.ν_pos
  have a0 := H.a0
  have b0 := H.b0
  have h0 := H.h0
  have hsum := H.sum
  have hl : d.z ≠ 0 := by
    intro h0
    rw [(H.hd.2.2.eq H.rounds.nat0).2 h0] at h2
    exact absurd h2 (by simp)
  obtain ⟨G, T, G1, T1, G2, T2, k1, k2, k3, -, -⟩ := cap_param H hl hc hcL
  rw [← h3] at T1
  have hT0 : 0 ≤ T := by
    by_contra hlt
    rw [(T1.lt H.rounds.nat0).2 (not_le.1 hlt)] at h4
    exact absurd h4 (by simp)
  have η1 : η ≤ 1 / 2 ^ 12 := by linarith
  -- magnitudes
  set R := (1 + L) / μ with hR
  have hR1 : 1 + L ≤ R := by rw [hR, le_div_iff₀ μ0]; exact mul_le_of_le_one_right (by linarith) H.scale.μ_le
  have R1 : 1 ≤ R := Q1.trans hR1
  have hTR : |T| ≤ 16 / 10 * R := by rw [hR, mul_div_assoc', le_div_iff₀ μ0]; linarith
  have hQR : 2 ^ 10 * ((1 + L) ^ 2 * R ^ 2) ≤ hi := by
    rw [hR, div_pow, mul_div_assoc', mul_div_assoc', div_le_iff₀ (by positivity)]
    refine le_trans (le_of_eq ?_) hq
    ring
  have hRhi : 2 ^ 10 * R ≤ hi := by rw [hR, mul_div_assoc', div_le_iff₀ μ0]; exact m3
  obtain ⟨Px, X, x1, x2, x3, x4⟩ := coord_far hF u0 u1 η0 η1 H.ho.1 T1 H.hd.1 R1 hRhi (by linarith [H.sx]) hTR H.dx
  obtain ⟨Py, Y, y1, y2, y3, y4⟩ := coord_far hF u0 u1 η0 η1 H.ho.2.1 T1 H.hd.2.1 R1 hRhi (by linarith [H.sy]) hTR H.dy
  have νa : ν ^ 2 ≤ a ^ 2 := pow_le_pow_left₀ ν0.le H.aν 2
  have νb : ν ^ 2 ≤ b ^ 2 := pow_le_pow_left₀ ν0.le H.bν 2
  have ηa : 2 ^ 12 * η ≤ u * a ^ 2 := m1.trans (mul_le_mul_of_nonneg_left νa u0.le)
  have ηb : 2 ^ 12 * η ≤ u * b ^ 2 := m1.trans (mul_le_mul_of_nonneg_left νb u0.le)
  have ηab : 2 ^ 12 * η ≤ u * (a ^ 2 * b ^ 2) := by
    refine m2.trans (mul_le_mul_of_nonneg_left ?_ u0.le)
    have := mul_le_mul νa νb (by positivity) (by positivity)
    rwa [show ν ^ 2 * ν ^ 2 = ν ^ 4 by ring] at this
  have aQ : |a| ≤ 1 + L := by rw [abs_of_pos a0]; linarith
  have bQ : |b| ≤ 1 + L := by rw [abs_of_pos b0]; linarith
  obtain ⟨t1, p1, p2, p3⟩ := sq_chain_is hF H.faith u0 u1 η0 η1 H.hb x1 ηb bQ Q1 R1 x4 hQR
  obtain ⟨t2, q1, q2, q3⟩ := sq_chain_is hF H.faith u0 u1 η0 η1 H.ha y1 ηa aQ Q1 R1 y4 hQR
  obtain ⟨W, w1, w2, -⟩ := sq_chain_is hF H.faith u0 u1 η0 η1 H.ha H.hb ηa aQ Q1 R1 (by linarith) hQR
  have hQR0 : 0 ≤ (1 + L) ^ 2 * R ^ 2 := by positivity
  obtain ⟨V, v1, v2, -⟩ := rnd_add hF u0.le p1 q1 (le_refl |t1 + t2|) ((abs_add_le' p3 q3).trans (by linarith))
  have hVW : V ≤ W := (v1.le w1).1 h5
  have hE := cap_test u0 u1 η0 ηab p2 q2 v2 w2 hVW
  have uab : u * (a ^ 2 * b ^ 2) ≤ 1 / 2 ^ 20 * (a ^ 2 * b ^ 2) := mul_le_mul_of_nonneg_right u1 (by positivity)
  have hE1 : b ^ 2 * X ^ 2 + a ^ 2 * Y ^ 2 ≤ 1001 / 1000 * (a ^ 2 * b ^ 2) := by
    unfold tubeE at hE
    have : 0 ≤ a ^ 2 * b ^ 2 := by positivity
    linarith
  have hX : |X| ≤ 101 / 100 * L := by
    have h6 : X ^ 2 ≤ (101 / 100 * a) ^ 2 := by
      refine le_of_mul_le_mul_left ?_ (pow_pos b0 2)
      have : 0 ≤ a ^ 2 * Y ^ 2 := by positivity
      have h7 : 0 ≤ a ^ 2 * b ^ 2 := by positivity
      rw [show b ^ 2 * (101 / 100 * a) ^ 2 = 10201 / 10000 * (a ^ 2 * b ^ 2) by ring]
      linarith
    exact (abs_le_of_sq_le_sq h6 (by positivity)).trans (by linarith)
  have hY : |Y| ≤ 101 / 100 * L := by
    have h6 : Y ^ 2 ≤ (101 / 100 * b) ^ 2 := by
      refine le_of_mul_le_mul_left ?_ (pow_pos a0 2)
      have : 0 ≤ b ^ 2 * X ^ 2 := by positivity
      have h7 : 0 ≤ a ^ 2 * b ^ 2 := by positivity
      rw [show a ^ 2 * (101 / 100 * b) ^ 2 = 10201 / 10000 * (a ^ 2 * b ^ 2) by ring]
      linarith
    exact (abs_le_of_sq_le_sq h6 (by positivity)).trans (by linarith)
  have bx := coord_back H.scale.toScale x3 x2 H.sx hX
  have bY := coord_back H.scale.toScale y3 y2 H.sy hY
  have uL1 : u * L ≤ 1 / 2 ^ 20 * L := mul_le_mul_of_nonneg_right u1 L0.le
  have hx5 : |p.x + T * d.x| ≤ 102 / 100 * L := by
    have := abs_sub_le' hX bx
    rw [show X - (X - (p.x + T * d.x)) = p.x + T * d.x by ring] at this
    linarith
  have hy5 : |p.y + T * d.y| ≤ 102 / 100 * L := by
    have := abs_sub_le' hY bY
    rw [show Y - (Y - (p.y + T * d.y)) = p.y + T * d.y by ring] at this
    linarith
  have hn := tubeE_near (a := a) (b := b) bx bY (B := 102 / 100 * L) (by linarith) (by linarith) hx5 hy5
  refine ⟨T, T1, hT0, k2, k1, ?_⟩
  have hn2 := (abs_le.1 hn).2
  have e1 : (a ^ 2 + b ^ 2) * (2 * (102 / 100 * L) * (32 / 10 * (u * L))) = 2 * (102 / 100) * (32 / 10) * (u * ((a ^ 2 + b ^ 2) * L ^ 2)) := by ring
  rw [e1] at hn2
  have hab : u * (a ^ 2 * b ^ 2) ≤ u * ((a ^ 2 + b ^ 2) * L ^ 2) := by
    refine mul_le_mul_of_nonneg_left ?_ u0.le
    have : b ^ 2 ≤ L ^ 2 := pow_le_pow_left₀ b0.le (by linarith) 2
    exact mul_le_mul (by linarith [pow_two_nonneg b]) this (by positivity) (by positivity)
  have : 0 ≤ u * ((a ^ 2 + b ^ 2) * L ^ 2) := by positivity
  linarith

end
end Blazert
