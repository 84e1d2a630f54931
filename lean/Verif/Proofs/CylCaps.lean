/- Rounding errors of the cylinder test: the caps. -/
import Verif.Proofs.CylRound

set_option autoImplicit false
set_option linter.unusedSectionVars false

namespace Blazert
open Scalar

section
variable {K : Type} [Field K] [LinearOrder K] [IsStrictOrderedRing K] [FloorRing K] {F : Fmt K} {u η hi L ν μ : K}

theorem TubeScale.more (h : TubeScale u η hi L ν μ) :
    2 ^ 12 * η ≤ u * ν ^ 2 ∧ 2 ^ 12 * η ≤ u * ν ^ 4 ∧ 2 ^ 10 * (1 + L) ≤ hi * μ ∧ 2 ^ 12 * (η * (1 + L) ^ 2) ≤ u * (μ * ν ^ 2) := by
  have ht := h.tube
  obtain ⟨u0, u1, η0, Q1, ηθ, ηQ, θ0, QQ, Q2, Q3, hi2, hi3, hi4, θu⟩ := ht
  have ν0 := h.ν_pos
  have ν1 := h.ν_le
  have μ0 := h.μ_pos
  have μ1 := h.μ_le
  have hhi : 0 ≤ hi := by linarith
  have h1 : 2 ^ 12 * η ≤ u * ν ^ 4 := by linarith [h.lost']
  have h2 : ν ^ 4 ≤ ν ^ 2 := pow_le_pow_of_le_one ν0.le ν1 (by norm_num)
  have h3 := mul_le_mul_of_nonneg_left h2 u0.le
  have h4 : hi * μ ^ 2 ≤ hi * μ := by
    refine mul_le_mul_of_nonneg_left ?_ hhi
    have := pow_le_pow_of_le_one μ0.le μ1 (show 1 ≤ 2 by norm_num)
    rwa [pow_one] at this
  have h5 : (1 + L) ^ 1 ≤ (1 + L) ^ 4 := pow_le_pow_right₀ Q1 (by norm_num)
  rw [pow_one] at h5
  have h6 : (μ * ν) ^ 3 ≤ μ * ν ^ 2 := by
    rw [mul_pow]
    have h7 := pow_le_pow_of_le_one μ0.le μ1 (show 1 ≤ 3 by norm_num)
    rw [pow_one] at h7
    exact mul_le_mul h7 (pow_le_pow_of_le_one ν0.le ν1 (by norm_num)) (by positivity) μ0.le
  exact ⟨by linarith, h1, by linarith [h.quartic], h.lost.trans (mul_le_mul_of_nonneg_left h6 u0.le)⟩

/-- `b * b * X * X` -/
theorem sq_chain (u0 : 0 < u) (u1 : u ≤ 1 / 2 ^ 20) (η0 : 0 ≤ η) {b β X m t : K} (hη : 2 ^ 12 * η ≤ u * b ^ 2)
    (h1 : |β - b * b| ≤ u * |b * b| + η) (h2 : |m - β * X| ≤ u * |β * X| + η) (h3 : |t - m * X| ≤ u * |m * X| + η) :
    |t - b ^ 2 * X ^ 2| ≤ 31 / 10 * (u * (b ^ 2 * X ^ 2)) + 22 / 10 * η := by
  have hb0 : 0 ≤ b ^ 2 := pow_two_nonneg b
  have k1 : |β - b ^ 2| ≤ 1001 / 1000 * (u * b ^ 2) := by
    rw [← pow_two, abs_of_nonneg hb0] at h1
    linarith
  have hX0 := abs_nonneg X
  have ubX : 0 ≤ u * (b ^ 2 * |X|) := by positivity
  have k2 : |β * X - b ^ 2 * X| ≤ 1001 / 1000 * (u * (b ^ 2 * |X|)) := by
    rw [← sub_mul, abs_mul]
    calc |β - b ^ 2| * |X| ≤ 1001 / 1000 * (u * b ^ 2) * |X| := mul_le_mul_of_nonneg_right k1 hX0
      _ = _ := by ring
  have hbX : |b ^ 2 * X| = b ^ 2 * |X| := by rw [abs_mul, abs_of_nonneg hb0]
  have uu : u * (u * (b ^ 2 * |X|)) ≤ 1 / 2 ^ 20 * (u * (b ^ 2 * |X|)) := mul_le_mul_of_nonneg_right u1 ubX
  have k3 : |m - b ^ 2 * X| ≤ 2002 / 1000 * (u * (b ^ 2 * |X|)) + η := by
    have k4 := abs_le_of_near k2 hbX.le
    have k5 := mul_le_mul_of_nonneg_left k4 u0.le
    refine (abs_near_trans h2 k2).trans ?_
    linarith
  have XX : |X| * |X| = X ^ 2 := by rw [← abs_mul, ← pow_two, abs_of_nonneg (pow_two_nonneg X)]
  have hX1 : |X| ≤ 1 / 2 + 1 / 2 * X ^ 2 := by
    have := pow_two_nonneg (|X| - 1)
    have e : (|X| - 1) ^ 2 = |X| * |X| - 2 * |X| + 1 := by ring
    rw [e, XX] at this
    linarith
  set M := b ^ 2 * X ^ 2 with hM
  have M0 : 0 ≤ M := by positivity
  have uM0 : 0 ≤ u * M := by positivity
  have hηX : η * |X| ≤ 1 / 2 * η + 1 / 2 ^ 13 * (u * M) := by
    have e1 := mul_le_mul_of_nonneg_left hX1 η0
    have e2 := mul_le_mul_of_nonneg_right hη (pow_two_nonneg X)
    have e3 : u * b ^ 2 * X ^ 2 = u * M := by rw [hM]; ring
    rw [e3] at e2
    linarith
  have k6 : |m * X - M| ≤ 2003 / 1000 * (u * M) + 1 / 2 * η := by
    have e1 : m * X - M = (m - b ^ 2 * X) * X := by rw [hM]; ring
    rw [e1, abs_mul]
    have e2 := mul_le_mul_of_nonneg_right k3 hX0
    have e3 : (2002 / 1000 * (u * (b ^ 2 * |X|)) + η) * |X| = 2002 / 1000 * (u * M) + η * |X| := by
      rw [hM, ← XX]; ring
    rw [e3] at e2
    linarith
  have k7 := abs_le_of_near k6 (abs_of_nonneg M0).le
  have k8 := mul_le_mul_of_nonneg_left k7 u0.le
  have uuM : u * (u * M) ≤ 1 / 2 ^ 20 * (u * M) := mul_le_mul_of_nonneg_right u1 uM0
  have uη : u * η ≤ 1 / 2 ^ 20 * η := mul_le_mul_of_nonneg_right u1 η0
  refine (abs_near_trans h3 k6).trans ?_
  linarith

/-- the test whether the point on a cap is within the ellipse -/
theorem cap_test (u0 : 0 < u) (u1 : u ≤ 1 / 2 ^ 20) (η0 : 0 ≤ η) {a b X Y t1 t2 V W : K}
    (hη : 2 ^ 12 * η ≤ u * (a ^ 2 * b ^ 2))
    (h1 : |t1 - b ^ 2 * X ^ 2| ≤ 31 / 10 * (u * (b ^ 2 * X ^ 2)) + 22 / 10 * η)
    (h2 : |t2 - a ^ 2 * Y ^ 2| ≤ 31 / 10 * (u * (a ^ 2 * Y ^ 2)) + 22 / 10 * η)
    (hV : |V - (t1 + t2)| ≤ u * |t1 + t2| + η) (hW : |W - a ^ 2 * b ^ 2| ≤ 31 / 10 * (u * (a ^ 2 * b ^ 2)) + 22 / 10 * η)
    (h : V ≤ W) : tubeE a b X Y ≤ 8 * (u * (a ^ 2 * b ^ 2)) := by
  unfold tubeE
  set M := b ^ 2 * X ^ 2
  set N := a ^ 2 * Y ^ 2
  set D := a ^ 2 * b ^ 2
  have M0 : 0 ≤ M := by positivity
  have N0 : 0 ≤ N := by positivity
  have D0 : 0 ≤ D := by positivity
  have uM : 0 ≤ u * M := by positivity
  have uN : 0 ≤ u * N := by positivity
  have uD : 0 ≤ u * D := by positivity
  have uM1 : u * M ≤ 1 / 2 ^ 20 * M := mul_le_mul_of_nonneg_right u1 M0
  have uN1 : u * N ≤ 1 / 2 ^ 20 * N := mul_le_mul_of_nonneg_right u1 N0
  have uD1 : u * D ≤ 1 / 2 ^ 20 * D := mul_le_mul_of_nonneg_right u1 D0
  have h12 : |t1 + t2 - (M + N)| ≤ 31 / 10 * (u * (M + N)) + 44 / 10 * η := by
    rw [show t1 + t2 - (M + N) = (t1 - M) + (t2 - N) by ring]
    refine (abs_add_le' h1 h2).trans (le_of_eq ?_)
    ring
  have h3 := abs_le_of_near h12 (abs_of_nonneg (add_nonneg M0 N0)).le
  have h4 := mul_le_mul_of_nonneg_left h3 u0.le
  have h5 := abs_near_trans hV h12
  have uη : u * η ≤ 1 / 2 ^ 20 * η := mul_le_mul_of_nonneg_right u1 η0
  have uuS : u * (u * (M + N)) ≤ 1 / 2 ^ 20 * (u * (M + N)) := mul_le_mul_of_nonneg_right u1 (by positivity)
  have h6 := (abs_le.1 h5).1
  have h7 := (abs_le.1 hW).2
  have h8 : M + N ≤ D + 4102 / 1000 * (u * (M + N)) + 31 / 10 * (u * D) + 8 * η := by linarith
  have h9 : M + N ≤ 1001 / 1000 * D := by linarith
  have h10 := mul_le_mul_of_nonneg_left h9 u0.le
  linarith

/-- the parameter at which a cap is reached -/
theorem cap_time (u0 : 0 < u) (u1 : u ≤ 1 / 2 ^ 20) (η0 : 0 ≤ η) {l T g G Tc : K} (μ0 : 0 < μ) (hl : μ ≤ l) (hl1 : l ≤ 102 / 100)
    (T0 : 0 ≤ T) (hg : g ≤ l * T + (u * (l * T) + η)) (g0 : 0 ≤ g) (hG : G ≤ g + (u * g + η)) (hG0 : 0 ≤ G)
    (hT : Tc ≤ G / l + (u * (G / l) + η)) : Tc - T ≤ 301 / 100 * (u * T) + 4 * (η / μ) := by
  have l0 : 0 < l := μ0.trans_le hl
  have hημ : 0 ≤ η / μ := div_nonneg η0 μ0.le
  have uT : 0 ≤ u * T := by positivity
  have uuT : u * (u * T) ≤ 1 / 2 ^ 20 * (u * T) := mul_le_mul_of_nonneg_right u1 uT
  have ηl : η / l ≤ η / μ := div_le_div_of_nonneg_left η0 μ0 hl
  have uη : u * (η / μ) ≤ 1 / 2 ^ 20 * (η / μ) := mul_le_mul_of_nonneg_right u1 hημ
  have h1 : g / l ≤ T + (u * T + η / l) := by
    rw [div_le_iff₀ l0]
    refine hg.trans (le_of_eq ?_)
    field_simp
  have h1' : g / l ≤ T + (u * T + η / μ) := by linarith
  have h2 := mul_le_mul_of_nonneg_left h1' u0.le
  have h3 : G / l ≤ g / l + (u * (g / l) + η / l) := by
    rw [div_le_iff₀ l0]
    refine hG.trans (le_of_eq ?_)
    field_simp
  have h4 : G / l ≤ T + 2001 / 1000 * (u * T) + 2001 / 1000 * (η / μ) := by linarith
  have h5 := mul_le_mul_of_nonneg_left h4 u0.le
  have h6 : η ≤ 102 / 100 * (η / l) := by
    rw [mul_div_assoc', le_div_iff₀ l0, mul_comm (102 / 100) η]
    exact mul_le_mul_of_nonneg_left hl1 η0
  linarith

/-- a cap reached from inside before the tube is left is within the tube -/
theorem cap_inside (u0 : 0 < u) (u1 : u ≤ 1 / 2 ^ 20) {a b x y j k T Tc e : K}
    (A0 : 0 < tubeA a b j k) (hT : 0 < T) (hTc : 0 ≤ Tc) (hE0 : tubeE a b x y ≤ 0)
    (hE : tubeE a b (x + T * j) (y + T * k) ≤ 56 * (u * tubeH a b x y))
    (hW : Mag (tubeA a b j k * tubeH a b x y) (1003 / 1000) (tubeA a b j k * T + tubeB a b x y j k))
    (hB : Mag (tubeA a b j k * tubeH a b x y) 1 (tubeB a b x y j k))
    (he : Mag (tubeA a b j k * tubeH a b x y) (u / 100) (tubeA a b j k * e)) (e0 : 0 ≤ e)
    (h : Tc - T ≤ 301 / 100 * (u * T) + e) :
    tubeE a b (x + Tc * j) (y + Tc * k) ≤ 70 * (u * tubeH a b x y) := by
  have H0 : 0 ≤ tubeH a b x y := tubeH_nonneg
  have uH : 0 ≤ u * tubeH a b x y := mul_nonneg u0.le H0
  rw [tubeE_poly] at hE ⊢
  set A := tubeA a b j k
  set B := tubeB a b x y j k
  set H := tubeH a b x y
  set E := tubeE a b x y
  by_cases hc : Tc ≤ T
  · -- by convexity
    have h1 : T * (A * Tc ^ 2 + 2 * B * Tc + E) ≤ T * (56 * (u * H)) := by
      have e1 : T * (A * Tc ^ 2 + 2 * B * Tc + E) = (T - Tc) * E + Tc * (A * T ^ 2 + 2 * B * T + E) - A * T * Tc * (T - Tc) := by ring
      rw [e1]
      have k1 : (T - Tc) * E ≤ 0 := mul_nonpos_of_nonneg_of_nonpos (by linarith) hE0
      have k2 : Tc * (A * T ^ 2 + 2 * B * T + E) ≤ Tc * (56 * (u * H)) := mul_le_mul_of_nonneg_left hE hTc
      have k3 : Tc * (56 * (u * H)) ≤ T * (56 * (u * H)) := mul_le_mul_of_nonneg_right hc (by linarith)
      have k4 : 0 ≤ A * T * Tc * (T - Tc) := by
        have : 0 ≤ T - Tc := by linarith
        positivity
      linarith
    have h2 := le_of_mul_le_mul_left h1 hT
    linarith
  · set Δ := Tc - T with hΔ
    have Δ0 : 0 < Δ := by rw [hΔ]; linarith
    have Z0 : 0 ≤ A * H := mul_nonneg A0.le H0
    have mT : Mag (A * H) (2003 / 1000) (A * T) := by
      have := hW.add Z0 hB.neg
      rw [show A * T + B + -B = A * T by ring, show (1003 / 1000 : K) + 1 = 2003 / 1000 by norm_num] at this
      exact this
    have mΔ : Mag (A * H) (u * (61 / 10)) (A * Δ) := by
      have k1 := (mT.scale (s := 301 / 100 * u) (by positivity)).add Z0 he
      refine (k1.of_le (X := A * Δ) ?_).le Z0 ?_
      · rw [abs_of_nonneg (by positivity)]
        have := mul_le_mul_of_nonneg_left h A0.le
        refine this.trans (le_of_eq ?_)
        ring
      · linarith
    have k2 := hW.mul Z0 mΔ
    have k3 := mΔ.mul Z0 mΔ
    have k4 : (A * T + B) * Δ ≤ 613 / 100 * (u * H) := by
      have : A * ((A * T + B) * Δ) ≤ A * (613 / 100 * (u * H)) := by
        have e1 : A * ((A * T + B) * Δ) = (A * T + B) * (A * Δ) := by ring
        rw [e1]
        refine (le_abs_self _).trans (k2.trans ?_)
        have : 0 ≤ A * (u * H) := by positivity
        have e2 : 1003 / 1000 * (u * (61 / 10)) * (A * H) = 1003 / 1000 * (61 / 10) * (A * (u * H)) := by ring
        rw [e2]
        linarith
      exact le_of_mul_le_mul_left this A0
    have k5 : A * Δ ^ 2 ≤ 1 / 10 * (u * H) := by
      have : A * (A * Δ ^ 2) ≤ A * (1 / 10 * (u * H)) := by
        have e1 : A * (A * Δ ^ 2) = (A * Δ) * (A * Δ) := by ring
        rw [e1]
        refine (le_abs_self _).trans (k3.trans ?_)
        have k6 : 0 ≤ A * (u * H) := by positivity
        have k7 : u * (A * (u * H)) ≤ 1 / 2 ^ 20 * (A * (u * H)) := mul_le_mul_of_nonneg_right u1 k6
        have e2 : u * (61 / 10) * (u * (61 / 10)) * (A * H) = 61 / 10 * (61 / 10) * (u * (A * (u * H))) := by ring
        rw [e2]
        linarith
      exact le_of_mul_le_mul_left this A0
    have e3 : A * Tc ^ 2 + 2 * B * Tc + E = (A * T ^ 2 + 2 * B * T + E) + 2 * ((A * T + B) * Δ) + A * Δ ^ 2 := by
      rw [hΔ]; ring
    rw [e3]
    linarith

/-- underflow in the parameter -/
theorem TubeScale.underflow (hs : TubeScale u η hi L ν μ) {a b x y j k : K} (h : TubeIn (1 + L) a b x y j k) (ha : ν ≤ a) (hb : ν ≤ b) :
    Mag (tubeA a b j k * tubeH a b x y) (u / 100) (tubeA a b j k * (4 * (η / μ))) := by
  obtain ⟨m1, m2, m3, m4⟩ := hs.more
  obtain ⟨u0, u1, η0, Q1, ηθ, ηQ, θ0, QQ, Q2, Q3, hi2, hi3, hi4, θu⟩ := hs.tube
  have hAQ := h.A_le
  have A0 := h.A_nonneg
  have ν0 := hs.ν_pos
  have μ0 := hs.μ_pos
  set A := tubeA a b j k
  set H := tubeH a b x y
  have hH : ν ^ 4 ≤ H := by
    refine le_trans ?_ (ab_le_tubeH (a := a) (b := b) (x := x) (y := y))
    have h1 := pow_le_pow_left₀ ν0.le ha 2
    have h2 := pow_le_pow_left₀ ν0.le hb 2
    have h3 := mul_le_mul h1 h2 (by positivity) (by positivity)
    rwa [show ν ^ 2 * ν ^ 2 = ν ^ 4 by ring] at h3
  refine ⟨by positivity, ?_⟩
  have h1 : η / μ * (1 + L) ^ 2 ≤ u * ν ^ 2 / 2 ^ 12 := by
    rw [div_mul_eq_mul_div, div_le_iff₀ μ0, show u * ν ^ 2 / 2 ^ 12 * μ = u * (μ * ν ^ 2) / 2 ^ 12 by ring, le_div_iff₀ (by positivity)]
    linarith
  have hημ : 0 ≤ η / μ := div_nonneg η0 μ0.le
  set t := η / μ
  have h2 : (t * (1 + L) ^ 2) ^ 2 ≤ (u * ν ^ 2 / 2 ^ 12) ^ 2 := pow_le_pow_left₀ (by positivity) h1 2
  have h3 : A * t ^ 2 ≤ 21 / 10 * (t * (1 + L) ^ 2) ^ 2 := by
    have k1 : A * t ^ 2 ≤ 21 / 10 * (1 + L) ^ 2 * t ^ 2 := mul_le_mul_of_nonneg_right hAQ (by positivity)
    have k2 : (1 + L) ^ 2 * t ^ 2 ≤ (t * (1 + L) ^ 2) ^ 2 := by
      rw [show (t * (1 + L) ^ 2) ^ 2 = (1 + L) ^ 2 * ((1 + L) ^ 2 * t ^ 2) by ring]
      exact le_mul_of_one_le_left (by positivity) Q2
    linarith
  have h4 : A * t ^ 2 ≤ 21 / 10 / 2 ^ 24 * (u ^ 2 * H) := by
    have k1 : u ^ 2 * ν ^ 4 ≤ u ^ 2 * H := mul_le_mul_of_nonneg_left hH (by positivity)
    have e1 : (u * ν ^ 2 / 2 ^ 12) ^ 2 = 1 / 2 ^ 24 * (u ^ 2 * ν ^ 4) := by ring
    rw [e1] at h2
    linarith
  have h5 := mul_le_mul_of_nonneg_left h4 A0
  have k0 : 0 ≤ A * (u ^ 2 * H) := mul_nonneg A0 (mul_nonneg (by positivity) (le_trans (by positivity) hH))
  calc (A * (4 * t)) ^ 2 = 16 * (A * (A * t ^ 2)) := by ring
    _ ≤ 16 * (A * (21 / 10 / 2 ^ 24 * (u ^ 2 * H))) := by linarith
    _ = 16 * 21 / 10 / 2 ^ 24 * (A * (u ^ 2 * H)) := by ring
    _ ≤ 1 / 10000 * (A * (u ^ 2 * H)) := mul_le_mul_of_nonneg_right (by norm_num) k0
    _ = (u / 100) ^ 2 * (A * H) := by ring

end
end Blazert
