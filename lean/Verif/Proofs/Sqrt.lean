/- The square root of the binary formats: nearly exact before rounding. -/
import Verif.Proofs.Gradual
import Mathlib.Data.Nat.Sqrt

set_option autoImplicit false

namespace Blazert
namespace Format

theorem isqrtLoop_eq (n fuel x : Nat) (hn : 0 < n) (hx0 : 0 < x) (hx : Nat.sqrt n ≤ x) (hf : x - Nat.sqrt n < 2 ^ fuel) :
    isqrtLoop n fuel x = Nat.sqrt n := by
  induction fuel generalizing x with
  | zero => simp only [isqrtLoop]; omega
  | succ fuel ih =>
    simp only [isqrtLoop]
    have hdiv : n < x * (n / x + 1) := by
      have := Nat.lt_div_mul_add (a := n) hx0
      rw [Nat.mul_add, Nat.mul_one, Nat.mul_comm]; exact this
    have hy : Nat.sqrt n ≤ (x + n / x) / 2 := by
      rw [← Nat.lt_succ_iff, Nat.succ_eq_add_one, Nat.sqrt_lt']
      have h1 : x + n / x ≤ 2 * ((x + n / x) / 2) + 1 := by omega
      have h2 : (x + n / x + 1) ≤ 2 * ((x + n / x) / 2 + 1) := by omega
      have h3 : (x + n / x + 1) ^ 2 ≤ (2 * ((x + n / x) / 2 + 1)) ^ 2 := Nat.pow_le_pow_left h2 2
      have h4 : 4 * (x * (n / x + 1)) ≤ (x + n / x + 1) ^ 2 := by
        have : (x + n / x + 1) = x + (n / x + 1) := by ring
        rw [this]
        generalize n / x + 1 = d
        zify
        nlinarith [sq_nonneg ((x : ℤ) - (d : ℤ))]
      have h5 : (2 * ((x + n / x) / 2 + 1)) ^ 2 = 4 * ((x + n / x) / 2 + 1) ^ 2 := by ring
      omega
    by_cases hlt : (x + n / x) / 2 < x
    · rw [if_pos hlt]
      have hs : Nat.sqrt n < x := by omega
      have hns : n / x ≤ Nat.sqrt n := by
        rw [← Nat.lt_succ_iff, Nat.div_lt_iff_lt_mul hx0]
        calc n < (Nat.sqrt n + 1) * (Nat.sqrt n + 1) := Nat.lt_succ_sqrt n
          _ ≤ (Nat.sqrt n + 1) * x := Nat.mul_le_mul_left _ hs
      have hp : 2 ^ (fuel + 1) = 2 * 2 ^ fuel := by ring
      have h1 : 0 < Nat.sqrt n := Nat.sqrt_pos.2 hn
      exact ih _ (by omega) hy (by omega)
    · rw [if_neg hlt]
      have h1 : x ≤ n / x := by omega
      have h2 : x * x ≤ n := (Nat.le_div_iff_mul_le hx0).1 h1
      exact le_antisymm (Nat.le_sqrt.2 h2) hx

theorem isqrt_eq (n : Nat) (hn : n < 2 ^ 300) : isqrt n = Nat.sqrt n := by
  unfold isqrt
  by_cases h0 : n = 0
  · simp [h0]
  rw [if_neg h0]
  have hl : n < 2 ^ (Nat.log2 n + 1) := Nat.lt_log2_self
  have hl' : Nat.log2 n < 300 := (Nat.log2_lt h0).2 hn
  apply isqrtLoop_eq _ _ _ (Nat.pos_of_ne_zero h0)
  · positivity
  · rw [← Nat.lt_succ_iff]
    refine lt_of_lt_of_le ?_ (Nat.le_succ _)
    rw [Nat.sqrt_lt', ← pow_mul]
    exact hl.trans_le (Nat.pow_le_pow_right (by norm_num) (by omega))
  · exact lt_of_le_of_lt (Nat.sub_le _ _) (Nat.pow_lt_pow_right (by norm_num) (by omega))

theorem sqrtSticky_spec (p : Nat) (hp : p ≤ 100) {q : ℚ} (hq : 0 < q) :
    0 < sqrtSticky p q ∧ |sqrtSticky p q ^ 2 - q| ≤ pow2 (-((p : Int) + 2)) * q := by
  obtain ⟨l1, l2⟩ := ilog2_spec hq
  unfold sqrtSticky
  simp only
  set k : Int := (p : Int) + 3 - ilog2 q / 2 with hk
  set x : ℚ := q * pow2 (2 * k) with hx
  have hmod := Int.emod_add_mul_ediv (ilog2 q) 2
  have hm0 := Int.emod_nonneg (ilog2 q) (show (2 : Int) ≠ 0 by norm_num)
  have hm1 := Int.emod_lt_of_pos (ilog2 q) (show (0 : Int) < 2 by norm_num)
  have hx1 : pow2 (2 * (p : Int) + 6) ≤ x := by
    calc pow2 (2 * (p : Int) + 6) ≤ pow2 (ilog2 q + 2 * k) := pow2_le.2 (by omega)
      _ = pow2 (ilog2 q) * pow2 (2 * k) := pow2_add _ _
      _ ≤ x := mul_le_mul_of_nonneg_right l1 (pow2_pos _).le
  have hx2 : x < pow2 (2 * (p : Int) + 8) := by
    calc x < pow2 (ilog2 q + 1) * pow2 (2 * k) := mul_lt_mul_of_pos_right l2 (pow2_pos _)
      _ = pow2 (ilog2 q + 1 + 2 * k) := (pow2_add _ _).symm
      _ ≤ pow2 (2 * (p : Int) + 8) := pow2_le.2 (by omega)
  have hx0 : 0 < x := lt_of_lt_of_le (pow2_pos _) hx1
  have hfl : (x.floor.toNat : ℚ) ≤ x ∧ x < (x.floor.toNat : ℚ) + 1 := by
    have h0 : 0 ≤ x.floor := by rw [Rat.le_floor_iff]; exact_mod_cast hx0.le
    have h1 : ((x.floor.toNat : ℤ) : ℚ) = ((x.floor : ℤ) : ℚ) := by rw [Int.toNat_of_nonneg h0]
    rw [show (x.floor.toNat : ℚ) = ((x.floor.toNat : ℤ) : ℚ) by push_cast; rfl, h1]
    exact ⟨Rat.floor_le x, by have := Rat.lt_floor_add_one x; push_cast at this; exact this⟩
  have hnb : x.floor.toNat < 2 ^ 300 := by
    have h1 : (x.floor.toNat : ℚ) < (2 : ℚ) ^ 300 := by
      refine lt_of_le_of_lt hfl.1 (hx2.trans_le ?_)
      rw [show ((2 : ℚ) ^ 300) = pow2 ((300 : ℕ) : Int) by rw [pow2_nat]]
      exact pow2_le.2 (by omega)
    exact_mod_cast h1
  rw [isqrt_eq _ hnb]
  set s := Nat.sqrt x.floor.toNat with hs
  have hs1 : (s : ℚ) ^ 2 ≤ x := by
    refine le_trans ?_ hfl.1
    rw [pow_two]
    exact_mod_cast Nat.sqrt_le x.floor.toNat
  have hs2 : x < ((s : ℚ) + 1) ^ 2 := by
    refine lt_of_lt_of_le hfl.2 ?_
    rw [pow_two]
    have := Nat.lt_succ_sqrt x.floor.toNat
    rw [← hs] at this
    exact_mod_cast this
  have hs3 : pow2 ((p : Int) + 3) ≤ s := by
    rw [show (p : Int) + 3 = ((p + 3 : ℕ) : Int) by push_cast; ring, pow2_nat]
    have h1 : (2 ^ (p + 3) : ℕ) ≤ s := by
      rw [hs, Nat.le_sqrt]
      have h2 : (pow2 (2 * (p : Int) + 6)) < (x.floor.toNat : ℚ) + 1 := lt_of_le_of_lt hx1 hfl.2
      rw [show 2 * (p : Int) + 6 = ((2 * p + 6 : ℕ) : Int) by push_cast; ring, pow2_nat] at h2
      have h3 : 2 ^ (2 * p + 6) < x.floor.toNat + 1 := by exact_mod_cast h2
      have h4 : 2 ^ (p + 3) * 2 ^ (p + 3) = 2 ^ (2 * p + 6) := by rw [← pow_add]; congr 1; ring
      omega
    exact_mod_cast h1
  have hs0 : (0 : ℚ) < s := lt_of_lt_of_le (pow2_pos _) hs3
  have h2k : pow2 (2 * k) = pow2 k * pow2 k := by rw [← pow2_add]; congr 1; ring
  have hkk : pow2 (-k) * pow2 k = 1 := by rw [← pow2_add]; simp [pow2]
  have hk0 := pow2_pos k
  have hk0' := pow2_pos (-k)
  have hq' : q = x * (pow2 (-k) * pow2 (-k)) := by
    rw [hx, h2k]
    have : pow2 k * pow2 k * (pow2 (-k) * pow2 (-k)) = (pow2 (-k) * pow2 k) * (pow2 (-k) * pow2 k) := by ring
    rw [mul_assoc, this, hkk]; ring
  by_cases he : (s : ℚ) * (s : ℚ) = x
  · rw [if_pos he]
    refine ⟨mul_pos hs0 hk0', ?_⟩
    have : ((s : ℚ) * pow2 (-k)) ^ 2 - q = 0 := by rw [hq', ← he]; ring
    rw [this, abs_zero]
    exact mul_nonneg (pow2_pos _).le hq.le
  · rw [if_neg he]
    have h1 : pow2 (-k - 1) = pow2 (-k) / 2 := by
      rw [sub_eq_add_neg, pow2_add, show pow2 (-1) = 1 / 2 by decide +kernel]; ring
    rw [h1]
    refine ⟨by positivity, ?_⟩
    have h2 : ((2 * (s : ℚ) + 1) * (pow2 (-k) / 2)) ^ 2 - q = (((s : ℚ) + 1 / 2) ^ 2 - x) * (pow2 (-k) * pow2 (-k)) := by
      linear_combination -hq'
    have hU : pow2 (-((p : Int) + 2)) * pow2 ((p : Int) + 3) = 2 := by
      rw [← pow2_add]
      have : -((p : Int) + 2) + ((p : Int) + 3) = 1 := by ring
      rw [this]; decide +kernel
    have hU0 := pow2_pos (-((p : Int) + 2))
    have hUs : 2 ≤ pow2 (-((p : Int) + 2)) * s := by
      rw [← hU]; exact mul_le_mul_of_nonneg_left hs3 hU0.le
    have hs8 : (1 : ℚ) ≤ s := by
      refine le_trans ?_ hs3
      rw [show (1 : ℚ) = pow2 0 by decide +kernel]
      exact pow2_le.2 (by omega)
    have h3 : |((s : ℚ) + 1 / 2) ^ 2 - x| ≤ pow2 (-((p : Int) + 2)) * x := by
      have h4 : (2 : ℚ) * s ≤ pow2 (-((p : Int) + 2)) * x := by
        calc (2 : ℚ) * s ≤ pow2 (-((p : Int) + 2)) * s * s := mul_le_mul_of_nonneg_right hUs hs0.le
          _ = pow2 (-((p : Int) + 2)) * (s : ℚ) ^ 2 := by ring
          _ ≤ _ := mul_le_mul_of_nonneg_left hs1 hU0.le
      rw [abs_le]
      constructor <;> nlinarith
    rw [h2, abs_mul, abs_of_pos (mul_pos hk0' hk0')]
    calc |((s : ℚ) + 1 / 2) ^ 2 - x| * (pow2 (-k) * pow2 (-k)) ≤ pow2 (-((p : Int) + 2)) * x * (pow2 (-k) * pow2 (-k)) :=
          mul_le_mul_of_nonneg_right h3 (mul_pos hk0' hk0').le
      _ = pow2 (-((p : Int) + 2)) * q := by rw [mul_assoc, ← hq']

theorem sqrt_round {p : Nat} (hp : p ≤ 100) {post : ℚ → Option ℚ} {u η hi : ℚ} (hu : u = pow2 (-(p : Int)))
    (hu8 : 8 * u ≤ 1) (hη : 0 ≤ η) (hηu : 8 * η ≤ u) (hhi : 2 ≤ hi)
    (hpost : ∀ r, |r| ≤ hi → ∃ r', post r = some r' ∧ |r' - r| ≤ u * |r| + η ∧ (0 ≤ r → 0 ≤ r')) (v : ℚ) (hv : 0 < v)
    (hvhi : v ≤ hi) : ∃ r, post (sqrtSticky p v) = some r ∧ 0 ≤ r ∧ |r ^ 2 - v| ≤ 4 * u * v + 4 * η := by
  obtain ⟨h1, h2⟩ := sqrtSticky_spec p hp hv
  set s := sqrtSticky p v with hs
  have hu4 : pow2 (-((p : Int) + 2)) = u / 4 := by
    rw [neg_add, pow2_add, ← hu, show pow2 (-2) = 1 / 4 by decide +kernel]; ring
  rw [hu4] at h2
  have hu0 : 0 < u := hu ▸ pow2_pos _
  have hsle : s ^ 2 ≤ (1 + u / 4) * v := by linarith [(abs_le.1 h2).2]
  have hshi : |s| ≤ hi := by
    rw [abs_of_pos h1]
    by_contra hc
    have hc := not_le.1 hc
    nlinarith
  obtain ⟨r, e1, e2, e3⟩ := hpost s hshi
  refine ⟨r, e1, e3 h1.le, ?_⟩
  rw [abs_of_pos h1] at e2
  have hr0 := e3 h1.le
  -- |r² - s²| = |r - s| (r + s)
  have h5 : |r ^ 2 - s ^ 2| ≤ (u * s + η) * ((2 + u) * s + η) := by
    rw [show r ^ 2 - s ^ 2 = (r - s) * (r + s) by ring, abs_mul]
    refine mul_le_mul e2 ?_ (abs_nonneg _) (by positivity)
    rw [abs_of_nonneg (by linarith)]
    linarith [(abs_le.1 e2).2]
  have h6 : (u * s + η) * ((2 + u) * s + η) = (2 * u + u * u) * s ^ 2 + η * s * (2 + 2 * u) + η * η := by ring
  have h7 : 2 * s ≤ 1 + s ^ 2 := by nlinarith [mul_self_nonneg (s - 1)]
  have hηη : η * η ≤ η := by nlinarith
  have h8 : η * s * (2 + 2 * u) ≤ (1 + u) * η * (1 + s ^ 2) := by
    have : η * s * (2 + 2 * u) = (1 + u) * η * (2 * s) := by ring
    rw [this]
    exact mul_le_mul_of_nonneg_left h7 (by positivity)
  have hus : 0 ≤ u * s ^ 2 := by positivity
  have huus : u * u * s ^ 2 ≤ u * s ^ 2 / 8 := by nlinarith
  have hηs : η * s ^ 2 ≤ u * s ^ 2 / 8 := by nlinarith [pow_two_nonneg s]
  have huηs : u * η * s ^ 2 ≤ u * s ^ 2 / 8 := by
    have : u * η * s ^ 2 = u * (η * s ^ 2) := by ring
    nlinarith
  have huη : u * η ≤ η := by nlinarith
  have h9 : |r ^ 2 - s ^ 2| ≤ 5 / 2 * (u * s ^ 2) + 3 * η := by nlinarith
  have h10 : u * s ^ 2 ≤ 9 / 8 * (u * v) := by nlinarith
  have h11 : |r ^ 2 - v| ≤ |r ^ 2 - s ^ 2| + |s ^ 2 - v| := by
    rw [show r ^ 2 - v = (r ^ 2 - s ^ 2) + (s ^ 2 - v) by ring]; exact abs_add_le _ _
  have huv : 0 < u * v := mul_pos hu0 hv
  linarith

theorem binary64_rounds : binary64.Rounds (pow2 (-53)) (pow2 (-1075)) binary64.maxVal := by
  refine ⟨binary64_gradual, ?_, by decide +kernel, by decide +kernel, by decide +kernel, by decide +kernel⟩
  have hs : binary64.sqrt = sqrtSticky 53 := by unfold binary64; rfl
  rw [hs]
  exact sqrt_round (p := 53) (by norm_num) rfl (by decide +kernel) (by decide +kernel) (by decide +kernel)
    (by decide +kernel) binary64_gradual.post

theorem binary32_rounds : binary32.Rounds (pow2 (-24)) (pow2 (-150)) binary32.maxVal := by
  refine ⟨binary32_gradual, ?_, by decide +kernel, by decide +kernel, by decide +kernel, by decide +kernel⟩
  have hs : binary32.sqrt = sqrtSticky 24 := by unfold binary32; rfl
  rw [hs]
  exact sqrt_round (p := 24) (by norm_num) rfl (by decide +kernel) (by decide +kernel) (by decide +kernel)
    (by decide +kernel) binary32_gradual.post

end Format
end Blazert
