/- The bin coordinates of the builder with rounding errors, and: binary64 and binary32 underflow gradually. -/
import Verif.Proofs.Total
import Verif.Proofs.Boxes
import Verif.Proofs.Binary
import Verif.Proofs.Exact

set_option autoImplicit false
set_option linter.unusedSectionVars false

namespace Blazert
open Scalar

section
variable {K : Type} [Field K] [LinearOrder K] [IsStrictOrderedRing K] [FloorRing K] {F : Fmt K} {u η lo hi : K}

theorem XF.mk_grad (hF : F.Gradual u η hi) {r : K} (hr : |r| ≤ hi) (s : Bool) :
    ∃ r', (XF.mk F s r).Is r' ∧ |r' - r| ≤ u * |r| + η ∧ (0 ≤ r → 0 ≤ r') ∧ (r = 0 → r' = 0) := by
  obtain ⟨r', h1, h2, h3⟩ := hF.post r hr
  unfold XF.mk
  rw [h1]
  refine ⟨r', ⟨_, rfl⟩, h2, h3, fun h => ?_⟩
  rw [h, hF.zero, Option.some.injEq] at h1
  exact h1.symm

theorem grad_sub (hF : F.Gradual u η hi) {x y : XF F} {a b : K} (hx : x.Is a) (hy : y.Is b) (hr : |a - b| ≤ hi) :
    ∃ r', (x - y).Is r' ∧ |r' - (a - b)| ≤ u * |a - b| + η ∧ (0 ≤ a - b → 0 ≤ r') ∧ (a - b = 0 → r' = 0) := by
  obtain ⟨s, rfl⟩ := hx
  obtain ⟨t, rfl⟩ := hy
  rw [sub_eq_add_neg a b] at hr ⊢
  exact XF.mk_grad hF hr _

theorem grad_mul (hF : F.Gradual u η hi) {x y : XF F} {a b : K} (hx : x.Is a) (hy : y.Is b) (hr : |a * b| ≤ hi) :
    ∃ r', (x * y).Is r' ∧ |r' - a * b| ≤ u * |a * b| + η ∧ (0 ≤ a * b → 0 ≤ r') ∧ (a * b = 0 → r' = 0) := by
  obtain ⟨s, rfl⟩ := hx
  obtain ⟨t, rfl⟩ := hy
  exact XF.mk_grad hF hr _

theorem grad_div (hF : F.Gradual u η hi) {x y : XF F} {a b : K} (hx : x.Is a) (hy : y.Is b) (hb : b ≠ 0)
    (hr : |a / b| ≤ hi) :
    ∃ r', (x / y).Is r' ∧ |r' - a / b| ≤ u * |a / b| + η ∧ (0 ≤ a / b → 0 ≤ r') ∧ (a / b = 0 → r' = 0) := by
  obtain ⟨s, rfl⟩ := hx
  obtain ⟨t, rfl⟩ := hy
  show ∃ r', (XF.div _ _).Is r' ∧ _
  unfold XF.div
  simp only
  rw [if_neg hb]
  exact XF.mk_grad hF hr _

theorem grad_nat (hF : F.Gradual u η hi) (n : Nat) (hr : (n : K) ≤ hi) :
    ∃ r', (nat n : XF F).Is r' ∧ |r' - n| ≤ u * n + η ∧ 0 ≤ r' ∧ (n = 0 → r' = 0) := by
  have h0 : (0 : K) ≤ n := Nat.cast_nonneg n
  have := XF.mk_grad hF (r := (n : K)) (by rw [abs_of_nonneg h0]; exact hr) false
  rw [abs_of_nonneg h0] at this
  obtain ⟨r', h1, h2, h3, h4⟩ := this
  refine ⟨r', ?_, h2, h3 h0, fun h => h4 (by rw [h]; simp)⟩
  show (XF.mk F _ (((n : ℚ)) : K)).Is r'
  rw [Rat.cast_natCast]
  exact h1

theorem roundU_ne_none {x : XF F} {v : K} (h : x.Is v) (h0 : 0 ≤ v) (h1 : v + 1 / 2 < 2 ^ 32) : roundU x ≠ none := by
  obtain ⟨s, rfl⟩ := h
  show XF.roundU _ ≠ none
  unfold XF.roundU
  simp only
  rw [if_neg (by linarith), if_pos ?_]
  · exact Option.some_ne_none _
  · rw [Int.floor_lt]
    push_cast
    norm_num at h1 ⊢
    exact h1

/-- the bin coordinate of one axis is between zero and a small multiple of the number of bins -/
theorem bin_coord_axis (hF : F.Gradual u η hi) (hn : Fine u η lo hi) {x y z : XF F} {a b c : K} (hx : x.Is a)
    (hy : y.Is b) (hz : z.Is c) (hac : a ≤ c) (hcb : c ≤ b) (hsp : b - a = 0 ∨ (lo ≤ b - a ∧ b - a ≤ hi))
    (n : Nat) (hn29 : n ≤ 2 ^ 29) :
    roundU ((z - x) * (if lt (nat 0) (y - x) then (nat 1 : XF F) / (y - x) else nat 0) * nat n) ≠ none := by
  obtain ⟨hu, hu8, hη, hη1, hηlo, hηhi, hlo, hlohi, hhi⟩ := hn
  have hn' : (n : K) ≤ 2 ^ 29 := by exact_mod_cast hn29
  have hn0 : (0 : K) ≤ n := Nat.cast_nonneg n
  have hhi0 : 0 ≤ hi := le_trans (by norm_num) hhi
  obtain ⟨N, hN, hN1, hN2, -⟩ := grad_nat hF n (by linarith)
  have hNle : N ≤ 9 / 8 * n + 1 / 8 := by
    have h1 := (abs_le.1 hN1).2
    have h2 : u * n ≤ 1 / 8 * n := mul_le_mul_of_nonneg_right (by linarith) hn0
    linarith
  obtain ⟨z0, hz0, -, -, hz1⟩ := grad_nat hF 0 (by simpa using hhi0)
  have hz0' : z0 = 0 := hz1 rfl
  subst hz0'
  rcases hsp with hsp | ⟨hs1, hs2⟩
  · have hca : c - a = 0 := by linarith
    obtain ⟨S, hS, -, -, hS0⟩ := grad_sub hF hy hx (by rw [hsp, abs_zero]; exact hhi0)
    obtain ⟨D, hD, -, -, hD0⟩ := grad_sub hF hz hx (by rw [hca, abs_zero]; exact hhi0)
    have hS' := hS0 hsp
    have hD' := hD0 hca
    subst hS' hD'
    have hlt : lt (nat 0) (y - x) = false := by
      rw [Bool.eq_false_iff, ne_eq, XF.Is.lt hz0 hS]
      exact lt_irrefl _
    rw [hlt]
    obtain ⟨Q, hQ, -, -, hQ0⟩ := grad_mul hF hD hz0 (by simpa using hhi0)
    have hQ' := hQ0 (by simp)
    subst hQ'
    obtain ⟨R, hR, -, -, hR0⟩ := grad_mul hF hQ hN (by simpa using hhi0)
    have hR' := hR0 (by simp)
    subst hR'
    exact roundU_ne_none hR le_rfl (by norm_num)
  · set s := b - a with hs
    have hspos : 0 < s := lt_of_lt_of_le hlo hs1
    have habs : |b - a| ≤ hi := by rw [← hs, abs_of_pos hspos]; exact hs2
    obtain ⟨S, hS, hS1, -, -⟩ := grad_sub hF hy hx habs
    rw [← hs, abs_of_pos hspos] at hS1
    have hSlo : 3 / 4 * s ≤ S := by
      have h1 := (abs_le.1 hS1).1
      have h2 : u * s ≤ 1 / 8 * s := mul_le_mul_of_nonneg_right (by linarith) hspos.le
      linarith
    have hSpos : 0 < S := by linarith
    obtain ⟨D, hD, hD1, hD2, -⟩ := grad_sub hF hz hx (by rw [abs_of_nonneg (by linarith)]; linarith)
    have hD0 : 0 ≤ D := hD2 (by linarith)
    have hDle : D ≤ 5 / 4 * s := by
      rw [abs_of_nonneg (show 0 ≤ c - a by linarith)] at hD1
      have h1 := (abs_le.1 hD1).2
      have h2 : u * (c - a) ≤ 1 / 8 * s := mul_le_mul (by linarith) (by linarith) (by linarith) (by norm_num)
      linarith
    have hlt : lt (nat 0) (y - x) = true := (XF.Is.lt hz0 hS).2 hSpos
    rw [hlt]
    simp only [if_true]
    obtain ⟨one, hone, hone1, hone2, -⟩ := grad_nat hF 1 (by push_cast; linarith)
    push_cast at hone1
    have honele : one ≤ 5 / 4 := by
      have := (abs_le.1 hone1).2
      linarith
    have hq0 : 0 ≤ one / S := div_nonneg hone2 hSpos.le
    have hq1 : one / S ≤ 5 / (3 * s) := by
      rw [div_le_div_iff₀ hSpos (by linarith)]
      have h1 : one * (3 * s) ≤ 5 / 4 * (3 * s) := mul_le_mul_of_nonneg_right honele (by linarith)
      linarith
    have hinvs : 1 / s ≤ hi / 2 := by
      rw [div_le_iff₀ hspos]
      have h1 : hi * lo ≤ hi * s := mul_le_mul_of_nonneg_left hs1 hhi0
      linarith [mul_comm lo hi]
    have h53 : 5 / (3 * s) = 5 / 3 * (1 / s) := by
      field_simp
    obtain ⟨I, hI, hI1, hI2, -⟩ := grad_div hF hone hS hSpos.ne' (by rw [abs_of_nonneg hq0]; linarith)
    rw [abs_of_nonneg hq0] at hI1
    have hI0 := hI2 hq0
    have hηs : η ≤ 1 / 2 * (1 / s) := by
      rw [mul_one_div, le_div_iff₀ hspos]
      have h1 : η * s ≤ η * hi := mul_le_mul_of_nonneg_left hs2 hη
      linarith
    have hIle : I ≤ 5 / 2 * (1 / s) := by
      have h1 := (abs_le.1 hI1).2
      have h2 : u * (one / S) ≤ 1 / 8 * (5 / (3 * s)) := mul_le_mul (by linarith) hq1 hq0 (by norm_num)
      have h3 : 0 ≤ 1 / s := by positivity
      linarith
    have hDI0 : 0 ≤ D * I := mul_nonneg hD0 hI0
    have hDI : D * I ≤ 25 / 8 := by
      calc D * I ≤ (5 / 4 * s) * (5 / 2 * (1 / s)) := mul_le_mul hDle hIle hI0 (by linarith)
        _ = 25 / 8 := by field_simp; norm_num
    obtain ⟨Q, hQ, hQ1, hQ2, -⟩ := grad_mul hF hD hI (by rw [abs_of_nonneg hDI0]; linarith)
    rw [abs_of_nonneg hDI0] at hQ1
    have hQ0 := hQ2 hDI0
    have hQle : Q ≤ 15 / 4 := by
      have h1 := (abs_le.1 hQ1).2
      have h2 : u * (D * I) ≤ 1 / 8 * (D * I) := mul_le_mul_of_nonneg_right (by linarith) hDI0
      linarith
    have hQN0 : 0 ≤ Q * N := mul_nonneg hQ0 hN2
    have hQN : Q * N ≤ 15 / 4 * (9 / 8 * n + 1 / 8) := mul_le_mul hQle hNle hN2 (by norm_num)
    have hQN' : Q * N ≤ 5 * 2 ^ 29 := by linarith
    obtain ⟨R, hR, hR1, hR2, -⟩ := grad_mul hF hQ hN (by rw [abs_of_nonneg hQN0]; linarith)
    rw [abs_of_nonneg hQN0] at hR1
    refine roundU_ne_none hR (hR2 hQN0) ?_
    have h1 := (abs_le.1 hR1).2
    have h2 : u * (Q * N) ≤ 1 / 8 * (Q * N) := mul_le_mul_of_nonneg_right (by linarith) hQN0
    linarith

end

/-! ### the concrete formats -/

open Format

theorem roundEven_nonneg {q : ℚ} (h : 0 ≤ q) : 0 ≤ roundEven q := by
  have hf : 0 ≤ q.floor := Rat.le_floor_iff.2 (by simpa using h)
  unfold roundEven
  simp only
  split
  · exact hf
  · split
    · omega
    · split <;> omega

theorem roundBinary_nonneg (p : Nat) (emin : Int) (M q r : ℚ) (h : roundBinary p emin M q = some r) (hq : 0 ≤ q) :
    0 ≤ r := by
  unfold roundBinary at h
  split at h
  · rw [Option.some.injEq] at h; exact h.le
  · simp only [if_neg (not_lt.2 hq)] at h
    split at h
    · exact absurd h (by simp)
    · rw [Option.some.injEq] at h
      rw [← h]
      exact mul_nonneg (by exact_mod_cast roundEven_nonneg (div_nonneg hq (pow2_pos _).le)) (pow2_pos _).le

theorem roundBinary_gradual (p : Nat) (hp : 1 ≤ p) (emin emax : Int) (hem : emin + ((p : Int) - 1) ≤ emax) (q : ℚ)
    (h : |q| ≤ (pow2 p - 1) * pow2 (emax - ((p : Int) - 1))) :
    ∃ r, roundBinary p emin ((pow2 p - 1) * pow2 (emax - ((p : Int) - 1))) q = some r ∧
      |r - q| ≤ pow2 (-(p : Int)) * |q| + pow2 (emin - 1) := by
  by_cases hlo : pow2 (emin + ((p : Int) - 1)) ≤ |q|
  · obtain ⟨r, h1, h2⟩ := roundBinary_spec p hp emin emax q (.inr ⟨hlo, h⟩)
    exact ⟨r, h1, h2.trans (le_add_of_nonneg_right (pow2_pos _).le)⟩
  by_cases h0 : q = 0
  · refine ⟨0, by unfold roundBinary; rw [if_pos h0], ?_⟩
    rw [h0]; simp [(pow2_pos (emin - 1)).le]
  rw [not_le] at hlo
  unfold roundBinary
  rw [if_neg h0]
  have ha : (if q < 0 then -q else q) = |q| := by
    split
    · rename_i hn; rw [abs_of_neg hn]
    · rename_i hn; rw [abs_of_nonneg (not_lt.1 hn)]
  rw [ha]
  have hq : 0 < |q| := abs_pos.2 h0
  set a := |q|
  obtain ⟨l1, l2⟩ := ilog2_spec hq
  have hge : ilog2 a < emin + ((p : Int) - 1) := pow2_lt.1 (lt_of_le_of_lt l1 hlo)
  have he : max (ilog2 a - ((p : Int) - 1)) emin = emin := by omega
  simp only [he]
  have hpe := pow2_pos emin
  have hr := roundEven_spec (a / pow2 emin)
  set m := roundEven (a / pow2 emin) with hm
  have h2e : pow2 (emin - 1) = 1 / 2 * pow2 emin := by
    rw [sub_eq_add_neg, pow2_add, show pow2 (-1) = 1 / 2 by decide +kernel]; ring
  have herr : |(m : ℚ) * pow2 emin - a| ≤ pow2 (emin - 1) := by
    have h1 : (m : ℚ) * pow2 emin - a = ((m : ℚ) - a / pow2 emin) * pow2 emin := by field_simp
    rw [h1, abs_mul, abs_of_pos hpe, h2e]
    exact mul_le_mul_of_nonneg_right hr hpe.le
  have hov : (m : ℚ) * pow2 emin ≤ (pow2 p - 1) * pow2 (emax - ((p : Int) - 1)) := by
    have h1 : a / pow2 emin ≤ ((2 ^ (p - 1) : ℤ) : ℚ) := by
      rw [div_le_iff₀ hpe]
      push_cast
      rw [← pow2_nat, ← pow2_add]
      refine hlo.le.trans (pow2_le.2 ?_)
      push_cast [Nat.cast_sub hp]; omega
    have h2 := roundEven_le h1
    have hP : pow2 ((p - 1 : Nat) : Int) = pow2 (p : Int) / 2 := by
      rw [pow2_nat, pow2_nat]
      obtain ⟨k, rfl⟩ : ∃ k, p = k + 1 := ⟨p - 1, by omega⟩
      rw [Nat.add_sub_cancel, pow_succ]; ring
    have hP1 : (1 : ℚ) ≤ pow2 (p : Int) / 2 := by
      rw [pow2_nat]
      have : (2 : ℚ) ^ 1 ≤ 2 ^ p := pow_le_pow_right₀ (by norm_num) hp
      linarith
    have h3 : (m : ℚ) ≤ pow2 (p : Int) - 1 := by
      have : (m : ℚ) ≤ pow2 ((p - 1 : Nat) : Int) := by rw [pow2_nat]; exact_mod_cast h2
      linarith
    exact mul_le_mul h3 (pow2_le.2 (by omega)) hpe.le (by linarith)
  rw [if_neg (not_lt.2 hov)]
  have hu : 0 ≤ pow2 (-(p : Int)) * a := mul_nonneg (pow2_pos _).le hq.le
  refine ⟨_, rfl, ?_⟩
  by_cases hneg : q < 0
  · rw [if_pos hneg]
    have : a = -q := abs_of_neg hneg
    rw [show -((m : ℚ) * pow2 emin) - q = -((m : ℚ) * pow2 emin - a) by rw [this]; ring, abs_neg]
    linarith
  · rw [if_neg hneg]
    have : a = q := abs_of_nonneg (not_lt.1 hneg)
    rw [← this]
    linarith

theorem binary64_gradual : binary64.Gradual (pow2 (-53)) (pow2 (-1075)) binary64.maxVal := by
  unfold binary64
  refine ⟨fun r hr => ?_, by decide +kernel⟩
  obtain ⟨r', h1, h2⟩ := roundBinary_gradual 53 (by norm_num) (-1074) 1023 (by norm_num) r hr
  exact ⟨r', h1, h2, roundBinary_nonneg _ _ _ _ _ h1⟩

theorem binary32_gradual : binary32.Gradual (pow2 (-24)) (pow2 (-150)) binary32.maxVal := by
  unfold binary32
  refine ⟨fun r hr => ?_, by decide +kernel⟩
  obtain ⟨r', h1, h2⟩ := roundBinary_gradual 24 (by norm_num) (-149) 127 (by norm_num) r hr
  exact ⟨r', h1, h2, roundBinary_nonneg _ _ _ _ _ h1⟩

theorem binary64_fine : Fine (pow2 (-53)) (pow2 (-1075)) binary64.tiny binary64.maxVal := by
  constructor <;> decide +kernel

theorem binary32_fine : Fine (pow2 (-24)) (pow2 (-150)) binary32.tiny binary32.maxVal := by
  constructor <;> decide +kernel

end Blazert
