/- Binary floating point rounds with a relative error of at most half an ulp. -/
import Verif.Spec.Rounding
import Verif.Format
import Mathlib.Data.Nat.Log
import Mathlib.Algebra.Order.Field.Power
import Mathlib.Data.Nat.Cast.Order.Field
import Mathlib.Tactic.Linarith
import Mathlib.Tactic.Positivity
import Mathlib.Tactic.FieldSimp
import Mathlib.Tactic.Ring
import Mathlib.Tactic.NormNum

set_option autoImplicit false

namespace Blazert
namespace Format

theorem pow2_eq (e : Int) : pow2 e = (2 : ℚ) ^ e := by
  unfold pow2
  split
  · rename_i h
    obtain ⟨n, rfl⟩ := Int.eq_ofNat_of_zero_le h
    simp
  · rename_i h
    obtain ⟨n, hn⟩ := Int.eq_ofNat_of_zero_le (by omega : 0 ≤ -e)
    have : e = -(n : Int) := by omega
    subst this
    simp

theorem pow2_pos (e : Int) : 0 < pow2 e := by rw [pow2_eq]; positivity

theorem pow2_add (a b : Int) : pow2 (a + b) = pow2 a * pow2 b := by
  simp only [pow2_eq]; exact zpow_add₀ (by norm_num) a b

theorem pow2_le {a b : Int} : pow2 a ≤ pow2 b ↔ a ≤ b := by
  simp only [pow2_eq]; exact zpow_le_zpow_iff_right₀ (by norm_num)

theorem pow2_lt {a b : Int} : pow2 a < pow2 b ↔ a < b := by
  simp only [pow2_eq]; exact zpow_lt_zpow_iff_right₀ (by norm_num)

theorem pow2_nat (n : Nat) : pow2 n = (2 : ℚ) ^ n := by rw [pow2_eq]; simp

theorem ilog2_spec {q : ℚ} (hq : 0 < q) : pow2 (ilog2 q) ≤ q ∧ q < pow2 (ilog2 q + 1) := by
  have hnum : q.num.natAbs ≠ 0 := by
    have := Rat.num_pos.2 hq; omega
  have hden : q.den ≠ 0 := q.den_nz
  have hn0 : (0 : ℚ) < (q.num.natAbs : ℚ) := by positivity
  have hd0 : (0 : ℚ) < (q.den : ℚ) := by positivity
  have hqe : q = (q.num.natAbs : ℚ) / (q.den : ℚ) := by
    have h1 : ((q.num.natAbs : ℕ) : ℚ) = (q.num : ℚ) := by
      rw [← Int.cast_natCast, Int.natAbs_of_nonneg (Rat.num_pos.2 hq).le]
    rw [h1, Rat.num_div_den]
  have n1 : pow2 (Nat.log2 q.num.natAbs) ≤ (q.num.natAbs : ℚ) := by
    rw [pow2_nat]; exact_mod_cast Nat.log2_self_le hnum
  have n2 : (q.num.natAbs : ℚ) < pow2 (Nat.log2 q.num.natAbs + 1) := by
    rw [show ((Nat.log2 q.num.natAbs : Int) + 1) = ((Nat.log2 q.num.natAbs + 1 : Nat) : Int) by simp, pow2_nat]
    exact_mod_cast Nat.lt_log2_self
  have d1 : pow2 (Nat.log2 q.den) ≤ (q.den : ℚ) := by
    rw [pow2_nat]; exact_mod_cast Nat.log2_self_le hden
  have d2 : (q.den : ℚ) < pow2 (Nat.log2 q.den + 1) := by
    rw [show ((Nat.log2 q.den : Int) + 1) = ((Nat.log2 q.den + 1 : Nat) : Int) by simp, pow2_nat]
    exact_mod_cast Nat.lt_log2_self
  set a : Int := ((Nat.log2 q.num.natAbs : Nat) : Int)
  set b : Int := ((Nat.log2 q.den : Nat) : Int)
  have lower : pow2 (a - b - 1) < q := by
    have h : pow2 (a - b - 1) * pow2 (b + 1) = pow2 a := by rw [← pow2_add]; congr 1; ring
    have h1 : pow2 (a - b - 1) * q.den < pow2 (a - b - 1) * pow2 (b + 1) := mul_lt_mul_of_pos_left d2 (pow2_pos _)
    have h2 : pow2 (a - b - 1) * q.den < q.num.natAbs := by rw [h] at h1; linarith
    calc pow2 (a - b - 1) < (q.num.natAbs : ℚ) / q.den := by rw [lt_div_iff₀ hd0]; exact h2
      _ = q := hqe.symm
  have upper : q < pow2 (a - b + 1) := by
    have h : pow2 (a - b + 1) * pow2 b = pow2 (a + 1) := by rw [← pow2_add]; congr 1; ring
    have h1 : pow2 (a - b + 1) * pow2 b ≤ pow2 (a - b + 1) * q.den := mul_le_mul_of_nonneg_left d1 (pow2_pos _).le
    have h2 : (q.num.natAbs : ℚ) < pow2 (a - b + 1) * q.den := by rw [h] at h1; linarith
    calc q = (q.num.natAbs : ℚ) / q.den := hqe
      _ < pow2 (a - b + 1) := by rw [div_lt_iff₀ hd0]; exact h2
  have hil : ilog2 q = if q < pow2 (a - b) then a - b - 1 else a - b := rfl
  rw [hil]
  split
  · rename_i h
    refine ⟨lower.le, ?_⟩
    rwa [show a - b - 1 + 1 = a - b by ring]
  · rename_i h
    exact ⟨not_lt.1 h, upper⟩

theorem roundEven_spec (q : ℚ) : |((roundEven q : ℤ) : ℚ) - q| ≤ 1 / 2 := by
  have h1 : (q.floor : ℚ) ≤ q := Rat.floor_le q
  have h2 : q < (q.floor : ℚ) + 1 := by exact_mod_cast Rat.lt_floor_add_one q
  unfold roundEven
  simp only
  rw [abs_le]
  split
  · constructor <;> linarith
  · split
    · push_cast; constructor <;> linarith
    · split
      · constructor <;> linarith
      · push_cast; constructor <;> linarith

/-- rounding does not cross an integer upper bound -/
theorem roundEven_le {q : ℚ} {n : ℤ} (h : q ≤ n) : roundEven q ≤ n := by
  have h1 : (q.floor : ℚ) ≤ q := Rat.floor_le q
  have hf : q.floor ≤ n := by exact_mod_cast h1.trans h
  unfold roundEven
  simp only
  rcases hf.eq_or_lt with he | hlt
  · have : q - q.floor ≤ 0 := by rw [he]; linarith
    rw [if_pos (by linarith)]; exact hf
  · split
    · omega
    · split
      · omega
      · split <;> omega

theorem roundBinary_spec (p : Nat) (hp : 1 ≤ p) (emin emax : Int) (q : ℚ)
    (h : Between (pow2 (emin + ((p : Int) - 1))) ((pow2 p - 1) * pow2 (emax - ((p : Int) - 1))) q) :
    ∃ r, roundBinary p emin ((pow2 p - 1) * pow2 (emax - ((p : Int) - 1))) q = some r ∧
      |r - q| ≤ pow2 (-(p : Int)) * |q| := by
  unfold roundBinary
  by_cases h0 : q = 0
  · rw [if_pos h0]; exact ⟨0, rfl, by simp [h0]⟩
  · rw [if_neg h0]
    rcases h with h | ⟨hlo, hhi⟩
    · exact absurd h h0
    have ha : (if q < 0 then -q else q) = |q| := by
      split
      · rename_i hn; rw [abs_of_neg hn]
      · rename_i hn; rw [abs_of_nonneg (not_lt.1 hn)]
    rw [ha]
    have hq : 0 < |q| := abs_pos.2 h0
    set a := |q|
    obtain ⟨l1, l2⟩ := ilog2_spec hq
    have hge : emin + ((p : Int) - 1) < ilog2 a + 1 := pow2_lt.1 (lt_of_le_of_lt hlo l2)
    have he : max (ilog2 a - ((p : Int) - 1)) emin = ilog2 a - ((p : Int) - 1) := by omega
    simp only [he]
    set e := ilog2 a - ((p : Int) - 1) with hedef
    have hpe := pow2_pos e
    have hr := roundEven_spec (a / pow2 e)
    set m := roundEven (a / pow2 e) with hm
    have herr : |(m : ℚ) * pow2 e - a| ≤ pow2 (-(p : Int)) * a := by
      have h1 : (m : ℚ) * pow2 e - a = ((m : ℚ) - a / pow2 e) * pow2 e := by field_simp
      rw [h1, abs_mul, abs_of_pos hpe]
      have h2 : pow2 (ilog2 a) = 2 * (pow2 ((p : Int)) * (pow2 e / 4)) := by
        have : pow2 (ilog2 a) = pow2 e * pow2 ((p : Int)) * pow2 (-1) := by
          rw [← pow2_add, ← pow2_add]; congr 1; omega
        rw [this, show pow2 (-1) = 1 / 2 by decide +kernel]; ring
      have h3 : pow2 (-(p : Int)) * pow2 (p : Int) = 1 := by
        rw [← pow2_add, show -(p : Int) + p = 0 by ring]; decide +kernel
      have h4 : pow2 (-(p : Int)) * pow2 (ilog2 a) = pow2 e / 2 := by
        rw [h2]
        calc pow2 (-(p : Int)) * (2 * (pow2 ((p : Int)) * (pow2 e / 4)))
            = (pow2 (-(p : Int)) * pow2 (p : Int)) * (pow2 e / 2) := by ring
          _ = _ := by rw [h3, one_mul]
      have h5 : pow2 (-(p : Int)) * pow2 (ilog2 a) ≤ pow2 (-(p : Int)) * a :=
        mul_le_mul_of_nonneg_left l1 (pow2_pos _).le
      nlinarith
    have hov : (m : ℚ) * pow2 e ≤ (pow2 p - 1) * pow2 (emax - ((p : Int) - 1)) := by
      have hP : (1 : ℚ) ≤ pow2 (p : Int) / 2 := by
        rw [pow2_nat]
        have : (2 : ℚ) ^ 1 ≤ 2 ^ p := pow_le_pow_right₀ (by norm_num) hp
        linarith
      have hle : ilog2 a ≤ emax := by
        have h1 : pow2 (ilog2 a) < pow2 (emax + 1) := by
          calc pow2 (ilog2 a) ≤ a := l1
            _ ≤ _ := hhi
            _ < pow2 p * pow2 (emax - ((p : Int) - 1)) :=
              mul_lt_mul_of_pos_right (by linarith) (pow2_pos _)
            _ = pow2 (emax + 1) := by rw [← pow2_add]; congr 1; ring
        have := pow2_lt.1 h1; omega
      rcases hle.eq_or_lt with heq | hlt
      · have hee : e = emax - ((p : Int) - 1) := by rw [hedef, heq]
        rw [← hee] at hhi ⊢
        have h1 : a / pow2 e ≤ ((2 ^ p - 1 : ℤ) : ℚ) := by
          rw [div_le_iff₀ hpe]; push_cast; rw [← pow2_nat]; exact hhi
        have h2 := roundEven_le h1
        have h3 : (m : ℚ) ≤ pow2 (p : Int) - 1 := by rw [pow2_nat]; exact_mod_cast h2
        exact mul_le_mul_of_nonneg_right h3 hpe.le
      · have h1 : a / pow2 e ≤ ((2 ^ p : ℤ) : ℚ) := by
          rw [div_le_iff₀ hpe]
          push_cast
          rw [← pow2_nat, ← pow2_add]
          refine l2.le.trans (pow2_le.2 (by omega))
        have h2 := roundEven_le h1
        have h3 : (m : ℚ) ≤ pow2 (p : Int) := by rw [pow2_nat]; exact_mod_cast h2
        calc (m : ℚ) * pow2 e ≤ pow2 (p : Int) * pow2 e := mul_le_mul_of_nonneg_right h3 hpe.le
          _ = pow2 (p + e) := (pow2_add _ _).symm
          _ ≤ pow2 emax := pow2_le.2 (by omega)
          _ = (pow2 (p : Int) / 2) * pow2 (emax - ((p : Int) - 1)) := by
            have : pow2 emax = pow2 (p : Int) * pow2 (-1) * pow2 (emax - ((p : Int) - 1)) := by
              rw [← pow2_add, ← pow2_add]; congr 1; ring
            rw [this, show pow2 (-1) = 1 / 2 by decide +kernel]; ring
          _ ≤ (pow2 p - 1) * pow2 (emax - ((p : Int) - 1)) :=
            mul_le_mul_of_nonneg_right (by linarith) (pow2_pos _).le
    rw [if_neg (not_lt.2 hov)]
    refine ⟨_, rfl, ?_⟩
    by_cases hneg : q < 0
    · rw [if_pos hneg]
      have : a = -q := abs_of_neg hneg
      rw [show -((m : ℚ) * pow2 e) - q = -((m : ℚ) * pow2 e - a) by rw [this]; ring, abs_neg]
      exact herr
    · rw [if_neg hneg]
      have : a = q := abs_of_nonneg (not_lt.1 hneg)
      rw [← this]
      exact herr

/-- `double`: relative error at most `2^-53` from the smallest normal number to the largest number -/
theorem binary64_relative : binary64.Relative (pow2 (-53)) binary64.tiny binary64.maxVal := by
  unfold binary64
  exact ⟨fun r hr => roundBinary_spec 53 (by norm_num) (-1074) 1023 r hr, by decide +kernel, by decide +kernel,
    by decide +kernel, by decide +kernel, by decide +kernel⟩

/-- `float`: relative error at most `2^-24` -/
theorem binary32_relative : binary32.Relative (pow2 (-24)) binary32.tiny binary32.maxVal := by
  unfold binary32
  exact ⟨fun r hr => roundBinary_spec 24 (by norm_num) (-149) 127 r hr, by decide +kernel, by decide +kernel,
    by decide +kernel, by decide +kernel, by decide +kernel⟩

end Format
end Blazert
