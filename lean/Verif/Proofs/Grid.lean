/- Rounding keeps to a grid. -/
import Verif.Proofs.Ordered

set_option autoImplicit false

namespace Blazert
namespace Format

variable {p : Nat} {emin : Int} {M : ℚ}

theorem grid_refine {a b : Int} (h : a ≤ b) (n : ℤ) : ∃ k : ℤ, (n : ℚ) * pow2 b = k * pow2 a := by
  obtain ⟨m, hm⟩ := pow2_int (k := b - a) (by omega)
  refine ⟨n * m, ?_⟩
  push_cast
  rw [hm, mul_assoc, ← pow2_add]
  congr 2; ring

theorem roundEven_int (n : ℤ) : roundEven (n : ℚ) = n :=
  le_antisymm (roundEven_le le_rfl) (roundEven_ge le_rfl)

theorem roundBinary_grid_pos {a : Int} (ha : emin ≤ a) {k : ℤ} {r : ℚ} (hk : 0 < (k : ℚ) * pow2 a)
    (h : roundBinary p emin M (k * pow2 a) = some r) : ∃ n : ℤ, r = n * pow2 a := by
  have hv := roundBinary_pos hk h
  set e := max (ilog2 (k * pow2 a) - ((p : Int) - 1)) emin with he
  by_cases hea : a ≤ e
  · rw [hv]
    exact grid_refine hea _
  · obtain ⟨n, hn⟩ := grid_refine (a := e) (b := a) (by omega) k
    refine ⟨k, ?_⟩
    rw [hv, hn, mul_div_assoc, div_self (pow2_pos e).ne', mul_one, roundEven_int]

/-- multiples of `2 ^ a` are rounded to multiples of `2 ^ a` -/
theorem roundBinary_grid {a : Int} (ha : emin ≤ a) {k : ℤ} {r : ℚ} (h : roundBinary p emin M (k * pow2 a) = some r) :
    ∃ n : ℤ, r = n * pow2 a := by
  rcases lt_trichotomy ((k : ℚ) * pow2 a) 0 with hk | hk | hk
  · have h2 : roundBinary p emin M (((-k : ℤ) : ℚ) * pow2 a) = some (-r) := by
      push_cast
      rw [neg_mul, roundBinary_odd, h]
      rfl
    obtain ⟨n, hn⟩ := roundBinary_grid_pos ha (by push_cast; linarith) h2
    refine ⟨-n, ?_⟩
    push_cast
    linarith
  · rw [hk, roundBinary_zero, Option.some.injEq] at h
    exact ⟨0, by rw [← h]; simp⟩
  · exact roundBinary_grid_pos ha hk h

/-- a number of magnitude at least `2 ^ g` is a multiple of `2 ^ (g - p)` -/
theorem roundBinary_coarse {q v : ℚ} (h : roundBinary p emin M q = some v) {f g : Int} (hfg : f + p ≤ g) (hv : pow2 g ≤ |v|) :
    ∃ k : ℤ, v = k * pow2 f := by
  have pos : ∀ q v : ℚ, 0 < q → roundBinary p emin M q = some v → pow2 g ≤ v → ∃ k : ℤ, v = k * pow2 f := by
    intro q v hq h hv
    obtain ⟨n, e, -, hn, rfl⟩ := onGrid_of_round hq h
    have h1 : pow2 g ≤ pow2 (p + e) := by
      rw [pow2_add]
      exact hv.trans (mul_le_mul_of_nonneg_right hn (pow2_pos e).le)
    have h2 := pow2_le.1 h1
    exact grid_refine (by omega) n
  have hg := pow2_pos g
  rcases lt_trichotomy q 0 with hq | rfl | hq
  · have h3 : roundBinary p emin M (-q) = some (-v) := by rw [roundBinary_odd, h]; rfl
    have h4 := roundBinary_nonneg' (by linarith) h3
    rw [abs_of_nonpos (by linarith)] at hv
    obtain ⟨k, hk⟩ := pos _ _ (by linarith) h3 hv
    exact ⟨-k, by push_cast; linarith⟩
  · rw [roundBinary_zero, Option.some.injEq] at h
    rw [← h, abs_zero] at hv
    linarith
  · rw [abs_of_nonneg (roundBinary_nonneg' hq.le h)] at hv
    exact pos _ _ hq h hv

end Format
end Blazert
