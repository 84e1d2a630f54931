/- Rounding is monotone. -/
import Verif.Spec.EmbreeCylRound
import Verif.Proofs.Ordered

set_option autoImplicit false

namespace Blazert
namespace Format

theorem roundEven_bounds (q : ℚ) : q.floor ≤ roundEven q ∧ roundEven q ≤ q.floor + 1 := by
  unfold roundEven
  simp only
  split
  · omega
  · split
    · omega
    · split <;> omega

theorem roundEven_mono {q q' : ℚ} (h : q ≤ q') : roundEven q ≤ roundEven q' := by
  have hf : q.floor ≤ q'.floor := Rat.floor_monotone h
  rcases hf.eq_or_lt with hf | hf
  · unfold roundEven
    simp only
    rw [← hf]
    have h1 : q - (q.floor : ℚ) ≤ q' - (q.floor : ℚ) := by linarith
    generalize q - (q.floor : ℚ) = x at h1 ⊢
    generalize q' - (q.floor : ℚ) = y at h1 ⊢
    split_ifs <;> first | omega | (exfalso; linarith)
  · have h1 := (roundEven_bounds q).2
    have h2 := (roundEven_bounds q').1
    omega

variable {p : Nat} {emin : Int} {M : ℚ}

theorem ilog2_mono {q r : ℚ} (hq : 0 < q) (h : q ≤ r) : ilog2 q ≤ ilog2 r := by
  have h1 := (ilog2_spec hq).1
  have h2 := (ilog2_spec (hq.trans_le h)).2
  have h3 : pow2 (ilog2 q) < pow2 (ilog2 r + 1) := h1.trans_lt (h.trans_lt h2)
  by_contra hlt
  have : pow2 (ilog2 r + 1) ≤ pow2 (ilog2 q) := pow2_le.2 (by omega)
  linarith

theorem roundBinary_mono_pos {q r q' r' : ℚ} (hp : 1 ≤ p) (hq : 0 < q) (h : q ≤ r) (h1 : roundBinary p emin M q = some q')
    (h2 : roundBinary p emin M r = some r') : q' ≤ r' := by
  have hr : 0 < r := hq.trans_le h
  have hl := ilog2_mono hq h
  by_cases he : max (ilog2 q - ((p : Int) - 1)) emin = max (ilog2 r - ((p : Int) - 1)) emin
  · rw [roundBinary_pos hq h1, roundBinary_pos hr h2, he]
    have hpos := pow2_pos (max (ilog2 r - ((p : Int) - 1)) emin)
    refine mul_le_mul_of_nonneg_right ?_ hpos.le
    exact_mod_cast roundEven_mono (div_le_div_of_nonneg_right h hpos.le)
  · have hlt : ilog2 q < ilog2 r := by
      rcases hl.eq_or_lt with hl | hl
      · rw [hl] at he; exact absurd rfl he
      · exact hl
    have hmin : emin ≤ ilog2 r := by
      by_contra hc
      exact he (by rw [max_eq_right (by omega), max_eq_right (by omega)])
    have hw : OnGrid p emin (pow2 (ilog2 r)) := by
      refine ⟨1, ilog2 r, hmin, ?_, by push_cast; ring⟩
      rw [pow2_nat]
      push_cast
      exact one_le_pow₀ (by norm_num)
    have hqw : q ≤ pow2 (ilog2 r) := (ilog2_spec hq).2.le.trans (pow2_le.2 (by omega))
    exact ((round_grid hq h1 hp hw).2 hqw).trans ((round_grid hr h2 hp hw).1 (ilog2_spec hr).1)

theorem roundBinary_nonpos' {q v : ℚ} (hq : q ≤ 0) (h : roundBinary p emin M q = some v) : v ≤ 0 := by
  have h3 : roundBinary p emin M (-q) = some (-v) := by rw [roundBinary_odd, h]; rfl
  have := roundBinary_nonneg' (by linarith) h3
  linarith

theorem roundBinary_mono {q r q' r' : ℚ} (hp : 1 ≤ p) (h : q ≤ r) (h1 : roundBinary p emin M q = some q')
    (h2 : roundBinary p emin M r = some r') : q' ≤ r' := by
  rcases lt_or_ge 0 q with hq | hq
  · exact roundBinary_mono_pos hp hq h h1 h2
  rcases le_or_gt 0 r with hr | hr
  · exact (roundBinary_nonpos' hq h1).trans (roundBinary_nonneg' hr h2)
  · have h3 : roundBinary p emin M (-q) = some (-q') := by rw [roundBinary_odd, h1]; rfl
    have h4 : roundBinary p emin M (-r) = some (-r') := by rw [roundBinary_odd, h2]; rfl
    have := roundBinary_mono_pos hp (by linarith) (by linarith) h4 h3
    linarith

theorem binary64_monotone : binary64.Monotone := by
  intro r s r' s' h h1 h2
  rw [binary64] at h1 h2
  exact roundBinary_mono (by norm_num) h h1 h2

theorem binary32_monotone : binary32.Monotone := by
  intro r s r' s' h h1 h2
  rw [binary32] at h1 h2
  exact roundBinary_mono (by norm_num) h h1 h2

end Format
end Blazert
