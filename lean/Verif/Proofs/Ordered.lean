/- No rounding crosses a number of the format. -/
import Verif.Spec.CylRound
import Verif.Proofs.TriScan

set_option autoImplicit false

namespace Blazert
namespace Format

theorem roundEven_ge {q : ℚ} {n : ℤ} (h : (n : ℚ) ≤ q) : n ≤ roundEven q := by
  have hf : n ≤ q.floor := Rat.le_floor_iff.2 h
  unfold roundEven
  simp only
  split
  · omega
  · split
    · omega
    · split <;> omega

/-- a number with at most `p` bits, a multiple of `2 ^ emin` -/
def OnGrid (p : Nat) (emin : Int) (w : ℚ) : Prop := ∃ (n : ℤ) (f : Int), emin ≤ f ∧ (n : ℚ) ≤ pow2 p ∧ w = n * pow2 f

variable {p : Nat} {emin : Int} {M : ℚ}

/-- positive arguments -/
theorem roundBinary_pos {q v : ℚ} (hq : 0 < q) (h : roundBinary p emin M q = some v) :
    v = (roundEven (q / pow2 (max (ilog2 q - ((p : Int) - 1)) emin)) : ℚ) * pow2 (max (ilog2 q - ((p : Int) - 1)) emin) := by
  unfold roundBinary at h
  have h1 : ¬ q < 0 := by linarith
  rw [if_neg hq.ne'] at h
  simp only [if_neg h1] at h
  split_ifs at h
  rw [Option.some.injEq] at h
  exact h.symm

theorem onGrid_of_round {q v : ℚ} (hq : 0 < q) (h : roundBinary p emin M q = some v) : OnGrid p emin v := by
  have hv := roundBinary_pos hq h
  set e := max (ilog2 q - ((p : Int) - 1)) emin with he
  refine ⟨roundEven (q / pow2 e), e, le_max_right _ _, ?_, hv⟩
  have h1 : q / pow2 e ≤ pow2 p := by
    rw [div_le_iff₀ (pow2_pos e), ← pow2_add]
    refine (ilog2_spec hq).2.le.trans (pow2_le.2 ?_)
    have := le_max_left (ilog2 q - ((p : Int) - 1)) emin
    omega
  have h2 : pow2 p = ((2 ^ p : ℤ) : ℚ) := by rw [pow2_nat]; push_cast; rfl
  rw [h2] at h1 ⊢
  exact_mod_cast roundEven_le h1

theorem pow2_int {k : Int} (hk : 0 ≤ k) : ∃ n : ℤ, (n : ℚ) = pow2 k := by
  obtain ⟨m, rfl⟩ := Int.eq_ofNat_of_zero_le hk
  exact ⟨2 ^ m, by rw [pow2_nat]; push_cast; rfl⟩

theorem round_grid {r r' w : ℚ} (hr : 0 < r) (h : roundBinary p emin M r = some r') (hp : 1 ≤ p) (hw : OnGrid p emin w) :
    (w ≤ r → w ≤ r') ∧ (r ≤ w → r' ≤ w) := by
  have hr' := roundBinary_pos hr h
  obtain ⟨l1, l2⟩ := ilog2_spec hr
  set e := max (ilog2 r - ((p : Int) - 1)) emin with he
  obtain ⟨n, f, hf, hn, rfl⟩ := hw
  have pe := pow2_pos e
  -- multiples of the unit
  have mult : ∀ k : ℤ, ((k : ℚ) * pow2 e ≤ r → (k : ℚ) * pow2 e ≤ r') ∧ (r ≤ (k : ℚ) * pow2 e → r' ≤ (k : ℚ) * pow2 e) := by
    intro k
    constructor
    · intro hk
      rw [hr']
      refine mul_le_mul_of_nonneg_right ?_ pe.le
      exact_mod_cast roundEven_ge (by rw [le_div_iff₀ pe]; exact hk)
    · intro hk
      rw [hr']
      refine mul_le_mul_of_nonneg_right ?_ pe.le
      exact_mod_cast roundEven_le (by rw [div_le_iff₀ pe]; exact hk)
  by_cases hfe : e ≤ f
  · obtain ⟨m, hm⟩ := pow2_int (k := f - e) (by omega)
    have : (n : ℚ) * pow2 f = ((n * m : ℤ) : ℚ) * pow2 e := by
      push_cast
      rw [hm, mul_assoc, ← pow2_add]
      congr 2; ring
    rw [this]
    exact mult _
  · have he' : e = ilog2 r - ((p : Int) - 1) := by
      rcases max_choice (ilog2 r - ((p : Int) - 1)) emin with hc | hc
      · exact hc
      · omega
    have hle : (n : ℚ) * pow2 f ≤ pow2 (ilog2 r) := by
      have h1 : (n : ℚ) * pow2 f ≤ pow2 p * pow2 f := mul_le_mul_of_nonneg_right hn (pow2_pos f).le
      rw [← pow2_add] at h1
      exact h1.trans (pow2_le.2 (by omega))
    obtain ⟨m, hm⟩ := pow2_int (k := (p : Int) - 1) (by omega)
    have hpow : pow2 (ilog2 r) = (m : ℚ) * pow2 e := by
      rw [hm, ← pow2_add]
      congr 1; omega
    constructor
    · intro _
      refine hle.trans ?_
      rw [hpow]
      exact (mult m).1 (by rw [← hpow]; exact l1)
    · intro hrw
      have heq : (n : ℚ) * pow2 f = pow2 (ilog2 r) := le_antisymm hle (l1.trans hrw)
      rw [heq, hpow]
      exact (mult m).2 (by rw [← hpow, ← heq]; exact hrw)

theorem roundBinary_zero : roundBinary p emin M 0 = some 0 := by unfold roundBinary; rw [if_pos rfl]

theorem roundBinary_nonneg' {q v : ℚ} (hq : 0 ≤ q) (h : roundBinary p emin M q = some v) : 0 ≤ v := by
  rcases hq.eq_or_lt with rfl | hq
  · rw [roundBinary_zero, Option.some.injEq] at h
    exact h.le
  · rw [roundBinary_pos hq h]
    refine mul_nonneg ?_ (pow2_pos _).le
    exact_mod_cast roundEven_ge (n := 0) (by push_cast; exact (div_pos hq (pow2_pos _)).le)

theorem roundBinary_ordered_pos {q v r r' : ℚ} (hp : 1 ≤ p) (hr : 0 < r) (h1 : roundBinary p emin M q = some v)
    (h2 : roundBinary p emin M r = some r') : (v ≤ r → v ≤ r') ∧ (r ≤ v → r' ≤ v) := by
  by_cases hq : 0 < q
  · exact round_grid hr h2 hp (onGrid_of_round hq h1)
  · have hv : v ≤ 0 := by
      have h3 : roundBinary p emin M (-q) = some (-v) := by rw [roundBinary_odd, h1]; rfl
      have := roundBinary_nonneg' (by linarith) h3
      linarith
    exact ⟨fun _ => hv.trans (roundBinary_nonneg' hr.le h2), fun h => by linarith⟩

theorem roundBinary_ordered {q v r r' : ℚ} (hp : 1 ≤ p) (h1 : roundBinary p emin M q = some v)
    (h2 : roundBinary p emin M r = some r') : (v ≤ r → v ≤ r') ∧ (r ≤ v → r' ≤ v) := by
  rcases lt_trichotomy r 0 with hr | rfl | hr
  · have h3 : roundBinary p emin M (-q) = some (-v) := by rw [roundBinary_odd, h1]; rfl
    have h4 : roundBinary p emin M (-r) = some (-r') := by rw [roundBinary_odd, h2]; rfl
    obtain ⟨k1, k2⟩ := roundBinary_ordered_pos hp (by linarith) h3 h4
    exact ⟨fun h => by linarith [k2 (by linarith)], fun h => by linarith [k1 (by linarith)]⟩
  · rw [roundBinary_zero, Option.some.injEq] at h2
    subst h2
    exact ⟨id, id⟩
  · exact roundBinary_ordered_pos hp hr h1 h2

theorem binary64_ordered : binary64.Ordered := by
  intro q v r r' h1 h2
  rw [binary64] at h1 h2
  exact roundBinary_ordered (by norm_num) h1 h2

theorem binary32_ordered : binary32.Ordered := by
  intro q v r r' h1 h2
  rw [binary32] at h1 h2
  exact roundBinary_ordered (by norm_num) h1 h2

end Format
end Blazert
