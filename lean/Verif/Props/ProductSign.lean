/- C45: `product_sign`. -/
import Verif.Model.Bits
import Mathlib.Tactic.NormNum
import Mathlib.Algebra.Order.Field.Basic

set_option autoImplicit false

namespace Blazert

/-- **C45**, on the bits of a `double`: the sign bit of the result is the exclusive or of the sign bits, all other bits
are those of `x`.  For all `2^128` arguments. -/
theorem C45_double_bits (x y : BitVec 64) :
    (productSign64 x y).msb = (x.msb ^^ y.msb) ∧
    (productSign64 x y).extractLsb' 0 63 = x.extractLsb' 0 63 := by
  constructor
  · simp only [productSign64, BitVec.msb_xor, BitVec.msb_and]
    rw [show (0x8000000000000000#64).msb = true by decide]
    simp
  · ext i hi
    simp only [productSign64, BitVec.getElem_extractLsb', BitVec.getLsbD_xor, BitVec.getLsbD_and]
    have : (0x8000000000000000#64).getLsbD (0 + i) = false := by
      have : ∀ i : Fin 63, (0x8000000000000000#64).getLsbD (0 + i.val) = false := by decide
      exact this ⟨i, hi⟩
    rw [this]; simp

/-- **C45**, on the bits of a `float`. -/
theorem C45_float_bits (x y : BitVec 32) :
    (productSign32 x y).msb = (x.msb ^^ y.msb) ∧
    (productSign32 x y).extractLsb' 0 31 = x.extractLsb' 0 31 := by
  constructor
  · simp only [productSign32, BitVec.msb_xor, BitVec.msb_and]
    rw [show (0x80000000#32).msb = true by decide]
    simp
  · ext i hi
    simp only [productSign32, BitVec.getElem_extractLsb', BitVec.getLsbD_xor, BitVec.getLsbD_and]
    have : (0x80000000#32).getLsbD (0 + i) = false := by
      have : ∀ i : Fin 31, (0x80000000#32).getLsbD (0 + i.val) = false := by decide
      exact this ⟨i, hi⟩
    rw [this]; simp

section
variable {K : Type} [Field K] [LinearOrder K] [IsStrictOrderedRing K] [FloorRing K] {F : Fmt K}

/-- **C45**, on values of any format: the magnitude is that of `x`, the sign is the product of the signs; zeros and
infinities included.  (A NaN has no sign in the model.) -/
theorem C45_value (x y : XF F) (hx : x ≠ .nan) :
    Scalar.abs (productSign x y) = Scalar.abs x ∧
    Scalar.signbit (productSign x y) = (Scalar.signbit x ^^ Scalar.signbit y) := by
  unfold productSign
  cases hy : Scalar.signbit y with
  | false => simp
  | true =>
    simp only [if_true]
    cases x with
    | nan => exact absurd rfl hx
    | inf s => exact ⟨rfl, by cases s <;> rfl⟩
    | fin v s =>
      constructor
      · show XF.abs (XF.fin (-v) (!s)) = XF.abs (XF.fin v s)
        simp [XF.abs]
      · show XF.sgn (-v) (!s) = (XF.sgn v s ^^ true)
        unfold XF.sgn
        by_cases h0 : v = 0
        · subst h0; simp
        · simp only [neg_eq_zero, h0, if_false, Bool.xor_true]
          rcases lt_or_gt_of_ne h0 with h | h
          · simp [h, h.le]
          · simp [h, h.le]

end

private theorem decodeFields_neg {F : Fmt ℚ} (emax mb : Nat) (emin : Int) (s : Bool) (e f : Nat) :
    (decodeFields emax mb emin (!s) e f : XF F) = -(decodeFields emax mb emin s e f) := by
  unfold decodeFields
  split
  · split <;> rfl
  · cases s
    · rfl
    · show XF.fin _ _ = XF.neg (XF.fin _ _)
      simp [XF.neg]

private theorem decodeFields_signbit {F : Fmt ℚ} (emax mb : Nat) (emin : Int) (s : Bool) (e f : Nat)
    (h : (decodeFields emax mb emin s e f : XF F) ≠ .nan) :
    Scalar.signbit (decodeFields emax mb emin s e f : XF F) = s := by
  have hp : ∀ k, 0 < Format.pow2 k := by
    intro k; unfold Format.pow2; split <;> positivity
  unfold decodeFields at h ⊢
  split at h
  · rename_i he
    split at h
    · rename_i hf; rw [if_pos he, if_pos hf]; rfl
    · exact absurd rfl h
  · rename_i he
    rw [if_neg he]
    show XF.sgn _ s = s
    unfold XF.sgn
    have hm : (0 : ℚ) ≤ (if e = 0 then (f : ℚ) * Format.pow2 emin else ((2 ^ mb + f : Nat) : ℚ) * Format.pow2 (emin + e - 1)) := by
      split
      · exact mul_nonneg (by positivity) (hp _).le
      · exact mul_nonneg (by positivity) (hp _).le
    generalize (if e = 0 then (f : ℚ) * Format.pow2 emin else ((2 ^ mb + f : Nat) : ℚ) * Format.pow2 (emin + e - 1)) = m at hm
    cases s with
    | false =>
      simp only [Bool.false_eq_true, if_false]
      split
      · rfl
      · simp [hm]
    | true =>
      simp only [if_true]
      split
      · rfl
      · rename_i hne
        rw [neg_eq_zero] at hne
        simpa using lt_of_le_of_ne hm (Ne.symm hne)

/-- **C45**: the value-level `productSign` used everywhere else in the model is what the C++ code does to the bits of a
`double`, unless `y` is a NaN. -/
theorem C45_double_model (x y : BitVec 64) (hy : decode64 y ≠ .nan) :
    decode64 (productSign64 x y) = productSign (decode64 x) (decode64 y) := by
  obtain ⟨h1, h2⟩ := C45_double_bits x y
  have e : (productSign64 x y).extractLsb' 52 11 = x.extractLsb' 52 11 := by
    have := congrArg (fun b => b.extractLsb' 52 11) h2
    simpa [BitVec.extractLsb'_extractLsb'_of_le] using this
  have f : (productSign64 x y).extractLsb' 0 52 = x.extractLsb' 0 52 := by
    have := congrArg (fun b => b.extractLsb' 0 52) h2
    simpa [BitVec.extractLsb'_extractLsb'_of_le] using this
  unfold productSign
  rw [show Scalar.signbit (decode64 y) = y.msb from decodeFields_signbit _ _ _ _ _ _ hy]
  unfold decode64
  rw [h1, e, f]
  cases y.msb with
  | false => simp
  | true =>
    rw [Bool.xor_true, if_pos rfl]
    exact decodeFields_neg _ _ _ _ _ _

/-- **C45**: the same for `float`. -/
theorem C45_float_model (x y : BitVec 32) (hy : decode32 y ≠ .nan) :
    decode32 (productSign32 x y) = productSign (decode32 x) (decode32 y) := by
  obtain ⟨h1, h2⟩ := C45_float_bits x y
  have e : (productSign32 x y).extractLsb' 23 8 = x.extractLsb' 23 8 := by
    have := congrArg (fun b => b.extractLsb' 23 8) h2
    simpa [BitVec.extractLsb'_extractLsb'_of_le] using this
  have f : (productSign32 x y).extractLsb' 0 23 = x.extractLsb' 0 23 := by
    have := congrArg (fun b => b.extractLsb' 0 23) h2
    simpa [BitVec.extractLsb'_extractLsb'_of_le] using this
  unfold productSign
  rw [show Scalar.signbit (decode32 y) = y.msb from decodeFields_signbit _ _ _ _ _ _ hy]
  unfold decode32
  rw [h1, e, f]
  cases y.msb with
  | false => simp
  | true =>
    rw [Bool.xor_true, if_pos rfl]
    exact decodeFields_neg _ _ _ _ _ _

/-- `product_sign(1.5, -0.0) = -1.5`: the bits, and their values -/
example : productSign64 0x3FF8000000000000#64 0x8000000000000000#64 = 0xBFF8000000000000#64 ∧
    decode64 0x3FF8000000000000#64 = .fin (3 / 2) false ∧ decode64 0x8000000000000000#64 = dblNegZero ∧
    decode64 0xBFF8000000000000#64 = .fin (-3 / 2) true := by
  refine ⟨by decide, ?_, ?_, ?_⟩ <;> decide +kernel

end Blazert
