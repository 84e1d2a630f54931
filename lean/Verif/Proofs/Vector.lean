/- Facts about vectors and lengths in real space. -/
import Verif.Proofs.Exact
import Mathlib.Tactic.LinearCombination

set_option autoImplicit false

namespace Blazert

theorem dist3_eq_iff {p q : Vec3 ℝ} {r : ℝ} (hr : 0 ≤ r) : dist3 p q = r ↔ sq (p - q) = r * r := by
  unfold dist3 len
  constructor
  · rintro rfl; exact (Real.mul_self_sqrt (sq_nonneg' _)).symm
  · intro h; rw [h, Real.sqrt_mul_self hr]

theorem dist3_comm (p q : Vec3 ℝ) : dist3 p q = dist3 q p := by
  unfold dist3 len sq Vec3.dot
  simp only [Vec3.sub_x, Vec3.sub_y, Vec3.sub_z]
  congr 1; ring

theorem sq_smul (c : ℝ) (v : Vec3 ℝ) : sq (Vec3.smul c v) = c * c * sq v := by
  unfold sq Vec3.dot
  simp only [Vec3.smul_x, Vec3.smul_y, Vec3.smul_z]; ring

theorem len_smul (c : ℝ) (v : Vec3 ℝ) : len (Vec3.smul c v) = |c| * len v := by
  unfold len
  rw [sq_smul, Real.sqrt_mul (mul_self_nonneg c), Real.sqrt_mul_self_eq_abs]

theorem len_unit {d : Vec3 ℝ} (h : sq d = 1) : len d = 1 := by unfold len; rw [h, Real.sqrt_one]

theorem len_smul_unit {d : Vec3 ℝ} (h : sq d = 1) {t : ℝ} (ht : 0 ≤ t) : len (Vec3.smul t d) = t := by
  rw [len_smul, len_unit h, mul_one, abs_of_nonneg ht]

theorem sq_divs_len {v : Vec3 ℝ} (h : v ≠ ⟨0, 0, 0⟩) : sq (Vec3.divs v (len v)) = 1 := by
  have h1 := len_sq v
  have h2 := (len_pos h).ne'
  unfold sq Vec3.dot at *
  simp only [Vec3.divs_x, Vec3.divs_y, Vec3.divs_z]
  field_simp
  linarith

theorem len_divs_len {v : Vec3 ℝ} (h : v ≠ ⟨0, 0, 0⟩) : len (Vec3.divs v (len v)) = 1 := len_unit (sq_divs_len h)

/-- distance travelled along a ray with unit direction -/
theorem dist3_along {o d : Vec3 ℝ} (h : sq d = 1) {t : ℝ} (ht : 0 ≤ t) : dist3 (along o d t) o = t := by
  have : along o d t - o = Vec3.smul t d := by
    unfold along; ext <;> simp
  rw [dist3, this, len_smul_unit h ht]

theorem Vec3.sub_ne_zero {v w : Vec3 ℝ} : v - w ≠ ⟨0, 0, 0⟩ ↔ v ≠ w := by
  refine not_congr ⟨fun h => ?_, ?_⟩
  · have h1 := congrArg Vec3.x h; have h2 := congrArg Vec3.y h; have h3 := congrArg Vec3.z h
    simp only [Vec3.sub_x, Vec3.sub_y, Vec3.sub_z] at h1 h2 h3
    ext <;> linarith
  · rintro rfl; ext <;> simp

theorem dot_sq_le (v w : Vec3 ℝ) : Vec3.dot v w * Vec3.dot v w ≤ sq v * sq w := by
  unfold sq Vec3.dot
  nlinarith [mul_self_nonneg (v.x * w.y - v.y * w.x), mul_self_nonneg (v.x * w.z - v.z * w.x),
    mul_self_nonneg (v.y * w.z - v.z * w.y)]

/-- Cauchy-Schwarz -/
theorem dot_le_len (v w : Vec3 ℝ) : Vec3.dot v w ≤ len v * len w := by
  refine le_of_abs_le (abs_le_of_sq_le_sq ?_ (mul_nonneg (len_nonneg v) (len_nonneg w)))
  rw [pow_two, pow_two]
  calc _ ≤ sq v * sq w := dot_sq_le v w
    _ = _ := by rw [← len_sq v, ← len_sq w]; ring

/-- triangle inequality -/
theorem len_add_le (v w : Vec3 ℝ) : len (v + w) ≤ len v + len w := by
  refine le_of_sq_le_sq ?_ (add_nonneg (len_nonneg v) (len_nonneg w))
  have h := dot_le_len v w
  have h1 := len_sq (v + w)
  have h2 := len_sq v
  have h3 := len_sq w
  have h4 : sq (v + w) = sq v + 2 * Vec3.dot v w + sq w := by
    unfold sq Vec3.dot; simp only [Vec3.add_x, Vec3.add_y, Vec3.add_z]; ring
  nlinarith

theorem dist3_triangle (p q r : Vec3 ℝ) : dist3 p r ≤ dist3 p q + dist3 q r := by
  have : p - r = (p - q) + (q - r) := by ext <;> simp
  unfold dist3
  rw [this]
  exact len_add_le _ _

theorem abs_get_le_len (v : Vec3 ℝ) (i : Fin 3) : |v.get i| ≤ len v := by
  refine abs_le_of_sq_le_sq ?_ (len_nonneg v)
  rw [pow_two, pow_two, len_sq]
  unfold sq Vec3.dot
  match i with
  | 0 => simp only [Vec3.get_zero]; nlinarith [mul_self_nonneg v.y, mul_self_nonneg v.z]
  | 1 => simp only [Vec3.get_one]; nlinarith [mul_self_nonneg v.x, mul_self_nonneg v.z]
  | 2 => simp only [Vec3.get_two]; nlinarith [mul_self_nonneg v.y, mul_self_nonneg v.x]

theorem inBox_iff {mn mx p : Vec3 ℝ} : InBox mn mx p ↔ ∀ i, mn.get i ≤ p.get i ∧ p.get i ≤ mx.get i := by
  constructor
  · rintro ⟨h0, h1, h2⟩ i
    match i with
    | 0 => exact h0
    | 1 => exact h1
    | 2 => exact h2
  · intro h; exact ⟨h 0, h 1, h 2⟩

end Blazert
