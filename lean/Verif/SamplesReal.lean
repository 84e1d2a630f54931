/- Concrete inputs in exact real arithmetic, for the examples beside the theorems. -/
import Verif.Spec.Geometry
import Mathlib.Tactic.NormNum
import Mathlib.Tactic.Ring

set_option autoImplicit false

namespace Blazert

/-- exact real arithmetic with the constants of `double` -/
noncomputable def exactFmt : Fmt ℝ where
  sqrt := Real.sqrt
  post := some
  maxVal := (2 - (2 : ℝ) ^ (-52 : ℤ)) * 2 ^ (1023 : ℤ)
  eps := 2 ^ (-52 : ℤ)
  tiny := 2 ^ (-1022 : ℤ)

theorem exactFmt_exact : exactFmt.Exact where
  post _ := rfl
  sqrt _ _ := rfl
  eps := by simp only [exactFmt]; positivity
  maxVal := by
    simp only [exactFmt]
    have : ((2 : ℝ) ^ (-52 : ℤ)) ≤ 1 := by rw [zpow_neg]; norm_num
    exact mul_pos (by linarith) (by positivity)
  tiny := by simp only [exactFmt]; positivity

/-- a real number as a value of the format (zero becomes `+0`) -/
def rl {K : Type} {F : Fmt K} (v : K) : XF F := .fin v false
/-- a vector of real numbers as values of the format -/
def rvec {K : Type} {F : Fmt K} (x y z : K) : Vec3 (XF F) := ⟨rl x, rl y, rl z⟩

theorem rl_is {K : Type} {F : Fmt K} (v : K) : (rl v : XF F).Is v := ⟨_, rfl⟩
theorem rvec_is {K : Type} {F : Fmt K} (x y z : K) : IsV (rvec x y z : Vec3 (XF F)) ⟨x, y, z⟩ := ⟨rl_is x, rl_is y, rl_is z⟩

theorem rvec_not_negZero {K : Type} {F : Fmt K} [Zero K] (x y z : K) (i : Fin 3) :
    (rvec x y z : Vec3 (XF F)).get i ≠ .fin 0 true := by
  match i with
  | 0 => exact fun h => by injection h with _ h; exact absurd h (by decide)
  | 1 => exact fun h => by injection h with _ h; exact absurd h (by decide)
  | 2 => exact fun h => by injection h with _ h; exact absurd h (by decide)

/-- the identity matrix, in the format and over the reals -/
def idM {K : Type} {F : Fmt K} [Zero K] [One K] : Mat3 (XF F) := ⟨rvec 1 0 0, rvec 0 1 0, rvec 0 0 1⟩
/-- the identity matrix -/
def idR {K : Type} [Zero K] [One K] : Mat3 K := ⟨⟨1, 0, 0⟩, ⟨0, 1, 0⟩, ⟨0, 0, 1⟩⟩
theorem idM_is : IsM (idM : Mat3 (XF exactFmt)) idR := ⟨rvec_is _ _ _, rvec_is _ _ _, rvec_is _ _ _⟩
theorem idR_orthonormal : Orthonormal idR := by
  intro v w; simp only [Mat3.mulVec, idR, Vec3.dot]; ring

end Blazert
