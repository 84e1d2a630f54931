/- Lemmas about the derivative and the Newton step of the distance to an ellipse. -/
import Verif.Proofs.CylinderDist
import Verif.Spec.Newton
import Mathlib.Analysis.Calculus.Deriv.Add
import Mathlib.Analysis.Calculus.Deriv.Pow
import Mathlib.Analysis.Calculus.Deriv.Inv

set_option autoImplicit false

namespace Blazert
open Scalar

/-- the squared distance to one half, by the coordinate along the half axis `a` -/
noncomputable def halfR (σ a b x y v : ℝ) : ℝ := (x - v) ^ 2 + (y - σ * (b / a * Real.sqrt (a ^ 2 - v ^ 2))) ^ 2

theorem sub_sq_pos {a v : ℝ} (hv : |v| < a) : 0 < a ^ 2 - v ^ 2 := by
  have h : v ^ 2 < a ^ 2 := sq_lt_sq' (by linarith [(abs_lt.1 hv).1]) (abs_lt.1 hv).2
  linarith

theorem sqrt_hasDeriv {a v : ℝ} (hv : |v| < a) :
    HasDerivAt (fun w : ℝ => Real.sqrt (a ^ 2 - w ^ 2)) (-v / Real.sqrt (a ^ 2 - v ^ 2)) v := by
  have h1 : HasDerivAt (fun w : ℝ => a ^ 2 - w ^ 2) (-(2 * v)) v := by
    simpa using (hasDerivAt_pow 2 v).const_sub (a ^ 2)
  have h2 := h1.sqrt (sub_sq_pos hv).ne'
  convert h2 using 1
  have := Real.sqrt_pos.2 (sub_sq_pos hv)
  field_simp

/-- the first derivative -/
theorem halfR_deriv {σ a b x y v : ℝ} (hσ : σ * σ = 1) (ha : 0 < a) (hv : |v| < a) :
    HasDerivAt (halfR σ a b x y)
      (2 * v - 2 * x - 2 * (b / a) ^ 2 * v + 2 * σ * (b / a) * y * (v / Real.sqrt (a ^ 2 - v ^ 2))) v := by
  have h1 : HasDerivAt (fun w : ℝ => (x - w) ^ 2) (-(2 * (x - v))) v := by
    refine (((hasDerivAt_id v).const_sub x).pow 2).congr_deriv ?_
    simp
  have hs := ((((sqrt_hasDeriv hv).const_mul (b / a)).const_mul σ).const_sub y).pow 2
  have h := h1.add hs
  refine h.congr_deriv ?_
  have hp := Real.sqrt_pos.2 (sub_sq_pos hv)
  have hsq := Real.sq_sqrt (sub_sq_pos hv).le
  generalize Real.sqrt (a ^ 2 - v ^ 2) = s at *
  simp only [Nat.cast_ofNat, Nat.add_one_sub_one, pow_one]
  field_simp
  linear_combination (-(b ^ 2 * v * s)) * hσ

/-- the second derivative -/
theorem halfR_deriv2 {σ a b x y v : ℝ} (hσ : σ * σ = 1) (ha : 0 < a) (hv : |v| < a) :
    HasDerivAt (deriv (halfR σ a b x y))
      (2 - 2 * (b / a) ^ 2 + 2 * σ * (b / a) * y * (a ^ 2 / Real.sqrt (a ^ 2 - v ^ 2) ^ 3)) v := by
  have hev : deriv (halfR σ a b x y) =ᶠ[nhds v] fun w =>
      2 * w - 2 * x - 2 * (b / a) ^ 2 * w + 2 * σ * (b / a) * y * (w / Real.sqrt (a ^ 2 - w ^ 2)) := by
    have : {w : ℝ | |w| < a} ∈ nhds v := (isOpen_lt continuous_abs continuous_const).mem_nhds hv
    filter_upwards [this] with w hw
    exact (halfR_deriv hσ ha hw).deriv
  refine HasDerivAt.congr_of_eventuallyEq ?_ hev
  have hp := Real.sqrt_pos.2 (sub_sq_pos hv)
  have h1 : HasDerivAt (fun w : ℝ => 2 * w - 2 * x - 2 * (b / a) ^ 2 * w) (2 - 2 * (b / a) ^ 2) v := by
    have := (((hasDerivAt_id v).const_mul 2).sub_const (2 * x)).sub ((hasDerivAt_id v).const_mul (2 * (b / a) ^ 2))
    refine this.congr_deriv ?_
    simp
  have h2 := ((hasDerivAt_id v).div (sqrt_hasDeriv hv) hp.ne').const_mul (2 * σ * (b / a) * y)
  refine (h1.add h2).congr_deriv ?_
  have hsq := Real.sq_sqrt (sub_sq_pos hv).le
  simp only [id]
  generalize Real.sqrt (a ^ 2 - v ^ 2) = s at *
  have e : (1 * s - v * (-v / s)) / s ^ 2 = a ^ 2 / s ^ 3 := by
    field_simp
    linear_combination hsq
  rw [e]

theorem NewtonCase.sqDist_eq (nc : NewtonCase) (a b x y : ℝ) : nc.sqDist a b x y = match nc with
    | .upperX => halfR 1 a b x y
    | .lowerX => halfR (-1) a b x y
    | .upperY => halfR 1 b a y x
    | .lowerY => halfR (-1) b a y x := by
  funext v
  cases nc <;> simp only [NewtonCase.sqDist, NewtonCase.point, halfR] <;> ring

variable {F : Fmt ℝ}

theorem newtonSqrt_is (hF : F.Exact) {xa xv : XF F} {a v : ℝ} (ia : xa.Is a) (iv : xv.Is v) (hv : |v| < a) :
    (newtonSqrt xa xv).Is (Real.sqrt (a ^ 2 - v ^ 2)) := by
  unfold newtonSqrt
  have hp := sub_sq_pos hv
  rw [if_neg]
  · have := ((ia.mul hF ia).sub hF (iv.mul hF iv)).sqrt hF (by nlinarith)
    rwa [← pow_two, ← pow_two] at this
  · rw [(iv.mul hF iv).gt (ia.mul hF ia)]
    nlinarith

/-- the stop criterion, in the form of the first derivative -/
theorem crit_is (hF : F.Exact) {xa xb xx xy xv : XF F} {a b x y v : ℝ} (ia : xa.Is a) (ib : xb.Is b) (ix : xx.Is x) (iy : xy.Is y)
    (iv : xv.Is v) (ha : 0 < a) (hv : |v| < a) :
    ((-nat 2) * (xx - xv) - nat 2 * xb * xv * (xb / xa * newtonSqrt xa xv - xy) / (xa * newtonSqrt xa xv)).Is
      (deriv (halfR 1 a b x y) v) ∧
    ((-nat 2) * (xx - xv) - nat 2 * xb * xv * (xb / xa * newtonSqrt xa xv + xy) / (xa * newtonSqrt xa xv)).Is
      (deriv (halfR (-1) a b x y) v) := by
  have is := newtonSqrt_is hF ia iv hv
  have hp := Real.sqrt_pos.2 (sub_sq_pos hv)
  have i2 : (nat 2 : XF F).Is 2 := two_is hF
  rw [(halfR_deriv (by norm_num) ha hv).deriv, (halfR_deriv (by norm_num) ha hv).deriv]
  have hne : a * Real.sqrt (a ^ 2 - v ^ 2) ≠ 0 := (mul_pos ha hp).ne'
  constructor
  · have := (i2.neg.mul hF (ix.sub hF iv)).sub hF
      ((((i2.mul hF ib).mul hF iv).mul hF (((ib.div hF ia ha.ne').mul hF is).sub hF iy)).div hF (ia.mul hF is) hne)
    convert this using 1
    generalize Real.sqrt (a ^ 2 - v ^ 2) = s at *
    field_simp
    ring
  · have := (i2.neg.mul hF (ix.sub hF iv)).sub hF
      ((((i2.mul hF ib).mul hF iv).mul hF (((ib.div hF ia ha.ne').mul hF is).add hF iy)).div hF (ia.mul hF is) hne)
    convert this using 1
    generalize Real.sqrt (a ^ 2 - v ^ 2) = s at *
    field_simp
    ring

/-- the Newton step, as a fraction -/
theorem newton_real {σ a b x y v : ℝ} (hσ : σ * σ = 1) (ha : 0 < a) (hv : |v| < a) (h2 : deriv (deriv (halfR σ a b x y)) v ≠ 0) :
    (a - b ^ 2 / a) * Real.sqrt (a ^ 2 - v ^ 2) ^ 3 + σ * a ^ 2 * b * y ≠ 0 ∧
    v - deriv (halfR σ a b x y) v / deriv (deriv (halfR σ a b x y)) v =
      (a * x * Real.sqrt (a ^ 2 - v ^ 2) ^ 3 + σ * b * y * v ^ 3) /
        ((a - b ^ 2 / a) * Real.sqrt (a ^ 2 - v ^ 2) ^ 3 + σ * a ^ 2 * b * y) := by
  have hp := Real.sqrt_pos.2 (sub_sq_pos hv)
  have hsq := Real.sq_sqrt (sub_sq_pos hv).le
  rw [(halfR_deriv2 hσ ha hv).deriv] at h2 ⊢
  rw [(halfR_deriv hσ ha hv).deriv]
  generalize Real.sqrt (a ^ 2 - v ^ 2) = s at *
  have eB : (a - b ^ 2 / a) * s ^ 3 + σ * a ^ 2 * b * y =
      (a * s ^ 3 / 2) * (2 - 2 * (b / a) ^ 2 + 2 * σ * (b / a) * y * (a ^ 2 / s ^ 3)) := by
    field_simp
  have hB : (a - b ^ 2 / a) * s ^ 3 + σ * a ^ 2 * b * y ≠ 0 := by
    rw [eB]
    exact mul_ne_zero (by positivity) h2
  refine ⟨hB, ?_⟩
  rw [eq_div_iff hB, sub_mul]
  have e2 : (2 * v - 2 * x - 2 * (b / a) ^ 2 * v + 2 * σ * (b / a) * y * (v / s)) /
      (2 - 2 * (b / a) ^ 2 + 2 * σ * (b / a) * y * (a ^ 2 / s ^ 3)) * ((a - b ^ 2 / a) * s ^ 3 + σ * a ^ 2 * b * y) =
      (2 * v - 2 * x - 2 * (b / a) ^ 2 * v + 2 * σ * (b / a) * y * (v / s)) * (a * s ^ 3 / 2) := by
    rw [eB]
    generalize 2 - 2 * (b / a) ^ 2 + 2 * σ * (b / a) * y * (a ^ 2 / s ^ 3) = D at *
    field_simp
  rw [e2]
  field_simp
  linear_combination (-(σ * a * b * y * v)) * hsq

/-- the Newton step on both halves -/
theorem step_is (hF : F.Exact) {xa xb xx xy xv : XF F} {a b x y v : ℝ} (ia : xa.Is a) (ib : xb.Is b) (ix : xx.Is x) (iy : xy.Is y)
    (iv : xv.Is v) (ha : 0 < a) (hv : |v| < a) :
    (deriv (deriv (halfR 1 a b x y)) v ≠ 0 →
      (((xa * xa * xa * xx - xa * xv * xv * xx) * newtonSqrt xa xv + xb * xv * xv * xv * xy)
        / ((xa * xa * xa - xa * xb * xb - xa * xv * xv + xb * xb * xv * xv / xa) * newtonSqrt xa xv + xa * xa * xb * xy)).Is
        (v - deriv (halfR 1 a b x y) v / deriv (deriv (halfR 1 a b x y)) v)) ∧
    (deriv (deriv (halfR (-1) a b x y)) v ≠ 0 →
      (((-xa * xa * xa * xx + xa * xv * xv * xx) * newtonSqrt xa xv + xb * xv * xv * xv * xy)
        / ((-xa * xa * xa + xa * xb * xb + xa * xv * xv - xb * xb * xv * xv / xa) * newtonSqrt xa xv + xa * xa * xb * xy)).Is
        (v - deriv (halfR (-1) a b x y) v / deriv (deriv (halfR (-1) a b x y)) v)) := by
  have is := newtonSqrt_is hF ia iv hv
  have hsq := Real.sq_sqrt (sub_sq_pos hv).le
  constructor
  · intro h2
    obtain ⟨hB, e⟩ := newton_real (by norm_num) ha hv h2
    rw [e]
    have A := ((((((ia.mul hF ia).mul hF ia).mul hF ix).sub hF (((ia.mul hF iv).mul hF iv).mul hF ix)).mul hF is).add hF
      ((((ib.mul hF iv).mul hF iv).mul hF iv).mul hF iy))
    have B := ((((((ia.mul hF ia).mul hF ia).sub hF ((ia.mul hF ib).mul hF ib)).sub hF ((ia.mul hF iv).mul hF iv)).add hF
      ((((ib.mul hF ib).mul hF iv).mul hF iv).div hF ia ha.ne')).mul hF is).add hF (((ia.mul hF ia).mul hF ib).mul hF iy)
    generalize Real.sqrt (a ^ 2 - v ^ 2) = s at *
    have eA : (a * a * a * x - a * v * v * x) * s + b * v * v * v * y = a * x * s ^ 3 + 1 * b * y * v ^ 3 := by
      linear_combination (-(a * x * s)) * hsq
    have eB : (a * a * a - a * b * b - a * v * v + b * b * v * v / a) * s + a * a * b * y =
        (a - b ^ 2 / a) * s ^ 3 + 1 * a ^ 2 * b * y := by
      field_simp
      linear_combination (-(a ^ 2 - b ^ 2) * s) * hsq
    rw [eA] at A
    rw [eB] at B
    exact A.div hF B hB
  · intro h2
    obtain ⟨hB, e⟩ := newton_real (by norm_num) ha hv h2
    rw [e, ← neg_div_neg_eq]
    have A := ((((((ia.neg.mul hF ia).mul hF ia).mul hF ix).add hF (((ia.mul hF iv).mul hF iv).mul hF ix)).mul hF is).add hF
      ((((ib.mul hF iv).mul hF iv).mul hF iv).mul hF iy))
    have B := ((((((ia.neg.mul hF ia).mul hF ia).add hF ((ia.mul hF ib).mul hF ib)).add hF ((ia.mul hF iv).mul hF iv)).sub hF
      ((((ib.mul hF ib).mul hF iv).mul hF iv).div hF ia ha.ne')).mul hF is).add hF (((ia.mul hF ia).mul hF ib).mul hF iy)
    generalize Real.sqrt (a ^ 2 - v ^ 2) = s at *
    have eA : (-a * a * a * x + a * v * v * x) * s + b * v * v * v * y = -(a * x * s ^ 3 + -1 * b * y * v ^ 3) := by
      linear_combination (a * x * s) * hsq
    have eB : (-a * a * a + a * b * b + a * v * v - b * b * v * v / a) * s + a * a * b * y =
        -((a - b ^ 2 / a) * s ^ 3 + -1 * a ^ 2 * b * y) := by
      field_simp
      linear_combination ((a ^ 2 - b ^ 2) * s) * hsq
    rw [eA] at A
    rw [eB] at B
    exact A.div hF B (neg_ne_zero.2 hB)

end Blazert
