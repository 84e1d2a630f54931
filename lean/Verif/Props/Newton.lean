/- C61 and C62: the Newton search of the distance to an ellipse. -/
import Verif.Proofs.Newton
import Verif.Props.CylinderDist

set_option autoImplicit false

namespace Blazert
open Scalar

section
variable {F : Fmt ℝ} {xa xb xq yq xv : XF F} {a b x y v : ℝ}

/-- **C61** for the upper and the lower half: wherever the search stands strictly between the ends of the half axis, the stop criterion
is the derivative of the squared distance to the point the search stands at.  Exact arithmetic. -/
theorem C61_by_first_coordinate_partial (hF : F.Exact) (ia : xa.Is a) (ib : xb.Is b) (ix : xq.Is x) (iy : yq.Is y) (iv : xv.Is v)
    (ha : 0 < a) (hv : |v| < a) :
    (distanceDerivative .upperX xa xb xq yq xv).Is (deriv (NewtonCase.upperX.sqDist a b x y) v) ∧
    (distanceDerivative .lowerX xa xb xq yq xv).Is (deriv (NewtonCase.lowerX.sqDist a b x y) v) := by
  rw [NewtonCase.sqDist_eq, NewtonCase.sqDist_eq]
  exact crit_is hF ia ib ix iy iv ha hv

/-- **C61** is false for the right and the left half, for every point off the second axis and every position but the middle: the stop
criterion is the derivative of the squared distance to the point *of the opposite half*, which is a different number.
Exact arithmetic. -/
theorem C61_by_second_coordinate_false (hF : F.Exact) (ia : xa.Is a) (ib : xb.Is b) (ix : xq.Is x) (iy : yq.Is y) (iv : xv.Is v)
    (ha : 0 < a) (hb : 0 < b) (hv : |v| < b) (hv0 : v ≠ 0) (hx : x ≠ 0) {nc : NewtonCase} (hnc : nc = .upperY ∨ nc = .lowerY) :
    (distanceDerivative nc xa xb xq yq xv).Is (deriv (nc.opposite.sqDist a b x y) v) ∧
    ¬ (distanceDerivative nc xa xb xq yq xv).Is (deriv (nc.sqDist a b x y) v) := by
  have hp := Real.sqrt_pos.2 (sub_sq_pos hv)
  have hne : deriv (halfR 1 b a y x) v ≠ deriv (halfR (-1) b a y x) v := by
    rw [(halfR_deriv (by norm_num) hb hv).deriv, (halfR_deriv (by norm_num) hb hv).deriv]
    intro h
    have : a / b * x * (v / Real.sqrt (b ^ 2 - v ^ 2)) = 0 := by linarith
    have : a / b * x * (v / Real.sqrt (b ^ 2 - v ^ 2)) ≠ 0 :=
      mul_ne_zero (mul_ne_zero (div_pos ha hb).ne' hx) (div_ne_zero hv0 hp.ne')
    contradiction
  have h := crit_is hF ib ia iy ix iv hb hv
  rcases hnc with rfl | rfl
  · rw [NewtonCase.sqDist_eq, NewtonCase.sqDist_eq]
    exact ⟨h.2, fun h' => hne (h'.unique h.2)⟩
  · rw [NewtonCase.sqDist_eq, NewtonCase.sqDist_eq]
    exact ⟨h.1, fun h' => hne (h.1.unique h')⟩

/-- **C62**: in all four cases one iteration is the Newton step `v - R'(v)/R''(v)` for the squared distance `R` to the point the
search stands at, whenever the search stands strictly between the ends of the half axis and `R''(v)` is not zero.
Exact arithmetic. -/
theorem C62_newton_step (hF : F.Exact) (ia : xa.Is a) (ib : xb.Is b) (ix : xq.Is x) (iy : yq.Is y) (iv : xv.Is v)
    (ha : 0 < a) (hb : 0 < b) (nc : NewtonCase) (hv : |v| < nc.axis a b) (h2 : deriv (deriv (nc.sqDist a b x y)) v ≠ 0) :
    (singleNewton nc xa xb xq yq xv).Is (v - deriv (nc.sqDist a b x y) v / deriv (deriv (nc.sqDist a b x y)) v) := by
  rw [NewtonCase.sqDist_eq] at h2 ⊢
  cases nc with
  | upperX => exact (step_is hF ia ib ix iy iv ha hv).1 h2
  | lowerX => exact (step_is hF ia ib ix iy iv ha hv).2 h2
  | upperY => exact (step_is hF ib ia iy ix iv hb hv).1 h2
  | lowerY => exact (step_is hF ib ia iy ix iv hb hv).2 h2

end

/-- the ellipse with half axes 5 and 3, the point `(1, 2)` and the position 4 -/
example : (distanceDerivative .upperX (rl 5) (rl 3) (rl 1) (rl 2) (rl 4) : XF exactFmt).Is
    (deriv (NewtonCase.upperX.sqDist 5 3 1 2) 4) :=
  (C61_by_first_coordinate_partial exactFmt_exact (rl_is 5) (rl_is 3) (rl_is 1) (rl_is 2) (rl_is 4) (by norm_num) (by norm_num)).1

/-- the ellipse with half axes 3 and 5, the point `(2, 1)` and the position 4 -/
example : ¬ (distanceDerivative .upperY (rl 3) (rl 5) (rl 2) (rl 1) (rl 4) : XF exactFmt).Is
    (deriv (NewtonCase.upperY.sqDist 3 5 2 1) 4) :=
  (C61_by_second_coordinate_false exactFmt_exact (rl_is 3) (rl_is 5) (rl_is 2) (rl_is 1) (rl_is 4) (by norm_num) (by norm_num)
    (by norm_num) (by norm_num) (by norm_num) (.inl rfl)).2

/-- the second derivative there is not zero -/
example : (singleNewton .upperX (rl 5) (rl 3) (rl 1) (rl 2) (rl 4) : XF exactFmt).Is
    (4 - deriv (NewtonCase.upperX.sqDist 5 3 1 2) 4 / deriv (deriv (NewtonCase.upperX.sqDist 5 3 1 2)) 4) := by
  refine C62_newton_step exactFmt_exact (rl_is 5) (rl_is 3) (rl_is 1) (rl_is 2) (rl_is 4) (by norm_num) (by norm_num) .upperX
    (by norm_num [NewtonCase.axis]) ?_
  rw [NewtonCase.sqDist_eq]
  simp only
  rw [(halfR_deriv2 (by norm_num) (by norm_num) (by norm_num)).deriv]
  have : Real.sqrt (5 ^ 2 - 4 ^ 2) = 3 := by
    rw [show (5 : ℝ) ^ 2 - 4 ^ 2 = 3 ^ 2 by norm_num]
    exact Real.sqrt_sq (by norm_num)
  rw [this]
  norm_num

/-- **C61** is false, with consequences for the result: inside a cylinder with half axes 1 and 2 the search on the right half stops at
its first guess, since the derivative for the left half is zero there.  A distance above 1.24 is reported, although there is a
point of the surface at a distance below 0.45. -/
theorem C61_stops_at_once :
    newtonIteration newtonTol .upperY (dbl 1) (dbl 2) (dbl (1/2)) (dbl (2786659/4194304)) (ofRat (95/100) * dbl 2) =
      ofRat (95/100) * dbl 2 ∧
    cylDistance (fun _ _ => false) newtonTol ⟨dvec 0 0 0, dbl 1, dbl 2, dbl 20, ⟨dvec 1 0 0, dvec 0 1 0, dvec 0 0 1⟩, 0⟩
      (dvec (1/2) (2786659/4194304) 0) = dbl (5628560925522455/4503599627370496) ∧
    (124/100 : ℚ) < 5628560925522455/4503599627370496 ∧
    ∃ q, OnCyl ⟨0, 0, 0⟩ 1 2 20 idR q ∧ dist3 ⟨1/2, 2786659/4194304, 0⟩ q < 45/100 := by
  refine ⟨by decide +kernel, by decide +kernel, by norm_num, ⟨35/37, 24/37, 0⟩, ⟨35/37, 24/37, 0, .inl (by norm_num), by
    ext <;> simp [Mat3.mulVec, idR, Vec3.dot]⟩, ?_⟩
  have : (⟨1/2, 2786659/4194304, 0⟩ : Vec3 ℝ) - ⟨35/37, 24/37, 0⟩ = ⟨1/2 - 35/37, 2786659/4194304 - 24/37, 0⟩ := by
    ext <;> norm_num
  rw [dist3, this, len_mk, Real.sqrt_lt' (by norm_num)]
  norm_num

end Blazert
