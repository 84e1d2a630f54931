/- C44: the distance to a cylinder. -/
import Verif.Proofs.CylinderDist
import Verif.Samples
import Verif.SamplesReal

set_option autoImplicit false

namespace Blazert
open Scalar

variable {F : Fmt ℝ}

/-- a cylinder with half axes 2 and 3 and height 4 around the z axis -/
noncomputable def sampleCyl44 : Cylinder (XF exactFmt) := ⟨rvec 0 0 0, rl 2, rl 3, rl 4, idM, 0⟩

theorem sampleCyl44_point (p : Vec3 ℝ) : CylPoint sampleCyl44 (rvec p.x p.y p.z) ⟨0, 0, 0⟩ 2 3 4 idR p where
  center := rvec_is _ _ _
  isA := rl_is _
  isB := rl_is _
  height := rl_is _
  rot := idM_is
  a_pos := two_pos
  b_pos := by norm_num
  h_pos := by norm_num
  orth := idR_orthonormal
  point := rvec_is _ _ _

section
variable {cy : Cylinder (XF F)} {point : Vec3 (XF F)} {c : Vec3 ℝ} {a b h : ℝ} {R : Mat3 ℝ} {p : Vec3 ℝ}

/-- **C44**, points above the top or below the bottom (or on them).  If the point is `c + R (x,y,z)` with `(x,y)` inside or on the
ellipse and `|z| ≥ h/2`, the smallest distance from the point to a point of the surface is returned, whatever `isZero` says and
whatever the tolerance of the Newton search is.  Exact arithmetic. -/
theorem C44_over_cap_partial (hF : F.Exact) (heps : 0 < F.eps) (isZ : XF F → XF F → Bool) (tol : XF F)
    (H : CylPoint cy point c a b h R p) {x y z : ℝ} (hp : p = c + R.mulVec ⟨x, y, z⟩) (hxy : x ^ 2 / a ^ 2 + y ^ 2 / b ^ 2 ≤ 1)
    (hz : h / 2 ≤ |z|) :
    ∃ v, (cylDistance isZ tol cy point).Is v ∧ IsLeast {d | ∃ q, OnCyl c a b h R q ∧ d = dist3 p q} v := by
  have hq := ((H.orth.local_iff _ _ _).1 hp).symm
  exact ⟨_, cylDistance_over_cap hF heps isZ tol H hq hxy hz, least_over_cap H.orth H.h_pos.le hq hxy hz⟩

/-- a point over the top of the sample cylinder: the theorem gives the exact distance, and there is a point at distance 3 -/
example : ∃ v, (cylDistance (fun _ _ => false) (rl 0) sampleCyl44 (rvec 1 1 5)).Is v ∧ v ≤ 3 := by
  have hp : ∀ p : Vec3 ℝ, p = ⟨0, 0, 0⟩ + idR.mulVec p := fun p => by ext <;> simp [Mat3.mulVec, idR, Vec3.dot]
  obtain ⟨v, h1, h2⟩ := C44_over_cap_partial exactFmt_exact (by simp [exactFmt]) (fun _ _ => false) (rl 0)
    (sampleCyl44_point ⟨1, 1, 5⟩) (x := 1) (y := 1) (z := 5) (hp _) (by norm_num) (by norm_num)
  refine ⟨v, h1, h2.2 ⟨⟨1, 1, 2⟩, ⟨1, 1, 2, .inr ⟨by norm_num, .inl (by norm_num)⟩, hp _⟩, ?_⟩⟩
  have : (⟨1, 1, 5⟩ : Vec3 ℝ) - ⟨1, 1, 2⟩ = ⟨0, 0, 3⟩ := by ext <;> norm_num
  rw [dist3, this, len_z]; norm_num

/-- **C44**, points on the axis.  If `isZero` holds for the point's local x and y, which are zero, then the smallest distance from
the point to a point of the surface is returned. -/
theorem C44_axis_partial (hF : F.Exact) (heps : 0 < F.eps) (isZ : XF F → XF F → Bool) (tol : XF F)
    (H : CylPoint cy point c a b h R p) {z : ℝ} (hp : p = c + R.mulVec ⟨0, 0, z⟩)
    (hz : ∀ x y : XF F, x.Is 0 → y.Is 0 → isZ x y = true) :
    ∃ v, (cylDistance isZ tol cy point).Is v ∧ IsLeast {d | ∃ q, OnCyl c a b h R q ∧ d = dist3 p q} v := by
  have hq := ((H.orth.local_iff _ _ _).1 hp).symm
  by_cases hcap : h / 2 ≤ |z|
  · exact C44_over_cap_partial hF heps isZ tol H hp (by norm_num) hcap
  · have hc := abs_lt.1 (not_le.1 hcap)
    have iq := H.rot.trans.mulVec hF (H.point.sub hF H.center)
    rw [← hq] at iq
    exact ⟨_, cylDistance_axis hF isZ tol H hq (hz _ _ iq.1 iq.2.1) hc.1.le hc.2.le,
      least_on_axis H.orth H.a_pos H.b_pos hq rfl rfl hc.1.le hc.2.le⟩

/-- the center of the sample cylinder; the nearest points are at distance 2 -/
example : (∀ x y : XF exactFmt, x.Is 0 → y.Is 0 → (fun x y => eq x (nat 0) && eq y (nat 0)) x y = true) ∧
    (⟨0, 0, 0⟩ : Vec3 ℝ) = ⟨0, 0, 0⟩ + idR.mulVec ⟨0, 0, 0⟩ := by
  refine ⟨fun x y hx hy => ?_, by ext <;> simp [Mat3.mulVec, idR, Vec3.dot]⟩
  have i0 := XF.Is.zero exactFmt_exact
  simp only [Bool.and_eq_true]
  exact ⟨(hx.eq i0).2 rfl, (hy.eq i0).2 rfl⟩

/-- **C44**, everywhere else.  If the search ends with a number, this is the distance to *some* point of the surface: the result is
never smaller than the distance.  It may be larger (`C44_overestimate`) and it may be NaN (`C44_nan`).  Assumption: the point is
not so close to the lateral surface (extended) that it counts as being on it. -/
theorem C44_never_below_partial (hF : F.Exact) (heps : 0 < F.eps) (isZ : XF F → XF F → Bool) (tol : XF F)
    (H : CylPoint cy point c a b h R p) {x y z : ℝ} (hp : p = c + R.mulVec ⟨x, y, z⟩)
    (hz : ∀ x' y' : XF F, x'.Is x → y'.Is y → isZ x' y' = false)
    (hel : F.eps ≤ |x ^ 2 / a ^ 2 + y ^ 2 / b ^ 2 - 1|) {v : ℝ} (hv : (cylDistance isZ tol cy point).Is v) :
    ∃ q, OnCyl c a b h R q ∧ v = dist3 p q := by
  have hq := ((H.orth.local_iff _ _ _).1 hp).symm
  have iq := H.rot.trans.mulVec hF (H.point.sub hF H.center)
  rw [← hq] at iq
  exact cylDistance_attained hF heps isZ tol H hq (hz _ _ iq.1 iq.2.1) hel hv

/-- a point over the top of the sample cylinder, whose distance is a number -/
example : ∃ v, (cylDistance (fun _ _ => false) (rl 0) sampleCyl44 (rvec 1 1 5)).Is v ∧
    ∃ q, OnCyl ⟨0, 0, 0⟩ 2 3 4 idR q ∧ v = dist3 ⟨1, 1, 5⟩ q := by
  have hp : ∀ p : Vec3 ℝ, p = ⟨0, 0, 0⟩ + idR.mulVec p := fun p => by ext <;> simp [Mat3.mulVec, idR, Vec3.dot]
  obtain ⟨v, h1, _⟩ := C44_over_cap_partial exactFmt_exact (by simp [exactFmt]) (fun _ _ => false) (rl 0)
    (sampleCyl44_point ⟨1, 1, 5⟩) (x := 1) (y := 1) (z := 5) (hp _) (by norm_num) (by norm_num)
  exact ⟨v, h1, C44_never_below_partial exactFmt_exact (by simp [exactFmt]) _ _ (sampleCyl44_point ⟨1, 1, 5⟩) (hp _)
    (fun _ _ _ _ => rfl) (by rw [show ((1 : ℝ) ^ 2 / 2 ^ 2 + 1 ^ 2 / 3 ^ 2 - 1) = -(23 / 36) by norm_num, abs_neg]; norm_num [exactFmt]) h1⟩

/-- **C44**, the sign: what is returned is never smaller than zero (it may be NaN).  Exact arithmetic, all points. -/
theorem C44_not_negative_partial (hF : F.Exact) (heps : 0 < F.eps) (isZ : XF F → XF F → Bool) (tol : XF F)
    (H : CylPoint cy point c a b h R p) : lt (cylDistance isZ tol cy point) (nat 0) = false :=
  cylDistance_not_neg hF heps isZ tol H

/-- for any point and the sample cylinder -/
example (p : Vec3 ℝ) : lt (cylDistance (fun _ _ => false) (rl (1/10)) sampleCyl44 (rvec p.x p.y p.z)) (nat 0) = false :=
  C44_not_negative_partial exactFmt_exact (by simp [exactFmt]) _ _ (sampleCyl44_point p)

end

/-- **C44**, termination: the loop of the Newton search, written with a counter of the floating point type, ends from every start
value and for all arguments, be they numbers or not; it does not depend on the rounding, except that the counter has to be able to
count to 100.  The result is the one used in `cylDistance`. -/
theorem C44_terminates {T : Type} [Scalar T] (hc : ∀ k < 100, (nat k + nat 1 : T) = nat (k + 1))
    (hl : ∀ k ≤ 100, lt (nat k : T) (nat 100) = decide (k < 100)) (tol : T) (nc : NewtonCase) (a b xq yq guess : T) :
    ∃ r, NewtonRuns tol nc a b xq yq guess (nat 0) r ∧ (∀ r', NewtonRuns tol nc a b xq yq guess (nat 0) r' → r' = r) ∧
      newtonIteration tol nc a b xq yq guess = r := by
  have det : ∀ {v c r : T}, NewtonRuns tol nc a b xq yq v c r → ∀ {r'}, NewtonRuns tol nc a b xq yq v c r' → r' = r := by
    intro v c r h
    induction h with
    | stop h =>
      intro r' h'
      cases h' with
      | stop _ => rfl
      | step k _ => rw [h] at k; cases k
    | step h _ ih =>
      intro r' h'
      cases h' with
      | stop k => rw [h] at k; cases k
      | step _ k => exact ih k
  have run : ∀ n k, k + n = 100 → ∀ v : T, NewtonRuns tol nc a b xq yq v (nat k) (newtonLoop tol nc a b xq yq n v) := by
    intro n
    induction n with
    | zero =>
      intro k hk v
      refine .stop ?_
      rw [hl k (by omega), decide_eq_false (by omega), Bool.and_false]
    | succ n ih =>
      intro k hk v
      have hcnt : lt (nat k : T) (nat 100) = true := by rw [hl k (by omega)]; exact decide_eq_true (by omega)
      unfold newtonLoop
      split
      · rename_i hg
        refine .step (by rw [hg, hcnt]; rfl) ?_
        rw [hc k (by omega)]
        exact ih (k + 1) (by omega) _
      · rename_i hg
        exact .stop (by rw [Bool.eq_false_iff.2 hg]; rfl)
  exact ⟨_, run 100 0 rfl guess, fun r' h' => det (run 100 0 rfl guess) h', rfl⟩

/-- binary64 -/
example (tol : Double) (nc : NewtonCase) (a b xq yq guess : Double) : ∃ r, NewtonRuns tol nc a b xq yq guess (nat 0) r :=
  have ⟨r, h, _⟩ := C44_terminates (by decide +kernel) (by decide +kernel) tol nc a b xq yq guess
  ⟨r, h⟩
/-- binary32 -/
example (tol : Single) (nc : NewtonCase) (a b xq yq guess : Single) : ∃ r, NewtonRuns tol nc a b xq yq guess (nat 0) r :=
  have ⟨r, h, _⟩ := C44_terminates (by decide +kernel) (by decide +kernel) tol nc a b xq yq guess
  ⟨r, h⟩

/-- `static_cast<double>(1e-7)` (`blazert/primitives/cylinder.h:594`) -/
def newtonTol : Double := ofRat (1 / 10 ^ 7)

/-- **C44** is false: inside a flat cylinder (half axes 4 and 1, height 20), at `(1/2,0,0)`, the distance reported is 3.5, although
there is a point of the surface, `(0,1,0)`, at a distance below 1.2. -/
theorem C44_overestimate :
    cylDistance (fun _ _ => false) newtonTol ⟨dvec 0 0 0, dbl 4, dbl 1, dbl 20, ⟨dvec 1 0 0, dvec 0 1 0, dvec 0 0 1⟩, 0⟩
      (dvec (1/2) 0 0) = dbl (7/2) ∧
    ∃ q, OnCyl ⟨0, 0, 0⟩ 4 1 20 idR q ∧ dist3 ⟨1/2, 0, 0⟩ q < 12/10 := by
  refine ⟨by decide +kernel, ⟨0, 1, 0⟩, ⟨0, 1, 0, .inl (by norm_num), by ext <;> simp [Mat3.mulVec, idR, Vec3.dot]⟩, ?_⟩
  have : (⟨1/2, 0, 0⟩ : Vec3 ℝ) - ⟨0, 1, 0⟩ = ⟨1/2, -1, 0⟩ := by ext <;> norm_num
  rw [dist3, this, len_mk, Real.sqrt_lt' (by norm_num)]
  norm_num

/-- **C44** is false: inside a cylinder with half axes 1 and 3, at `(0,1/2,0)`, the result is NaN. -/
theorem C44_nan :
    cylDistance (fun _ _ => false) newtonTol ⟨dvec 0 0 0, dbl 1, dbl 3, dbl 20, ⟨dvec 1 0 0, dvec 0 1 0, dvec 0 0 1⟩, 0⟩
      (dvec 0 (1/2) 0) = XF.nan := by
  decide +kernel

/-- **C44** is false for very large cylinders: for half axes of `2^600` the squares overflow, and -1 is returned. -/
theorem C44_minus_one :
    cylDistance (fun _ _ => false) newtonTol
      ⟨dvec 0 0 0, dbl (2 ^ 600), dbl (2 ^ 600), dbl 2, ⟨dvec 1 0 0, dvec 0 1 0, dvec 0 0 1⟩, 0⟩
      (dvec (2 ^ 599) 0 0) = dbl (-1) := by
  decide +kernel

end Blazert
