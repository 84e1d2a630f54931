/- The distance to circular cylinders. -/
import Verif.Proofs.NewtonCircle

set_option autoImplicit false

namespace Blazert
open Scalar

/-! ### the true distance -/

section
variable {c p : Vec3 ℝ} {a h : ℝ} {R : Mat3 ℝ}

/-- distances are those in local coordinates -/
theorem cylDists_iff (hR : Orthonormal R) (ha : 0 < a) {q : Vec3 ℝ} (hq : q = R.trans.mulVec (p - c)) (d : ℝ) :
    d ∈ CylDists c a a h R p ↔ ∃ X Y Z, ((X ^ 2 + Y ^ 2 = a ^ 2 ∧ -(h / 2) ≤ Z ∧ Z ≤ h / 2) ∨
      (X ^ 2 + Y ^ 2 ≤ a ^ 2 ∧ (Z = h / 2 ∨ Z = -(h / 2)))) ∧ d = Real.sqrt ((q.x - X) ^ 2 + (q.y - Y) ^ 2 + (q.z - Z) ^ 2) := by
  have ha2 : 0 < a ^ 2 := by positivity
  have e : ∀ X Y : ℝ, X ^ 2 / a ^ 2 + Y ^ 2 / a ^ 2 = (X ^ 2 + Y ^ 2) / a ^ 2 := fun X Y => by ring
  have ed : ∀ X Y Z, dist3 p (c + R.mulVec ⟨X, Y, Z⟩) = Real.sqrt ((q.x - X) ^ 2 + (q.y - Y) ^ 2 + (q.z - Z) ^ 2) := by
    intro X Y Z
    rw [dist3_local hR, ← hq, pow_two, pow_two, pow_two]
    rfl
  constructor
  · rintro ⟨_, ⟨X, Y, Z, hs, rfl⟩, rfl⟩
    refine ⟨X, Y, Z, ?_, ed _ _ _⟩
    rw [e, div_eq_one_iff_eq ha2.ne', div_le_one ha2] at hs
    exact hs
  · rintro ⟨X, Y, Z, hs, rfl⟩
    refine ⟨_, ⟨X, Y, Z, ?_, rfl⟩, (ed _ _ _).symm⟩
    rw [e, div_eq_one_iff_eq ha2.ne', div_le_one ha2]
    exact hs

/-- the distance in the plane is at least the difference of the distances from the axis -/
theorem plane_dist {x y X Y : ℝ} : (Real.sqrt (x ^ 2 + y ^ 2) - Real.sqrt (X ^ 2 + Y ^ 2)) ^ 2 ≤ (x - X) ^ 2 + (y - Y) ^ 2 := by
  have h1 : Real.sqrt (x ^ 2 + y ^ 2) ^ 2 = x ^ 2 + y ^ 2 := Real.sq_sqrt (by positivity)
  have h2 : Real.sqrt (X ^ 2 + Y ^ 2) ^ 2 = X ^ 2 + Y ^ 2 := Real.sq_sqrt (by positivity)
  have h3 : x * X + y * Y ≤ Real.sqrt (x ^ 2 + y ^ 2) * Real.sqrt (X ^ 2 + Y ^ 2) := by
    rw [← Real.sqrt_mul (by positivity)]
    refine Real.le_sqrt_of_sq_le ?_
    nlinarith [pow_two_nonneg (x * Y - y * X)]
  nlinarith

/-- a point of the circle in the direction of `(x, y)` -/
theorem circle_point {x y a : ℝ} (ha : 0 < a) :
    ∃ X Y, X ^ 2 + Y ^ 2 = a ^ 2 ∧ (x - X) ^ 2 + (y - Y) ^ 2 = (Real.sqrt (x ^ 2 + y ^ 2) - a) ^ 2 := by
  have h1 : Real.sqrt (x ^ 2 + y ^ 2) ^ 2 = x ^ 2 + y ^ 2 := Real.sq_sqrt (by positivity)
  by_cases h : Real.sqrt (x ^ 2 + y ^ 2) = 0
  · have h0 : x ^ 2 + y ^ 2 = 0 := by rw [← h1, h]; norm_num
    have hx : x = 0 := by nlinarith [pow_two_nonneg x, pow_two_nonneg y]
    have hy : y = 0 := by nlinarith [pow_two_nonneg x, pow_two_nonneg y]
    exact ⟨a, 0, by ring, by rw [h, hx, hy]; ring⟩
  · generalize Real.sqrt (x ^ 2 + y ^ 2) = ρ at *
    refine ⟨a * x / ρ, a * y / ρ, ?_, ?_⟩
    · field_simp
      linear_combination (-1 : ℝ) * h1
    · field_simp
      linear_combination (-((ρ - a) ^ 2)) * h1

theorem sqrt_le_of_sq {X a : ℝ} (ha : 0 < a) (h : X ≤ a ^ 2) : Real.sqrt X ≤ a := Real.sqrt_le_iff.2 ⟨ha.le, h⟩

/-- inside -/
theorem least_inside (hR : Orthonormal R) (ha : 0 < a) {q : Vec3 ℝ} (hq : q = R.trans.mulVec (p - c))
    (h1 : Real.sqrt (q.x ^ 2 + q.y ^ 2) ≤ a) (h2 : |q.z| ≤ h / 2) :
    IsLeast (CylDists c a a h R p) (Min.min (a - Real.sqrt (q.x ^ 2 + q.y ^ 2)) (h / 2 - |q.z|)) := by
  have hz := abs_le.1 h2
  have hρ : Real.sqrt (q.x ^ 2 + q.y ^ 2) ^ 2 = q.x ^ 2 + q.y ^ 2 := Real.sq_sqrt (by positivity)
  have ρ0 := Real.sqrt_nonneg (q.x ^ 2 + q.y ^ 2)
  constructor
  · rcases min_choice (a - Real.sqrt (q.x ^ 2 + q.y ^ 2)) (h / 2 - |q.z|) with e | e <;> rw [e, cylDists_iff hR ha hq]
    · obtain ⟨X, Y, e1, e2⟩ := circle_point (x := q.x) (y := q.y) ha
      refine ⟨X, Y, q.z, .inl ⟨e1, hz.1, hz.2⟩, ?_⟩
      rw [sub_self, e2, zero_pow two_ne_zero, add_zero, Real.sqrt_sq_eq_abs, abs_sub_comm, abs_of_nonneg (by linarith)]
    · have hin : q.x ^ 2 + q.y ^ 2 ≤ a ^ 2 := by rw [← hρ]; nlinarith
      rcases abs_cases q.z with ⟨k1, k2⟩ | ⟨k1, k2⟩
      · refine ⟨q.x, q.y, h / 2, .inr ⟨hin, .inl rfl⟩, ?_⟩
        rw [sub_self, sub_self, zero_pow two_ne_zero, zero_add, zero_add, Real.sqrt_sq_eq_abs, k1,
          abs_of_nonpos (by linarith : q.z - h / 2 ≤ 0)]
        ring
      · refine ⟨q.x, q.y, -(h / 2), .inr ⟨hin, .inr rfl⟩, ?_⟩
        rw [sub_self, sub_self, zero_pow two_ne_zero, zero_add, zero_add, Real.sqrt_sq_eq_abs, k1,
          abs_of_nonneg (by linarith : 0 ≤ q.z - -(h / 2))]
        ring
  · intro d hd
    rw [cylDists_iff hR ha hq] at hd
    obtain ⟨X, Y, Z, hs, rfl⟩ := hd
    rcases hs with ⟨e1, _, _⟩ | ⟨_, e2⟩
    · refine (min_le_left _ _).trans (Real.le_sqrt_of_sq_le ?_)
      have := plane_dist (x := q.x) (y := q.y) (X := X) (Y := Y)
      rw [e1, Real.sqrt_sq ha.le] at this
      nlinarith [pow_two_nonneg (q.z - Z)]
    · refine (min_le_right _ _).trans (Real.le_sqrt_of_sq_le ?_)
      have : (h / 2 - |q.z|) ^ 2 ≤ (q.z - Z) ^ 2 := by
        have ha1 := le_abs_self q.z
        have ha2 := neg_abs_le q.z
        rcases e2 with e2 | e2 <;> rw [e2] <;> nlinarith
      nlinarith [pow_two_nonneg (q.x - X), pow_two_nonneg (q.y - Y)]

/-- beside the tube: level with the cylinder, or above or below -/
theorem least_outside (hR : Orthonormal R) (ha : 0 < a) (hh : 0 < h) {q : Vec3 ℝ} (hq : q = R.trans.mulVec (p - c))
    (h1 : a ≤ Real.sqrt (q.x ^ 2 + q.y ^ 2)) :
    IsLeast (CylDists c a a h R p) (Real.sqrt ((Real.sqrt (q.x ^ 2 + q.y ^ 2) - a) ^ 2 + (Max.max 0 (|q.z| - h / 2)) ^ 2)) := by
  have hρ : Real.sqrt (q.x ^ 2 + q.y ^ 2) ^ 2 = q.x ^ 2 + q.y ^ 2 := Real.sq_sqrt (by positivity)
  constructor
  · rw [cylDists_iff hR ha hq]
    obtain ⟨X, Y, e1, e2⟩ := circle_point (x := q.x) (y := q.y) ha
    by_cases hz : |q.z| ≤ h / 2
    · have hz' := abs_le.1 hz
      refine ⟨X, Y, q.z, .inl ⟨e1, hz'.1, hz'.2⟩, ?_⟩
      rw [e2, max_eq_left (by linarith), sub_self]
    · rw [not_le] at hz
      rw [max_eq_right (by linarith)]
      rcases abs_cases q.z with ⟨k1, k2⟩ | ⟨k1, k2⟩
      · refine ⟨X, Y, h / 2, .inl ⟨e1, by linarith, le_rfl⟩, ?_⟩
        rw [e2, k1]
      · refine ⟨X, Y, -(h / 2), .inl ⟨e1, le_rfl, by linarith⟩, ?_⟩
        rw [e2, k1]
        congr 1
        ring
  · intro d hd
    rw [cylDists_iff hR ha hq] at hd
    obtain ⟨X, Y, Z, hs, rfl⟩ := hd
    refine Real.sqrt_le_sqrt ?_
    have hXY : Real.sqrt (X ^ 2 + Y ^ 2) ≤ a := by
      refine sqrt_le_of_sq ha ?_
      rcases hs with ⟨e1, _⟩ | ⟨e1, _⟩
      · exact e1.le
      · exact e1
    have hZ : |Z| ≤ h / 2 := by
      rcases hs with ⟨_, e2, e3⟩ | ⟨_, e2 | e2⟩
      · exact abs_le.2 ⟨e2, e3⟩
      · rw [e2, abs_of_pos (by linarith)]
      · rw [e2, abs_neg, abs_of_pos (by linarith)]
    have pd := plane_dist (x := q.x) (y := q.y) (X := X) (Y := Y)
    have p1 : (Real.sqrt (q.x ^ 2 + q.y ^ 2) - a) ^ 2 ≤ (Real.sqrt (q.x ^ 2 + q.y ^ 2) - Real.sqrt (X ^ 2 + Y ^ 2)) ^ 2 :=
      pow_le_pow_left₀ (by linarith) (by linarith) 2
    have p2 : (Max.max 0 (|q.z| - h / 2)) ^ 2 ≤ (q.z - Z) ^ 2 := by
      rw [← sq_abs (q.z - Z)]
      refine pow_le_pow_left₀ (le_max_left _ _) (max_le (abs_nonneg _) ?_) 2
      have := abs_sub_abs_le_abs_sub q.z Z
      linarith
    linarith

end

/-! ### the distance that is returned -/

section
variable {F : Fmt ℝ} {cy : Cylinder (XF F)} {point : Vec3 (XF F)} {c : Vec3 ℝ} {a h : ℝ} {R : Mat3 ℝ} {p : Vec3 ℝ}

/-- how far the square may be off -/
noncomputable def circErr (F : Fmt ℝ) (a ρ τ : ℝ) : ℝ := a * τ + a * ρ / 10 ^ 20 + (a * F.eps) ^ 2

theorem circErr_nonneg {a ρ τ : ℝ} (ha : 0 < a) (hρ : 0 ≤ ρ) (hτ : 0 ≤ τ) : 0 ≤ circErr F a ρ τ := by
  unfold circErr; positivity

theorem near_circle {a ρ ε : ℝ} (ha : 0 < a) (hρ : 0 ≤ ρ) (h : |ρ ^ 2 / a ^ 2 - 1| < ε) : (ρ - a) ^ 2 ≤ (a * ε) ^ 2 := by
  have e : ρ ^ 2 / a ^ 2 - 1 = (ρ - a) * (ρ + a) / a ^ 2 := by field_simp; ring
  rw [e, abs_div, abs_mul, abs_of_pos (by positivity : 0 < a ^ 2), abs_of_nonneg (by positivity : 0 ≤ ρ + a),
    div_lt_iff₀ (by positivity)] at h
  have h1 : |ρ - a| * a ≤ |ρ - a| * (ρ + a) := mul_le_mul_of_nonneg_left (by linarith) (abs_nonneg _)
  have h2 : |ρ - a| ≤ a * ε := by
    have : |ρ - a| * a < a * ε * a := by nlinarith
    exact (lt_of_mul_lt_mul_right this ha.le).le
  rw [← sq_abs]
  exact pow_le_pow_left₀ (abs_nonneg _) h2 2

/-- The distance to a circular cylinder, away from the axis. -/
theorem cylDistance_circle (hF : F.Exact) (heps : 0 < F.eps) (isZ : XF F → XF F → Bool) {tol : XF F} {τ : ℝ} (it : tol.Is τ) (hτ : 0 ≤ τ)
    (H : CylPoint cy point c a a h R p) {q : Vec3 ℝ} (hq : q = R.trans.mulVec (p - c)) (hne : ¬ (q.x = 0 ∧ q.y = 0))
    (hz : isZ (cy.rotation.trans.mulVec (point - cy.center)).x (cy.rotation.trans.mulVec (point - cy.center)).y = false) :
    ∃ v D, (cylDistance isZ tol cy point).Is v ∧ 0 ≤ v ∧ IsLeast (CylDists c a a h R p) D ∧
      |v ^ 2 - D ^ 2| ≤ circErr F a (Real.sqrt (q.x ^ 2 + q.y ^ 2)) τ := by
  have i0 := XF.Is.zero hF (F := F)
  have i2 := two_is hF (F := F)
  have iq := H.rot.trans.mulVec hF (H.point.sub hF H.center)
  rw [← hq] at iq
  have ih := H.height.div hF i2 two_ne_zero
  have inh := H.height.neg.div hF i2 two_ne_zero
  rw [neg_div] at inh
  have iT := (iq.2.2.sub hF ih).abs
  have iB := (iq.2.2.add hF ih).abs
  have iel := ellipseEquation_is hF H.isA H.isB H.a_pos H.b_pos iq.1 iq.2.1
  have hh := H.h_pos
  have ha := H.a_pos
  have ρ0 := Real.sqrt_nonneg (q.x ^ 2 + q.y ^ 2)
  have hρ : Real.sqrt (q.x ^ 2 + q.y ^ 2) ^ 2 = q.x ^ 2 + q.y ^ 2 := Real.sq_sqrt (by positivity)
  have eel : q.x ^ 2 / a ^ 2 + q.y ^ 2 / a ^ 2 - 1 = Real.sqrt (q.x ^ 2 + q.y ^ 2) ^ 2 / a ^ 2 - 1 := by rw [hρ]; ring
  have hE := circErr_nonneg (F := F) ha ρ0 hτ
  -- inside or on the ellipse
  have hle : q.x ^ 2 / a ^ 2 + q.y ^ 2 / a ^ 2 ≤ 1 ↔ Real.sqrt (q.x ^ 2 + q.y ^ 2) ≤ a := by
    rw [← add_div, div_le_one (by positivity)]
    have := pow_le_pow_iff_left₀ ρ0 ha.le two_ne_zero
    rwa [hρ] at this
  -- the case that is known already
  by_cases hcap : Real.sqrt (q.x ^ 2 + q.y ^ 2) ≤ a ∧ h / 2 ≤ |q.z|
  · have hl := least_over_cap H.orth hh.le hq (hle.2 hcap.1) hcap.2
    exact ⟨_, _, cylDistance_over_cap hF heps isZ tol H hq (hle.2 hcap.1) hcap.2, by linarith [hcap.2], hl, by simpa using hE⟩
  obtain ⟨d, id, d0, d1, d2⟩ := minDistEllipse_circle hF H.isA H.isB ha iq.1 iq.2.1 it hτ hne
  unfold cylDistance
  simp only
  rw [if_neg (by rw [hz]; simp)]
  have hcond : (gt (cy.rotation.trans.mulVec (point - cy.center)).z (cy.height / nat 2) ||
      lt (cy.rotation.trans.mulVec (point - cy.center)).z (-cy.height / nat 2)) = true ↔ h / 2 < |q.z| := by
    rw [Bool.or_eq_true, iq.2.2.gt ih, iq.2.2.lt inh, lt_abs]
    exact or_congr_right ⟨fun k => by linarith, fun k => by linarith⟩
  by_cases hnear : |q.x ^ 2 / a ^ 2 + q.y ^ 2 / a ^ 2 - 1| < F.eps
  · rw [if_pos ((iel.abs.lt XF.Is.eps).2 hnear)]
    rw [eel] at hnear
    have hn := near_circle ha ρ0 hnear
    by_cases hz : h / 2 < |q.z|
    · rw [if_pos (hcond.2 hz)]
      have hout : a ≤ Real.sqrt (q.x ^ 2 + q.y ^ 2) := by
        by_contra k
        exact hcap ⟨(not_le.1 k).le, hz.le⟩
      have hl := least_outside H.orth ha hh hq hout
      have im := iT.min iB
      rw [abs_cap hh hz.le] at im
      refine ⟨_, _, im, by linarith, hl, ?_⟩
      rw [Real.sq_sqrt (by positivity), max_eq_right (by linarith), abs_sub_comm, add_sub_cancel_right, abs_of_nonneg (by positivity)]
      unfold circErr
      have : 0 ≤ a * τ := by positivity
      have : 0 ≤ a * Real.sqrt (q.x ^ 2 + q.y ^ 2) / 10 ^ 20 := by positivity
      linarith
    · rw [if_neg (fun k => hz (hcond.1 k))]
      rw [not_lt] at hz
      have bound : ∀ D, IsLeast (CylDists c a a h R p) D → 0 ≤ D → D ≤ |Real.sqrt (q.x ^ 2 + q.y ^ 2) - a| →
          |(0 : ℝ) ^ 2 - D ^ 2| ≤ circErr F a (Real.sqrt (q.x ^ 2 + q.y ^ 2)) τ := by
        intro D _ D0 hD
        rw [zero_pow two_ne_zero, zero_sub, abs_neg, abs_of_nonneg (by positivity)]
        have h3 : D ^ 2 ≤ (Real.sqrt (q.x ^ 2 + q.y ^ 2) - a) ^ 2 := by
          rw [← sq_abs (_ - a)]; exact pow_le_pow_left₀ D0 hD 2
        unfold circErr
        have : 0 ≤ a * τ := by positivity
        have : 0 ≤ a * Real.sqrt (q.x ^ 2 + q.y ^ 2) / 10 ^ 20 := by positivity
        linarith
      rcases le_total (Real.sqrt (q.x ^ 2 + q.y ^ 2)) a with hin | hout
      · have hl := least_inside H.orth ha hq hin hz
        refine ⟨0, _, i0, le_rfl, hl, bound _ hl (le_min (by linarith) (by linarith)) ((min_le_left _ _).trans ?_)⟩
        rw [abs_sub_comm]; exact le_abs_self _
      · have hl := least_outside H.orth ha hh hq hout
        refine ⟨0, _, i0, le_rfl, hl, bound _ hl (Real.sqrt_nonneg _) ?_⟩
        rw [max_eq_left (by linarith), zero_pow two_ne_zero, add_zero, Real.sqrt_sq_eq_abs]
  · rw [if_neg (fun k => hnear ((iel.abs.lt XF.Is.eps).1 k))]
    by_cases hin : Real.sqrt (q.x ^ 2 + q.y ^ 2) ≤ a
    · have hz : |q.z| < h / 2 := by
        by_contra k
        exact hcap ⟨hin, not_lt.1 k⟩
      have hz' := abs_lt.1 hz
      have hneg : q.x ^ 2 / a ^ 2 + q.y ^ 2 / a ^ 2 - 1 < 0 := by
        refine lt_of_le_of_ne (by linarith [hle.2 hin]) fun k => hnear ?_
        rw [k, abs_zero]; exact heps
      rw [if_pos ((iel.lt i0).2 hneg), if_neg (fun k => by have := (iq.2.2.ge ih).1 k; linarith),
        if_neg (fun k => by have := (iq.2.2.le inh).1 k; linarith)]
      have hl := least_inside H.orth ha hq hin hz.le
      have im := (id.min iB).min iT
      have e : Min.min (Min.min d |q.z + h / 2|) |q.z - h / 2| = Min.min d (h / 2 - |q.z|) := by
        rw [min_assoc]
        congr 1
        rw [abs_of_pos (by linarith : 0 < q.z + h / 2), abs_of_neg (by linarith : q.z - h / 2 < 0)]
        rcases abs_cases q.z with ⟨k1, k2⟩ | ⟨k1, k2⟩
        · rw [min_eq_right (by linarith), k1]; ring
        · rw [min_eq_left (by linarith), k1]; ring
      rw [e] at im
      refine ⟨_, _, im, le_min d0 (by linarith), hl, ?_⟩
      have hda : a - Real.sqrt (q.x ^ 2 + q.y ^ 2) ≤ d := by
        refine (pow_le_pow_iff_left₀ (by linarith) d0 two_ne_zero).1 ?_
        nlinarith
      have hE' : d ^ 2 ≤ (a - Real.sqrt (q.x ^ 2 + q.y ^ 2)) ^ 2 + circErr F a (Real.sqrt (q.x ^ 2 + q.y ^ 2)) τ := by
        unfold circErr
        have : 0 ≤ (a * F.eps) ^ 2 := by positivity
        nlinarith
      rcases le_total (a - Real.sqrt (q.x ^ 2 + q.y ^ 2)) (h / 2 - |q.z|) with k | k
      · rw [min_eq_left k]
        have v1 : a - Real.sqrt (q.x ^ 2 + q.y ^ 2) ≤ Min.min d (h / 2 - |q.z|) := le_min hda k
        have v2 : Min.min d (h / 2 - |q.z|) ≤ d := min_le_left _ _
        have s1 := pow_le_pow_left₀ (by linarith) v1 2
        have s2 := pow_le_pow_left₀ (le_min d0 (by linarith)) v2 2
        rw [abs_of_nonneg (by linarith)]
        linarith
      · rw [min_eq_right k, min_eq_right (k.trans hda), sub_self, abs_zero]
        exact hE
    · rw [not_le] at hin
      have hpos : 0 < q.x ^ 2 / a ^ 2 + q.y ^ 2 / a ^ 2 - 1 := by
        by_contra k
        exact absurd (hle.1 (by linarith)) (not_le.2 hin)
      rw [if_neg (fun k => by have := (iel.lt i0).1 k; linarith), if_pos ((iel.gt i0).2 hpos)]
      have hl := least_outside H.orth ha hh hq hin.le
      have hE' : d ^ 2 ≤ (Real.sqrt (q.x ^ 2 + q.y ^ 2) - a) ^ 2 + circErr F a (Real.sqrt (q.x ^ 2 + q.y ^ 2)) τ := by
        unfold circErr
        have : 0 ≤ (a * F.eps) ^ 2 := by positivity
        nlinarith
      by_cases hz : |q.z| < h / 2
      · have hz' := abs_lt.1 hz
        rw [if_pos (by rw [Bool.and_eq_true, iq.2.2.lt ih, iq.2.2.gt inh]; exact ⟨hz'.2, hz'.1⟩)]
        refine ⟨_, _, id, d0, hl, ?_⟩
        rw [Real.sq_sqrt (by positivity), max_eq_left (by linarith), zero_pow two_ne_zero, add_zero, abs_of_nonneg (by linarith)]
        linarith
      · rw [not_lt] at hz
        rw [if_neg (by
          rw [Bool.and_eq_true, iq.2.2.lt ih, iq.2.2.gt inh]
          rintro ⟨k1, k2⟩
          exact absurd (abs_lt.2 ⟨k2, k1⟩) (not_lt.2 hz))]
        have s1 := ((id.mul hF id).add hF (iT.mul hF iT)).sqrt hF (by positivity)
        have s2 := ((id.mul hF id).add hF (iB.mul hF iB)).sqrt hF (by positivity)
        have im := s1.min s2
        have e : Min.min (Real.sqrt (d * d + |q.z - h / 2| * |q.z - h / 2|)) (Real.sqrt (d * d + |q.z + h / 2| * |q.z + h / 2|)) =
            Real.sqrt (d ^ 2 + (|q.z| - h / 2) ^ 2) := by
          rw [← Real.sqrt_monotone.map_min, min_add_add_left, pow_two, ← abs_cap hh hz]
          congr 2
          rcases le_total |q.z - h / 2| |q.z + h / 2| with k | k
          · rw [min_eq_left k, min_eq_left (mul_self_le_mul_self (abs_nonneg _) k), pow_two]
          · rw [min_eq_right k, min_eq_right (mul_self_le_mul_self (abs_nonneg _) k), pow_two]
        rw [e] at im
        refine ⟨_, _, im, Real.sqrt_nonneg _, hl, ?_⟩
        rw [Real.sq_sqrt (by positivity), Real.sq_sqrt (by positivity), max_eq_right (by linarith), add_sub_add_right_eq_sub,
          abs_of_nonneg (by linarith)]
        linarith

end
end Blazert
