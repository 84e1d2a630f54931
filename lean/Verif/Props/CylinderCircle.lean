/- C63: the distance to circular cylinders. -/
import Verif.Proofs.CylinderCircle
import Verif.Props.CylinderDist

set_option autoImplicit false

namespace Blazert
open Scalar

section
variable {F : Fmt ℝ} {cy : Cylinder (XF F)} {point : Vec3 (XF F)} {c : Vec3 ℝ} {a h : ℝ} {R : Mat3 ℝ} {p : Vec3 ℝ}

/-- **C63**: for a cylinder with equal half axes `a`, height `h` and any orientation, and any point `c + R (x,y,z)`, a number `v ≥ 0` is
returned, and its square differs from the square of the smallest distance `D` to a point of the surface by at most
`a tol + a √(x² + y²) 10⁻²⁰ + (a eps)²`, where `tol` is the tolerance of the Newton search and `eps` the machine epsilon (points that
close to the surface count as being on it).  `isZero` is assumed to be exact.  Exact arithmetic. -/
theorem C63_circular (hF : F.Exact) (heps : 0 < F.eps) (isZ : XF F → XF F → Bool) {tol : XF F} {τ : ℝ} (it : tol.Is τ) (hτ : 0 ≤ τ)
    (H : CylPoint cy point c a a h R p) {x y z : ℝ} (hp : p = c + R.mulVec ⟨x, y, z⟩)
    (hz : ∀ (x' y' : XF F) (x y : ℝ), x'.Is x → y'.Is y → (isZ x' y' = true ↔ x = 0 ∧ y = 0)) :
    ∃ v D, (cylDistance isZ tol cy point).Is v ∧ 0 ≤ v ∧ IsLeast {d | ∃ q, OnCyl c a a h R q ∧ d = dist3 p q} D ∧
      |v ^ 2 - D ^ 2| ≤ a * τ + a * Real.sqrt (x ^ 2 + y ^ 2) / 10 ^ 20 + (a * F.eps) ^ 2 ∧
      (v - D) ^ 2 ≤ |v ^ 2 - D ^ 2| := by
  have hq := ((H.orth.local_iff _ _ _).1 hp).symm
  have iq := H.rot.trans.mulVec hF (H.point.sub hF H.center)
  rw [← hq] at iq
  have pos : ∀ D, IsLeast {d | ∃ q, OnCyl c a a h R q ∧ d = dist3 p q} D → 0 ≤ D := by
    rintro D ⟨⟨q, _, rfl⟩, _⟩
    exact Real.sqrt_nonneg _
  have fin : ∀ v D : ℝ, 0 ≤ v → 0 ≤ D → (v - D) ^ 2 ≤ |v ^ 2 - D ^ 2| := by
    intro v D hv hD
    rw [show v ^ 2 - D ^ 2 = (v - D) * (v + D) by ring, abs_mul, abs_of_nonneg (by linarith : 0 ≤ v + D), ← sq_abs, pow_two]
    exact mul_le_mul_of_nonneg_left (abs_le.2 ⟨by linarith, by linarith⟩) (abs_nonneg _)
  by_cases h0 : x = 0 ∧ y = 0
  · obtain ⟨rfl, rfl⟩ := h0
    obtain ⟨v, hv, hl⟩ := C44_axis_partial hF heps isZ tol H hp (fun x' y' hx hy => (hz _ _ _ _ hx hy).2 ⟨rfl, rfl⟩)
    refine ⟨v, v, hv, pos v hl, hl, ?_, fin v v (pos v hl) (pos v hl)⟩
    rw [sub_self, abs_zero]
    exact circErr_nonneg (F := F) H.a_pos (Real.sqrt_nonneg _) hτ
  · have hz' : isZ (cy.rotation.trans.mulVec (point - cy.center)).x (cy.rotation.trans.mulVec (point - cy.center)).y = false := by
      rw [Bool.eq_false_iff]
      exact fun k => h0 ((hz _ _ _ _ iq.1 iq.2.1).1 k)
    obtain ⟨v, D, hv, v0, hl, hE⟩ := cylDistance_circle hF heps isZ it hτ H hq h0 hz'
    exact ⟨v, D, hv, v0, hl, hE, fin v D v0 (pos D hl)⟩

end

/-- a circular cylinder with radius 2 and height 4 around the z axis -/
noncomputable def sampleCyl63 : Cylinder (XF exactFmt) := ⟨rvec 0 0 0, rl 2, rl 2, rl 4, idM, 0⟩

/-- the point `(1/2, 1, 1)`, inside; the nearest point is on the lateral surface or on the top, at a distance of at most 1 -/
example : ∃ v, (cylDistance (fun x y => eq x (nat 0) && eq y (nat 0)) (rl (1 / 10 ^ 7)) sampleCyl63 (rvec (1/2) 1 1)).Is v ∧
    v ≤ 1001 / 1000 := by
  have H : CylPoint sampleCyl63 (rvec (1/2) 1 1) ⟨0, 0, 0⟩ 2 2 4 idR ⟨1/2, 1, 1⟩ :=
    ⟨rvec_is _ _ _, rl_is _, rl_is _, rl_is _, idM_is, two_pos, two_pos, by norm_num, idR_orthonormal, rvec_is _ _ _⟩
  have hp : ∀ p : Vec3 ℝ, p = ⟨0, 0, 0⟩ + idR.mulVec p := fun p => by ext <;> simp [Mat3.mulVec, idR, Vec3.dot]
  have i0 := XF.Is.zero exactFmt_exact
  obtain ⟨v, D, hv, v0, hl, hE, _⟩ := C63_circular exactFmt_exact (by simp [exactFmt]) (fun x y => eq x (nat 0) && eq y (nat 0))
    (rl_is (1 / 10 ^ 7)) (by norm_num) H (hp _) (fun x' y' x y hx hy => by
      simp only [Bool.and_eq_true]
      rw [hx.eq i0, hy.eq i0])
  refine ⟨v, hv, ?_⟩
  have hD : D ≤ 1 := by
    refine hl.2 ⟨⟨1/2, 1, 2⟩, ⟨1/2, 1, 2, .inr ⟨by norm_num, .inl (by norm_num)⟩, hp _⟩, ?_⟩
    have : (⟨1/2, 1, 1⟩ : Vec3 ℝ) - ⟨1/2, 1, 2⟩ = ⟨0, 0, -1⟩ := by ext <;> norm_num
    rw [dist3, this, len_z]; norm_num
  have D0 : 0 ≤ D := by
    obtain ⟨⟨q, _, rfl⟩, _⟩ := hl
    exact Real.sqrt_nonneg _
  have hs : Real.sqrt ((1 / 2) ^ 2 + 1 ^ 2) ≤ 2 := Real.sqrt_le_iff.2 ⟨by norm_num, by norm_num⟩
  have he : (2 * exactFmt.eps) ^ 2 ≤ 1 / 10 ^ 7 := by
    simp only [exactFmt]
    rw [zpow_neg]
    norm_num
  have := (abs_le.1 hE).2
  nlinarith

end Blazert
