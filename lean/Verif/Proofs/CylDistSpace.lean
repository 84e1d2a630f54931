/- Distances in the coordinates of a cylinder and in space. -/
import Verif.Proofs.CylDistReal
import Verif.Proofs.PlaneRound

set_option autoImplicit false

namespace Blazert

theorem near_real {k : ℚ} {ε : ℚ} (h : |k| ≤ ε) : |(k : ℝ)| ≤ ε := by exact_mod_cast h

theorem NearOrtho.toReal {ε : ℚ} {R : Mat3 ℚ} (h : NearOrtho ε R) : NearOrtho (ε : ℝ) R.toReal := by
  obtain ⟨⟨a1, a2, a3, a4, a5, a6⟩, ⟨b1, b2, b3, b4, b5, b6⟩⟩ := h
  have a1 := near_real a1
  have a2 := near_real a2
  have a3 := near_real a3
  have a4 := near_real a4
  have a5 := near_real a5
  have a6 := near_real a6
  have b1 := near_real b1
  have b2 := near_real b2
  have b3 := near_real b3
  have b4 := near_real b4
  have b5 := near_real b5
  have b6 := near_real b6
  simp only [Vec3.dot, Mat3.trans, Rat.cast_sub, Rat.cast_add, Rat.cast_mul, Rat.cast_one] at *
  exact ⟨⟨a1, a2, a3, a4, a5, a6⟩, ⟨b1, b2, b3, b4, b5, b6⟩⟩

/-- a matrix that is nearly orthonormal hardly lengthens -/
theorem space_dist {ε : ℝ} {R : Mat3 ℝ} (h : NearOrtho ε R) (c w s : Vec3 ℝ) :
    dist3 (c + R.mulVec w) (c + R.mulVec s) ≤ (1 + 2 * ε) * dist3 w s := by
  have ε0 : 0 ≤ ε := h.1.nonneg
  have h1 := NearOrtho.norm (R := R.trans) ⟨h.2, h.1⟩ (w - s)
  have e : (c + R.mulVec w) - (c + R.mulVec s) = R.trans.trans.mulVec (w - s) := by
    ext <;> simp [Mat3.mulVec, Mat3.trans, Vec3.dot] <;> ring
  have h2 := len_sq (w - s)
  have h3 := len_sq (R.trans.trans.mulVec (w - s))
  have h4 := len_nonneg (w - s)
  unfold dist3
  rw [e]
  refine le_of_sq_le_sq ?_ (by positivity)
  have h5 := (abs_le.1 h1).2
  unfold sq at h2 h3
  rw [← h2, ← h3] at h5
  nlinarith [mul_nonneg ε0 (mul_self_nonneg (len (w - s))), mul_nonneg (mul_nonneg ε0 ε0) (mul_self_nonneg (len (w - s)))]

/-- a bound in the coordinates of the cylinder, for bounds in space -/
theorem space_bound {ε : ℚ} {R : Mat3 ℚ} (h : NearOrtho ε R) {c p : Vec3 ℚ} {x y z : ℚ} (hp : p = c + R.mulVec ⟨x, y, z⟩) {a b t : ℝ} {D X : ℝ}
    (hD : ∀ q, OnCylinderAt c.toReal a b t R.toReal q → D ≤ dist3 p.toReal q)
    (hX : ∀ D' : ℝ, (∀ s, OnCylSurface a b t s → D' ≤ dist3 ⟨x, y, z⟩ s) → D' ≤ X) : D ≤ (1 + 2 * ε) * X := by
  have ε0 : (0 : ℝ) ≤ ε := h.toReal.1.nonneg
  have k0 : (0 : ℝ) < 1 + 2 * ε := by linarith
  rw [mul_comm, ← div_le_iff₀ k0]
  refine hX _ fun s hs => ?_
  rw [div_le_iff₀ k0, mul_comm]
  have e : p.toReal = c.toReal + R.toReal.mulVec ⟨x, y, z⟩ := by
    rw [hp]
    ext <;> simp [Vec3.toReal, Mat3.toReal, Mat3.mulVec, Vec3.dot]
  have h1 := hD _ ⟨s, hs, rfl⟩
  rw [e] at h1
  exact h1.trans (space_dist h.toReal _ _ _)

end Blazert
