/- Orthonormal matrices. -/
import Verif.Proofs.Vector
import Mathlib.LinearAlgebra.Matrix.NonsingularInverse

set_option autoImplicit false

namespace Blazert

theorem Orthonormal.cols {m : Mat3 ℝ} (h : Orthonormal m) (v : Vec3 ℝ) : m.trans.mulVec (m.mulVec v) = v := by
  have key : ∀ w, Vec3.dot w (m.trans.mulVec (m.mulVec v)) = Vec3.dot w v := by
    intro w
    rw [← h w v]
    simp only [Vec3.dot, Mat3.mulVec, Mat3.trans]; ring
  have h0 := key ⟨1, 0, 0⟩; have h1 := key ⟨0, 1, 0⟩; have h2 := key ⟨0, 0, 1⟩
  simp only [Vec3.dot] at h0 h1 h2
  ext <;> linarith

/-- as a Mathlib matrix -/
def Mat3.toMatrix (m : Mat3 ℝ) : Matrix (Fin 3) (Fin 3) ℝ :=
  !![m.r0.x, m.r0.y, m.r0.z; m.r1.x, m.r1.y, m.r1.z; m.r2.x, m.r2.y, m.r2.z]

theorem Orthonormal.rows {m : Mat3 ℝ} (h : Orthonormal m) (v : Vec3 ℝ) : m.mulVec (m.trans.mulVec v) = v := by
  have h1 : m.trans.toMatrix * m.toMatrix = 1 := by
    have hx := h.cols ⟨1, 0, 0⟩; have hy := h.cols ⟨0, 1, 0⟩; have hz := h.cols ⟨0, 0, 1⟩
    simp only [Mat3.mulVec, Mat3.trans, Vec3.dot, Vec3.mk.injEq, mul_one, mul_zero, add_zero, zero_add] at hx hy hz
    ext i j
    fin_cases i <;> fin_cases j <;>
      simp [Mat3.toMatrix, Mat3.trans, Matrix.mul_apply, Fin.sum_univ_three] <;> linarith [hx.1, hx.2.1, hx.2.2, hy.1, hy.2.1, hy.2.2, hz.1, hz.2.1, hz.2.2]
  have h2 : m.toMatrix * m.trans.toMatrix = 1 := mul_eq_one_comm.1 h1
  have e : ∀ i j, (m.toMatrix * m.trans.toMatrix) i j = (1 : Matrix (Fin 3) (Fin 3) ℝ) i j := fun i j => by rw [h2]
  have e00 := e 0 0; have e01 := e 0 1; have e02 := e 0 2
  have e10 := e 1 0; have e11 := e 1 1; have e12 := e 1 2
  have e20 := e 2 0; have e21 := e 2 1; have e22 := e 2 2
  simp [Mat3.toMatrix, Mat3.trans, Matrix.mul_apply, Fin.sum_univ_three] at e00 e01 e02 e10 e11 e12 e20 e21 e22
  ext <;> simp only [Mat3.mulVec, Mat3.trans, Vec3.dot]
  · linear_combination v.x * e00 + v.y * e01 + v.z * e02
  · linear_combination v.x * e10 + v.y * e11 + v.z * e12
  · linear_combination v.x * e20 + v.y * e21 + v.z * e22

theorem Orthonormal.trans {m : Mat3 ℝ} (h : Orthonormal m) : Orthonormal m.trans := by
  intro v w
  rw [← h (m.trans.mulVec v) (m.trans.mulVec w), h.rows, h.rows]

theorem Orthonormal.sq {m : Mat3 ℝ} (h : Orthonormal m) (v : Vec3 ℝ) : sq (m.mulVec v) = Blazert.sq v := h v v
theorem Orthonormal.len {m : Mat3 ℝ} (h : Orthonormal m) (v : Vec3 ℝ) : len (m.mulVec v) = Blazert.len v := by
  unfold Blazert.len; rw [h.sq]

theorem Mat3.mulVec_add (m : Mat3 ℝ) (v w : Vec3 ℝ) : m.mulVec (v + w) = m.mulVec v + m.mulVec w := by
  ext <;> simp [Mat3.mulVec, Vec3.dot] <;> ring
theorem Mat3.mulVec_sub (m : Mat3 ℝ) (v w : Vec3 ℝ) : m.mulVec (v - w) = m.mulVec v - m.mulVec w := by
  ext <;> simp [Mat3.mulVec, Vec3.dot] <;> ring
theorem Mat3.mulVec_smul (m : Mat3 ℝ) (c : ℝ) (v : Vec3 ℝ) : m.mulVec (Vec3.smul c v) = Vec3.smul c (m.mulVec v) := by
  ext <;> simp [Mat3.mulVec, Vec3.dot] <;> ring

/-- a point in the coordinates of a rotated and translated object -/
theorem Orthonormal.local_iff {m : Mat3 ℝ} (h : Orthonormal m) (c p q : Vec3 ℝ) :
    p = c + m.mulVec q ↔ m.trans.mulVec (p - c) = q := by
  constructor
  · rintro rfl
    have : c + m.mulVec q - c = m.mulVec q := by ext <;> simp
    rw [this, h.cols]
  · rintro rfl
    rw [h.rows]; ext <;> simp

theorem trans_along (m : Mat3 ℝ) (c o d : Vec3 ℝ) (t : ℝ) :
    m.trans.mulVec (along o d t - c) = along (m.trans.mulVec (o - c)) (m.trans.mulVec d) t := by
  unfold along
  rw [← Mat3.mulVec_smul, ← Mat3.mulVec_add]
  congr 1; ext <;> simp <;> ring

end Blazert
