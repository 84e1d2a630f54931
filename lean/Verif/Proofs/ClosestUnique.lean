/- Points of a triangle that are nearly closest are near the closest one. -/
import Verif.Proofs.ClosestBest
import Verif.Spec.ClosestUnique

set_option autoImplicit false

namespace Blazert

variable {K : Type} [Field K] [LinearOrder K] [IsStrictOrderedRing K] {u η hi L : K}

/-- triangles are convex -/
theorem InTriangle.segment {A B C R Y : Vec3 K} (hR : InTriangle A B C R) (hY : InTriangle A B C Y) {t : K} (t0 : 0 ≤ t) (t1 : t ≤ 1) :
    InTriangle A B C (R + Vec3.smul t (Y - R)) := by
  obtain ⟨a, b, a0, b0, ab, rfl⟩ := hR
  obtain ⟨c, d, c0, d0, cd, rfl⟩ := hY
  have s0 : 0 ≤ 1 - t := by linarith
  refine ⟨(1 - t) * a + t * c, (1 - t) * b + t * d, by positivity, by positivity, ?_, ?_⟩
  · have h1 := mul_le_mul_of_nonneg_left ab s0
    have h2 := mul_le_mul_of_nonneg_left cd t0
    linarith
  · ext <;> simp only [bary, Vec3.add_x, Vec3.add_y, Vec3.add_z, Vec3.sub_x, Vec3.sub_y, Vec3.sub_z, Vec3.smul_x, Vec3.smul_y, Vec3.smul_z] <;> ring

/-- a parabola that starts upwards -/
theorem slope_neg {c d : K} (h : ∀ t, 0 ≤ t → t ≤ 1 → 2 * (t * c) ≤ t ^ 2 * d) : c ≤ 0 := by
  by_contra hc
  have hc := not_le.1 hc
  have h1 := h 1 zero_le_one le_rfl
  have d0 : 0 < d := by linarith
  have h2 := h (c / d) (by positivity) (by rw [div_le_one d0]; linarith)
  have e : (c / d) ^ 2 * d = c / d * c := by field_simp
  rw [e] at h2
  have : 0 < c / d * c := by positivity
  linarith

/-- the angle at the closest point is not acute -/
theorem ClosestIn.angle {A B C P R Y : Vec3 K} (hR : ClosestIn A B C P R) (hY : InTriangle A B C Y) : Vec3.dot (P - R) (Y - R) ≤ 0 := by
  refine slope_neg (d := Vec3.dot (Y - R) (Y - R)) fun t t0 t1 => ?_
  have h2 := hR.2 _ (hR.1.segment hY t0 t1)
  have e : Vec3.dot (P - (R + Vec3.smul t (Y - R))) (P - (R + Vec3.smul t (Y - R))) =
      Vec3.dot (P - R) (P - R) - 2 * (t * Vec3.dot (P - R) (Y - R)) + t ^ 2 * Vec3.dot (Y - R) (Y - R) := by
    simp only [Vec3.dot, Vec3.add_x, Vec3.add_y, Vec3.add_z, Vec3.sub_x, Vec3.sub_y, Vec3.sub_z, Vec3.smul_x, Vec3.smul_y, Vec3.smul_z]; ring
  rw [e] at h2
  linarith

/-- so other points of the triangle are farther away -/
theorem ClosestIn.apart {A B C P R Y : Vec3 K} (hR : ClosestIn A B C P R) (hY : InTriangle A B C Y) :
    Vec3.dot (Y - R) (Y - R) ≤ Vec3.dot (P - Y) (P - Y) - Vec3.dot (P - R) (P - R) := by
  have h1 := hR.angle hY
  have e : Vec3.dot (P - Y) (P - Y) = Vec3.dot (P - R) (P - R) - 2 * Vec3.dot (P - R) (Y - R) + Vec3.dot (Y - R) (Y - R) := by
    simp only [Vec3.dot, Vec3.sub_x, Vec3.sub_y, Vec3.sub_z]; ring
  linarith

/-- the closest points of two points -/
theorem ClosestIn.two {A B C P R P' R' : Vec3 K} (hR : ClosestIn A B C P R) (hR' : ClosestIn A B C P' R') :
    Vec3.dot (R - R') (R - R') ≤ Vec3.dot (P - P') (R - R') := by
  have h1 := hR.angle hR'.1
  have h2 := hR'.angle hR.1
  simp only [Vec3.dot, Vec3.sub_x, Vec3.sub_y, Vec3.sub_z] at h1 h2 ⊢
  linarith

/-- moving a point by little changes its distance by little -/
theorem near_sq [FloorRing K] (hs : Scale u η hi L) {A B C P Q Y : Vec3 K} (hBC : oneNorm (B - A) + oneNorm (C - A) ≤ L) (hP : oneNorm (A - P) ≤ L)
    (hY : InTriangle A B C Y) (hQ : ∀ k, |Q.get k - Y.get k| ≤ 80 * u * L) :
    Vec3.dot (P - Y) (P - Y) ≤ Vec3.dot (P - Q) (P - Q) + 400 * (u * L ^ 2) := by
  have hz := hs.sizes
  have L0 := hz.L0
  have uL0 := hz.uL0
  have uL1 := hz.uL1
  have uLL0 := hz.uLL0
  have uLL1 := hz.uLL1
  have qx := hQ 0
  have qy := hQ 1
  have qz := hQ 2
  simp only [Vec3.get_zero, Vec3.get_one, Vec3.get_two] at qx qy qz
  obtain ⟨s, t, s0, t0, st, rfl⟩ := hY
  have far := bary_far hBC hP (s := s) (t := t) (by rw [abs_of_nonneg s0]; linarith) (by rw [abs_of_nonneg t0]; linarith)
  generalize bary A B C s t = Y at *
  have hV : oneNorm (P - Q) ≤ 21 / 10 * L := by
    have key : ∀ {p q y : K}, |q - y| ≤ 80 * u * L → |p - q| ≤ |p - y| + 80 * u * L := by
      intro p q y h
      rw [show p - q = (p - y) - (q - y) by ring]
      exact (abs_sub_le' le_rfl h)
    have g1 := key (p := P.x) qx
    have g2 := key (p := P.y) qy
    have g3 := key (p := P.z) qz
    unfold oneNorm at far ⊢
    simp only [Vec3.sub_x, Vec3.sub_y, Vec3.sub_z] at far ⊢
    linarith
  rw [abs_sub_comm] at qx qy qz
  have g := dot_shift (P := P) qx qy qz hV
  have e1 : 2 * (21 / 10 * L) * (80 * u * L) = 336 * (u * L ^ 2) := by ring
  have e2 : 3 * (80 * u * L * (80 * u * L)) = 19200 * (u * (u * L ^ 2)) := by ring
  have e3 := mul_le_mul_of_nonneg_right hs.u_le uLL0.le
  rw [e1, e2] at g
  have e4 : 2 ^ 20 * u * (u * L ^ 2) = 2 ^ 20 * (u * (u * L ^ 2)) := by ring
  rw [e4] at e3
  linarith

end Blazert
