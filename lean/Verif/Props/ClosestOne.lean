/- C120, C121: the point computed on a triangle is the only closest one, whatever the order of the vertices; it moves no faster than the
point given. -/
import Verif.Props.ClosestPoint
import Verif.Proofs.ClosestUnique

set_option autoImplicit false

namespace Blazert
open Scalar

variable {F : Fmt ℝ}

/-- **C120**.  For every non-degenerate triangle and every point `P`, in exact arithmetic: the point computed is the point of the triangle
closest to `P`, and there is no other. -/
theorem C120_only_closest (hF : F.Exact) {v0 v1 v2 p : Vec3 (XF F)} {A B C P : Vec3 ℝ} (h0 : IsV v0 A) (h1 : IsV v1 B)
    (h2 : IsV v2 C) (hp : IsV p P) (hnd : triPerp A B C ≠ ⟨0, 0, 0⟩) (R : Vec3 ℝ) :
    ClosestIn A B C P R ↔ IsV (closestPointOnTriangle v0 v1 v2 p) R := by
  obtain ⟨Q, k1, k2, k3⟩ := C42_closest_point hF h0 h1 h2 hp hnd
  have hQ : ClosestIn A B C P Q := by
    refine ⟨k2, fun S hS => ?_⟩
    have h := mul_self_le_mul_self (len_nonneg _) (k3 S hS)
    unfold dist3 at h
    rwa [len_sq, len_sq] at h
  constructor
  · intro hR
    have h3 := hQ.apart hR.1
    have h4 := hR.2 Q k2
    have h5 : sq (R - Q) = 0 := le_antisymm (by unfold sq; linarith) (sq_nonneg' _)
    have h6 := sq_eq_zero.1 h5
    have h7 : R = Q := by
      have hx := congrArg Vec3.x h6
      have hy := congrArg Vec3.y h6
      have hz := congrArg Vec3.z h6
      simp only [Vec3.sub_x, Vec3.sub_y, Vec3.sub_z] at hx hy hz
      exact Vec3.ext (by linarith) (by linarith) (by linarith)
    rw [h7]
    exact k1
  · intro hR
    rw [hR.unique k1]
    exact hQ

/-- **C120**.  So the order of the vertices does not matter, in exact arithmetic: exchanging two of them (and so any order) gives the same
point. -/
theorem C120_vertex_order (hF : F.Exact) {v0 v1 v2 p : Vec3 (XF F)} {A B C P : Vec3 ℝ} (h0 : IsV v0 A) (h1 : IsV v1 B)
    (h2 : IsV v2 C) (hp : IsV p P) (hnd : triPerp A B C ≠ ⟨0, 0, 0⟩) :
    ∃ Q, IsV (closestPointOnTriangle v0 v1 v2 p) Q ∧ IsV (closestPointOnTriangle v0 v2 v1 p) Q ∧
      IsV (closestPointOnTriangle v1 v0 v2 p) Q := by
  have sw1 : ∀ S, InTriangle A B C S ↔ InTriangle A C B S := by
    have one : ∀ {A B C S : Vec3 ℝ}, InTriangle A B C S → InTriangle A C B S := by
      rintro A B C S ⟨u, v, h1, h2, h3, rfl⟩
      refine ⟨v, u, h2, h1, by linarith, ?_⟩
      ext <;> simp only [bary, Vec3.add_x, Vec3.add_y, Vec3.add_z, Vec3.smul_x, Vec3.smul_y, Vec3.smul_z] <;> ring
    exact fun S => ⟨one, one⟩
  have sw2 : ∀ S, InTriangle A B C S ↔ InTriangle B A C S := by
    have one : ∀ {A B C S : Vec3 ℝ}, InTriangle A B C S → InTriangle B A C S := by
      rintro A B C S ⟨u, v, h1, h2, h3, rfl⟩
      refine ⟨1 - u - v, v, by linarith, h2, by linarith, ?_⟩
      ext <;> simp only [bary, Vec3.add_x, Vec3.add_y, Vec3.add_z, Vec3.smul_x, Vec3.smul_y, Vec3.smul_z] <;> ring
    exact fun S => ⟨one, one⟩
  have zero : ∀ {V W : Vec3 ℝ}, W = Vec3.smul (-1) V → V ≠ ⟨0, 0, 0⟩ → W ≠ ⟨0, 0, 0⟩ := by
    intro V W e hV hW
    rw [e] at hW
    refine hV (Vec3.ext ?_ ?_ ?_)
    · have := congrArg Vec3.x hW; simp only [Vec3.smul_x] at this; dsimp only; linarith
    · have := congrArg Vec3.y hW; simp only [Vec3.smul_y] at this; dsimp only; linarith
    · have := congrArg Vec3.z hW; simp only [Vec3.smul_z] at this; dsimp only; linarith
  have n1 : triPerp A C B ≠ ⟨0, 0, 0⟩ :=
    zero (by ext <;> simp only [triPerp, Vec3.cross, Vec3.smul_x, Vec3.smul_y, Vec3.smul_z, Vec3.sub_x, Vec3.sub_y, Vec3.sub_z] <;> ring) hnd
  have n2 : triPerp B A C ≠ ⟨0, 0, 0⟩ :=
    zero (by ext <;> simp only [triPerp, Vec3.cross, Vec3.smul_x, Vec3.smul_y, Vec3.smul_z, Vec3.sub_x, Vec3.sub_y, Vec3.sub_z] <;> ring) hnd
  obtain ⟨Q, k1, -⟩ := C42_closest_point hF h0 h1 h2 hp hnd
  have hQ := (C120_only_closest hF h0 h1 h2 hp hnd Q).2 k1
  refine ⟨Q, k1, (C120_only_closest hF h0 h2 h1 hp n1 Q).1 ?_, (C120_only_closest hF h1 h0 h2 hp n2 Q).1 ?_⟩
  · exact ⟨(sw1 Q).1 hQ.1, fun S hS => hQ.2 S ((sw1 S).2 hS)⟩
  · exact ⟨(sw2 Q).1 hQ.1, fun S hS => hQ.2 S ((sw2 S).2 hS)⟩

/-- A triangle and a point to which the theorems apply: the closest point is inside, and it is computed. -/
example : IsV (closestPointOnTriangle (rvec 0 0 0) (rvec 4 0 0) (rvec 0 4 0) (rvec 1 2 5) : Vec3 (XF exactFmt)) ⟨1, 2, 0⟩ := by
  refine (C120_only_closest exactFmt_exact (rvec_is _ _ _) (rvec_is _ _ _) (rvec_is _ _ _) (rvec_is _ _ _) (fun h => ?_) _).1 ⟨?_, ?_⟩
  · have := congrArg Vec3.z h
    norm_num [triPerp, Vec3.cross] at this
  · refine ⟨1 / 4, 1 / 2, by norm_num, by norm_num, by norm_num, ?_⟩
    ext <;> simp only [bary, Vec3.add_x, Vec3.add_y, Vec3.add_z, Vec3.smul_x, Vec3.smul_y, Vec3.smul_z] <;> norm_num
  · rintro S ⟨s, t, -, -, -, rfl⟩
    simp only [bary, Vec3.dot, Vec3.add_x, Vec3.add_y, Vec3.add_z, Vec3.sub_x, Vec3.sub_y, Vec3.sub_z, Vec3.smul_x, Vec3.smul_y, Vec3.smul_z]
    nlinarith [sq_nonneg (1 - s * 4), sq_nonneg (2 - t * 4)]

/-- **C121**.  For every non-degenerate triangle and two points, in exact arithmetic: the points computed are not farther from each other than
the points given, and their distances from the points given differ by no more than that. -/
theorem C121_lipschitz (hF : F.Exact) {v0 v1 v2 p p' : Vec3 (XF F)} {A B C P P' : Vec3 ℝ} (h0 : IsV v0 A) (h1 : IsV v1 B)
    (h2 : IsV v2 C) (hp : IsV p P) (hp' : IsV p' P') (hnd : triPerp A B C ≠ ⟨0, 0, 0⟩) :
    ∃ Q Q', IsV (closestPointOnTriangle v0 v1 v2 p) Q ∧ IsV (closestPointOnTriangle v0 v1 v2 p') Q' ∧ dist3 Q Q' ≤ dist3 P P' ∧
      |dist3 P Q - dist3 P' Q'| ≤ dist3 P P' := by
  obtain ⟨Q, k1, k2, k3⟩ := C42_closest_point hF h0 h1 h2 hp hnd
  obtain ⟨Q', k1', k2', k3'⟩ := C42_closest_point hF h0 h1 h2 hp' hnd
  have hQ := (C120_only_closest hF h0 h1 h2 hp hnd Q).2 k1
  have hQ' := (C120_only_closest hF h0 h1 h2 hp' hnd Q').2 k1'
  refine ⟨Q, Q', k1, k1', ?_, abs_le.2 ⟨?_, ?_⟩⟩
  · have h3 := (hQ.two hQ').trans (dot_le_len _ _)
    have h4 : len (Q - Q') * len (Q - Q') ≤ len (P - P') * len (Q - Q') := by rw [len_sq]; exact h3
    unfold dist3
    rcases (len_nonneg (Q - Q')).eq_or_lt with h5 | h5
    · rw [← h5]; exact len_nonneg _
    · exact le_of_mul_le_mul_right h4 h5
  · have h3 := k3' Q k2
    have h4 := dist3_triangle P' P Q
    have h5 : dist3 P' P = dist3 P P' := by
      unfold dist3 len
      congr 1
      simp only [sq, Vec3.dot, Vec3.sub_x, Vec3.sub_y, Vec3.sub_z]; ring
    linarith
  · have h3 := k3 Q' k2'
    have h4 := dist3_triangle P P' Q'
    linarith

/-- The hypotheses can be met, by two points beyond different edges. -/
example : ∃ Q Q', IsV (closestPointOnTriangle (rvec 0 0 0) (rvec 4 0 0) (rvec 0 4 0) (rvec 1 (-2) 5) : Vec3 (XF exactFmt)) Q ∧
    IsV (closestPointOnTriangle (rvec 0 0 0) (rvec 4 0 0) (rvec 0 4 0) (rvec 3 3 5) : Vec3 (XF exactFmt)) Q' ∧
    dist3 Q Q' ≤ dist3 ⟨1, -2, 5⟩ ⟨3, 3, 5⟩ ∧ |dist3 ⟨1, -2, 5⟩ Q - dist3 ⟨3, 3, 5⟩ Q'| ≤ dist3 ⟨1, -2, 5⟩ ⟨3, 3, 5⟩ :=
  C121_lipschitz exactFmt_exact (rvec_is _ _ _) (rvec_is _ _ _) (rvec_is _ _ _) (rvec_is _ _ _) (rvec_is _ _ _) (fun h => by
    have := congrArg Vec3.z h
    norm_num [triPerp, Vec3.cross] at this)

end Blazert
