/- C42, C43: distances to triangles. -/
import Verif.Proofs.ClosestPoint
import Verif.Spec.Hits
import Verif.Samples
import Verif.SamplesReal

set_option autoImplicit false

namespace Blazert
open Scalar

variable {F : Fmt ℝ}

/-- **C42**.  For every non-degenerate triangle and every point `P`, the point computed is a point of the triangle, and no point
of the triangle is closer to `P`. -/
theorem C42_closest_point (hF : F.Exact) {v0 v1 v2 p : Vec3 (XF F)} {A B C P : Vec3 ℝ} (h0 : IsV v0 A) (h1 : IsV v1 B)
    (h2 : IsV v2 C) (hp : IsV p P) (hnd : triPerp A B C ≠ ⟨0, 0, 0⟩) :
    ∃ Q, IsV (closestPointOnTriangle v0 v1 v2 p) Q ∧ InTriangle A B C Q ∧
      ∀ R, InTriangle A B C R → dist3 P Q ≤ dist3 P R := by
  have hdet : Vec3.dot (B - A) (B - A) * Vec3.dot (C - A) (C - A) - Vec3.dot (B - A) (C - A) * Vec3.dot (B - A) (C - A) =
      sq (triPerp A B C) := by
    simp only [sq, triPerp, Vec3.cross, Vec3.dot, Vec3.sub_x, Vec3.sub_y, Vec3.sub_z]; ring
  have hpos : 0 < sq (triPerp A B C) := lt_of_le_of_ne (sq_nonneg' _) fun h => hnd (sq_eq_zero.1 h.symm)
  have ha : 0 < Vec3.dot (B - A) (B - A) := by
    refine lt_of_le_of_ne (sq_nonneg' (B - A)) fun h => ?_
    rw [← h] at hdet
    nlinarith [mul_self_nonneg (Vec3.dot (B - A) (C - A))]
  have hc : 0 < Vec3.dot (C - A) (C - A) := by
    refine lt_of_le_of_ne (sq_nonneg' (C - A)) fun h => ?_
    rw [← h] at hdet
    nlinarith [mul_self_nonneg (Vec3.dot (B - A) (C - A))]
  have hdet' := hpos
  rw [← hdet] at hdet'
  have i0 := h1.sub hF h0
  have i1 := h2.sub hF h0
  have iD := h0.sub hF hp
  obtain ⟨s, t, hs, ht, hopt⟩ := closestST_optimal hF (i0.dot hF i0) (i0.dot hF i1) (i1.dot hF i1) (i0.dot hF iD) (i1.dot hF iD)
    ha hc hdet'
  have hQ := (h0.add hF (.smul hF hs i0)).add hF (.smul hF ht i1)
  have hbary : ∀ s t : ℝ, A + Vec3.smul s (B - A) + Vec3.smul t (C - A) = bary A B C s t := by
    intro s t
    ext <;> simp only [bary, Vec3.add_x, Vec3.add_y, Vec3.add_z, Vec3.smul_x, Vec3.smul_y, Vec3.smul_z, Vec3.sub_x, Vec3.sub_y,
      Vec3.sub_z] <;> ring
  rw [hbary] at hQ
  refine ⟨_, hQ, ⟨s, t, hopt.1, hopt.2.1, hopt.2.2.1, rfl⟩, ?_⟩
  rintro R ⟨s', t', k1, k2, k3, rfl⟩
  have hle := hopt.le ha hdet' k1 k2 k3
  have hsq : ∀ s t : ℝ, sq (P - bary A B C s t) = Vec3.dot (B - A) (B - A) * s * s + 2 * Vec3.dot (B - A) (C - A) * s * t +
      Vec3.dot (C - A) (C - A) * t * t + 2 * Vec3.dot (B - A) (A - P) * s + 2 * Vec3.dot (C - A) (A - P) * t + sq (A - P) := by
    intro s t
    simp only [sq, bary, Vec3.dot, Vec3.add_x, Vec3.add_y, Vec3.add_z, Vec3.smul_x, Vec3.smul_y, Vec3.smul_z, Vec3.sub_x, Vec3.sub_y,
      Vec3.sub_z]
    ring
  unfold dist3 len
  apply Real.sqrt_le_sqrt
  rw [hsq, hsq]
  linarith

/-- a triangle and a point to which the theorem applies -/
example : IsV (rvec 0 0 0 : Vec3 (XF exactFmt)) ⟨0, 0, 0⟩ ∧ IsV (rvec 1 0 0 : Vec3 (XF exactFmt)) ⟨1, 0, 0⟩ ∧
    IsV (rvec 0 1 0 : Vec3 (XF exactFmt)) ⟨0, 1, 0⟩ ∧ IsV (rvec 3 4 5 : Vec3 (XF exactFmt)) ⟨3, 4, 5⟩ ∧
    triPerp ⟨0, 0, 0⟩ ⟨1, 0, 0⟩ ⟨0, 1, 0⟩ ≠ ⟨0, 0, 0⟩ := by
  refine ⟨rvec_is _ _ _, rvec_is _ _ _, rvec_is _ _ _, rvec_is _ _ _, fun h => ?_⟩
  have := congrArg Vec3.z h
  norm_num [triPerp, Vec3.cross] at this

/-- Degenerate triangles are excluded for a reason (double arithmetic): the result is NaN for the point of a degenerate
triangle itself. -/
theorem C42_degenerate_nan : closestPointOnTriangle (dvec 0 0 0) (dvec 1 0 0) (dvec 2 0 0) (dvec 1 0 0) = ⟨.nan, .nan, .nan⟩ := by
  decide +kernel

/-! ### C43 -/

/-- **C43 is false**: `distance_to_surface(triangle, point)` forms a wrong third vertex.  (It also returns the point instead of the
distance; the C++ function can therefore not be instantiated.)  In double arithmetic, for the triangle `(0,0,0)`, `(1,0,0)`,
`(0,1,0)` and its own vertex `(1,0,0)`, the "closest point" is `(0,0,0)`. -/
theorem C43_wrong_point : triDistanceVec (Triangle.make (dvec 0 0 0) (dvec 1 0 0) (dvec 0 1 0) 0) (dvec 1 0 0) = dvec 0 0 0 := by
  decide +kernel

/-- What the function computes: the point closest to `P` of the triangle `A`, `C`, `-B`. -/
theorem C43_computes_other_triangle (hF : F.Exact) {a b c p : Vec3 (XF F)} {A B C P : Vec3 ℝ} (ha : IsV a A) (hb : IsV b B)
    (hc : IsV c C) (hp : IsV p P) (i : Nat) (hnd : triPerp A C (-B) ≠ ⟨0, 0, 0⟩) :
    ∃ Q, IsV (triDistanceVec (Triangle.make a b c i) p) Q ∧ InTriangle A C (-B) Q ∧
      ∀ R, InTriangle A C (-B) R → dist3 P Q ≤ dist3 P R := by
  have h1 : IsV (c - a + a) C := by
    have := (hc.sub hF ha).add hF ha
    have e : C - A + A = C := by ext <;> simp
    rwa [e] at this
  have h2 : IsV (a - b - a) (-B) := by
    have := (ha.sub hF hb).sub hF ha
    have e : A - B - A = -B := by ext <;> simp
    rwa [e] at this
  exact C42_closest_point hF ha h1 h2 hp hnd

/-- **C43**, what remains: if the second vertex of the face is the origin, the point computed is the point of the face closest to
`P`.  Missing from the full claim: all other faces (false), and the distance itself. -/
theorem C43_second_vertex_origin_partial (hF : F.Exact) {a b c p : Vec3 (XF F)} {A C P : Vec3 ℝ} (ha : IsV a A)
    (hb : IsV b ⟨0, 0, 0⟩) (hc : IsV c C) (hp : IsV p P) (i : Nat) (hnd : triPerp A ⟨0, 0, 0⟩ C ≠ ⟨0, 0, 0⟩) :
    ∃ Q, IsV (triDistanceVec (Triangle.make a b c i) p) Q ∧ InTriangle A ⟨0, 0, 0⟩ C Q ∧
      ∀ R, InTriangle A ⟨0, 0, 0⟩ C R → dist3 P Q ≤ dist3 P R := by
  have hneg : -(⟨0, 0, 0⟩ : Vec3 ℝ) = ⟨0, 0, 0⟩ := by ext <;> simp
  have hswap : ∀ R, InTriangle A C ⟨0, 0, 0⟩ R ↔ InTriangle A ⟨0, 0, 0⟩ C R := by
    intro R
    have e : ∀ u v : ℝ, bary A C ⟨0, 0, 0⟩ u v = bary A ⟨0, 0, 0⟩ C v u := by
      intro u v
      ext <;> simp only [bary, Vec3.add_x, Vec3.add_y, Vec3.add_z, Vec3.smul_x, Vec3.smul_y, Vec3.smul_z] <;> ring
    constructor
    · rintro ⟨u, v, h1, h2, h3, rfl⟩
      exact ⟨v, u, h2, h1, by linarith, e u v⟩
    · rintro ⟨u, v, h1, h2, h3, rfl⟩
      exact ⟨v, u, h2, h1, by linarith, (e v u).symm⟩
  obtain ⟨Q, h1, h2, h3⟩ := C43_computes_other_triangle hF ha hb hc hp i (by
    rw [hneg]
    intro h
    apply hnd
    have hx := congrArg Vec3.x h
    have hy := congrArg Vec3.y h
    have hz := congrArg Vec3.z h
    simp only [triPerp, Vec3.cross, Vec3.sub_x, Vec3.sub_y, Vec3.sub_z] at hx hy hz
    ext <;> simp only [triPerp, Vec3.cross, Vec3.sub_x, Vec3.sub_y, Vec3.sub_z] <;> linarith)
  rw [hneg] at h2 h3
  exact ⟨Q, h1, (hswap Q).1 h2, fun R hR => h3 R ((hswap R).2 hR)⟩

/-- a face to which it applies -/
example : IsV (rvec 1 0 0 : Vec3 (XF exactFmt)) ⟨1, 0, 0⟩ ∧ IsV (rvec 0 0 0 : Vec3 (XF exactFmt)) ⟨0, 0, 0⟩ ∧
    IsV (rvec 0 1 0 : Vec3 (XF exactFmt)) ⟨0, 1, 0⟩ ∧ triPerp ⟨1, 0, 0⟩ ⟨0, 0, 0⟩ ⟨0, 1, 0⟩ ≠ ⟨0, 0, 0⟩ := by
  refine ⟨rvec_is _ _ _, rvec_is _ _ _, rvec_is _ _ _, fun h => ?_⟩
  have := congrArg Vec3.z h
  norm_num [triPerp, Vec3.cross] at this

end Blazert
