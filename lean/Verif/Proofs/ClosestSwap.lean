/- Two points of a triangle that are both nearly closest. -/
import Verif.Proofs.ClosestUnique

set_option autoImplicit false

namespace Blazert

variable {K : Type} [Field K] [LinearOrder K] [IsStrictOrderedRing K]

/-- two points that are both nearly closest are near each other -/
theorem both_near {A B C P Y Y' : Vec3 K} {E : K} (hY : InTriangle A B C Y) (hY' : InTriangle A B C Y')
    (h : ∀ S, InTriangle A B C S → Vec3.dot (P - Y) (P - Y) ≤ Vec3.dot (P - S) (P - S) + E)
    (h' : ∀ S, InTriangle A B C S → Vec3.dot (P - Y') (P - Y') ≤ Vec3.dot (P - S) (P - S) + E) :
    Vec3.dot (Y - Y') (Y - Y') ≤ 4 * E := by
  have hm := hY.segment hY' (t := 1 / 2) (by norm_num) (by norm_num)
  have h1 := h _ hm
  have h2 := h' _ hm
  have e : Vec3.dot (P - (Y + Vec3.smul (1 / 2) (Y' - Y))) (P - (Y + Vec3.smul (1 / 2) (Y' - Y))) =
      (Vec3.dot (P - Y) (P - Y) + Vec3.dot (P - Y') (P - Y')) / 2 - Vec3.dot (Y - Y') (Y - Y') / 4 := by
    simp only [Vec3.dot, Vec3.add_x, Vec3.add_y, Vec3.add_z, Vec3.sub_x, Vec3.sub_y, Vec3.sub_z, Vec3.smul_x, Vec3.smul_y, Vec3.smul_z]; ring
  rw [e] at h1 h2
  linarith

theorem InTriangle.swap {A B C S : Vec3 K} (h : InTriangle A B C S) : InTriangle A C B S := by
  obtain ⟨u, v, h1, h2, h3, rfl⟩ := h
  refine ⟨v, u, h2, h1, by linarith, ?_⟩
  ext <;> simp only [bary, Vec3.add_x, Vec3.add_y, Vec3.add_z, Vec3.smul_x, Vec3.smul_y, Vec3.smul_z] <;> ring

theorem normal_swap (A B C : Vec3 K) :
    Vec3.dot (normalOf A C B) (normalOf A C B) = Vec3.dot (normalOf A B C) (normalOf A B C) := by
  simp only [normalOf, Vec3.cross, Vec3.dot, Vec3.sub_x, Vec3.sub_y, Vec3.sub_z]; ring

end Blazert
