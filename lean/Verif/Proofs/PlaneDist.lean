/- Rounding errors of the distance to a rectangle. -/
import Verif.Proofs.PlaneRound

set_option autoImplicit false
set_option linter.unusedSectionVars false

namespace Blazert
open Scalar

section
variable {K : Type} [Field K] [LinearOrder K] [IsStrictOrderedRing K] [FloorRing K] {F : Fmt K} {u η hi L ε : K}

/-- what is computed for the coordinates of a point in the system of the rectangle -/
theorem plane_coords (hF : F.Rounds u η hi) (hs : Scale u η hi L) {pt cen : Vec3 (XF F)} {rot : Mat3 (XF F)}
    {p c v : Vec3 K} {R : Mat3 K} (hp : IsV pt p) (hc : IsV cen c) (hR : IsM rot R)
    (hortho : NearOrtho ε R) (hε : ε ≤ 1 / 1000) (hL : |p.x - c.x| + |p.y - c.y| + |p.z - c.z| ≤ L)
    (hv : p = c + R.mulVec v) :
    ∃ q, IsV (rot.trans.mulVec (pt - cen)) q ∧ |q.x - v.x| ≤ 6 * (u * L) + 4 * (ε * L) ∧
      |q.y - v.y| ≤ 6 * (u * L) + 4 * (ε * L) ∧ |q.z - v.z| ≤ 6 * (u * L) + 4 * (ε * L) ∧ |q.z| ≤ 101 / 100 * L := by
  obtain ⟨u0, u1, η0, ηu, ηL, ηLL, ηuLL, ηuL, L0, uL0, uLL0, uL1, uLL1, hi1, hiL, hiLL⟩ := hs.sizes
  have ε0 := hortho.rows.nonneg
  have hRt := hR.transpose
  obtain ⟨w, w1, w2⟩ := rnd_subv hF hs hp hc hL
  obtain ⟨x, x1, x2, x3, -⟩ := local_org hF hs hRt.1 w1 hortho.cols.aa hε w2
  obtain ⟨y, y1, y2, y3, -⟩ := local_org hF hs hRt.2.1 w1 hortho.cols.bb hε w2
  obtain ⟨z, z1, z2, z3, z4⟩ := local_org hF hs hRt.2.2 w1 hortho.cols.cc hε w2
  have e : p - c = R.mulVec v := by rw [hv]; ext <;> simp
  have b0 : |Vec3.dot R.trans.r0 (p - c) - v.x| ≤ ε * oneNorm v := by rw [e]; exact NearOrtho.back (R := R.trans) ⟨hortho.2, hortho.1⟩ v 0
  have b1 : |Vec3.dot R.trans.r1 (p - c) - v.y| ≤ ε * oneNorm v := by rw [e]; exact NearOrtho.back (R := R.trans) ⟨hortho.2, hortho.1⟩ v 1
  have b2 : |Vec3.dot R.trans.r2 (p - c) - v.z| ≤ ε * oneNorm v := by rw [e]; exact NearOrtho.back (R := R.trans) ⟨hortho.2, hortho.1⟩ v 2
  have n0 := oneNorm_nonneg' v
  have n1 : ε * oneNorm v ≤ 1 / 1000 * oneNorm v := mul_le_mul_of_nonneg_right hε n0
  have n2 : oneNorm v ≤ 4 * L := by
    have a0 := abs_near_trans ((abs_sub_comm _ _).le.trans b0) (le_refl |Vec3.dot R.trans.r0 (p - c) - 0|)
    have a1 := abs_near_trans ((abs_sub_comm _ _).le.trans b1) (le_refl |Vec3.dot R.trans.r1 (p - c) - 0|)
    have a2 := abs_near_trans ((abs_sub_comm _ _).le.trans b2) (le_refl |Vec3.dot R.trans.r2 (p - c) - 0|)
    simp only [sub_zero] at a0 a1 a2
    have e' : oneNorm v = |v.x| + |v.y| + |v.z| := rfl
    linarith
  have n3 : ε * oneNorm v ≤ 4 * (ε * L) := by
    have := mul_le_mul_of_nonneg_left n2 ε0
    linarith
  have c0 := abs_near_trans x2 b0
  have c1 := abs_near_trans y2 b1
  have c2 := abs_near_trans z2 b2
  exact ⟨⟨x, y, z⟩, ⟨x1, y1, z1⟩, by dsimp only; linarith, by dsimp only; linarith, by dsimp only; linarith, z4⟩

/-- the edges, for a rectangle centered on the axis -/
theorem plane_edges (hF : F.Rounds u η hi) (hs : Scale u η hi L) {x z : XF F} {a : K} (hx : x.Is a) (hz : z.Is 0) (ha : |a| ≤ L) :
    ∃ lo up, (z - x / nat 2).Is lo ∧ (z + x / nat 2).Is up ∧ |lo - -(a / 2)| ≤ 2 * (u * L) ∧ |up - a / 2| ≤ 2 * (u * L) := by
  obtain ⟨u0, u1, η0, ηu, ηL, ηLL, ηuLL, ηuL, L0, uL0, uLL0, uL1, uLL1, hi1, hiL, hiLL⟩ := hs.sizes
  have ha2 : |a / 2| ≤ L / 2 := by rw [abs_div, abs_two]; linarith
  obtain ⟨h, h1, h3, -⟩ := rnd_div hF.toGradual u0.le hx hF.nat2 two_ne_zero ha2 (by linarith)
  have h4 := abs_le_of_near h3 ha2
  have h5 : |h| ≤ L := by linarith
  obtain ⟨lo, l1, l2, -⟩ := rnd_sub hF.toGradual u0.le hz h1 (A := L) (by rw [zero_sub, abs_neg]; exact h5) (by linarith)
  obtain ⟨up, p1, p2, -⟩ := rnd_add hF.toGradual u0.le hz h1 (A := L) (by rw [zero_add]; exact h5) (by linarith)
  refine ⟨lo, up, l1, p1, ?_, ?_⟩
  · have : |(0 - h) - -(a / 2)| ≤ u * (L / 2) + η := by
      rw [show (0 - h) - -(a / 2) = -(h - a / 2) by ring, abs_neg]; exact h3
    have := abs_near_trans l2 this
    linarith
  · rw [zero_add] at p2
    have := abs_near_trans p2 h3
    linarith

/-- in between, or not -/
theorem edges_in {u L M a q x lo up : K} (h1 : |lo - -(a / 2)| ≤ 2 * (u * L)) (h2 : |up - a / 2| ≤ 2 * (u * L)) (hq : |q - x| ≤ M)
    (hx : |x| ≤ a / 2 - (2 * (u * L) + M)) : lo ≤ q ∧ q ≤ up := by
  obtain ⟨a1, a2⟩ := abs_le.1 h1
  obtain ⟨b1, b2⟩ := abs_le.1 h2
  obtain ⟨c1, c2⟩ := abs_le.1 hq
  obtain ⟨d1, d2⟩ := abs_le.1 hx
  constructor <;> linarith

theorem edges_out {u L M a q x lo up : K} (h1 : |lo - -(a / 2)| ≤ 2 * (u * L)) (h2 : |up - a / 2| ≤ 2 * (u * L)) (hq : |q - x| ≤ M)
    (hx : a / 2 + (2 * (u * L) + M) < |x|) : ¬(lo ≤ q ∧ q ≤ up) := by
  obtain ⟨a1, a2⟩ := abs_le.1 h1
  obtain ⟨b1, b2⟩ := abs_le.1 h2
  obtain ⟨c1, c2⟩ := abs_le.1 hq
  rintro ⟨d1, d2⟩
  rcases lt_abs.1 hx with h | h <;> linarith

end
end Blazert
