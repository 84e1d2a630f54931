/- C110: the point computed on a triangle is nearly the closest one, with rounding. -/
import Verif.Proofs.ClosestBest
import Verif.Props.ClosestRound

set_option autoImplicit false

namespace Blazert
open Scalar

/-- **C110**.  For every triangle which is clearly not degenerate and every point `P`, all arithmetic rounded: no point of the triangle is
closer to `P` than the point computed, up to `5200 u L⁶ / |n|²` in the squares of the distances, `n` being the vector perpendicular to the
triangle, of twice its area. -/
theorem C110_closest_best {K : Type} [Field K] [LinearOrder K] [IsStrictOrderedRing K] [FloorRing K] {F : Fmt K} (u η hi : K)
    (hF : F.Rounds u η hi) (hodd : F.Odd) (L : K) (hs : Scale4 u η hi L) (v0 v1 v2 p : Vec3 (XF F)) (A B C P : Vec3 K)
    (h0 : IsV v0 A) (h1 : IsV v1 B) (h2 : IsV v2 C) (hp : IsV p P) (hBC : oneNorm (B - A) + oneNorm (C - A) ≤ L)
    (hP : oneNorm (A - P) ≤ L) (hA : oneNorm A ≤ L) (hnd : 100 * u * L ^ 4 ≤ Vec3.dot (normalOf A B C) (normalOf A B C)) :
    ∃ Q, IsV (closestPointOnTriangle v0 v1 v2 p) Q ∧ ∀ R, InTriangle A B C R →
      Vec3.dot (P - Q) (P - Q) ≤ Vec3.dot (P - R) (P - R) + 5200 * u * L ^ 6 / Vec3.dot (normalOf A B C) (normalOf A B C) := by
  have uL := mul_pos hs.lin.u_pos (pow_pos hs.lin.pos 4)
  obtain ⟨Q, h3, h4⟩ := closestPoint_best hF hodd hs h0 h1 h2 hp hBC hP hA (by rwa [← mul_assoc])
  refine ⟨Q, h3, fun R hR => ?_⟩
  have h5 := h4 R hR
  have G0 : 0 < Vec3.dot (normalOf A B C) (normalOf A B C) := by linarith
  rw [mul_comm, ← le_div_iff₀ G0, ← mul_assoc] at h5
  linarith

/-- **C110** for `double`. -/
theorem C110_double (L : ℚ) (hL1 : 1 / 2 ^ 200 ≤ L) (hL2 : L ≤ 2 ^ 200) (v0 v1 v2 p : Vec3 Double) (A B C P : Vec3 ℚ)
    (h0 : IsV v0 A) (h1 : IsV v1 B) (h2 : IsV v2 C) (hp : IsV p P) (hBC : oneNorm (B - A) + oneNorm (C - A) ≤ L)
    (hP : oneNorm (A - P) ≤ L) (hA : oneNorm A ≤ L) (hnd : 100 * (1 / 2 ^ 53) * L ^ 4 ≤ Vec3.dot (normalOf A B C) (normalOf A B C)) :
    ∃ Q, IsV (closestPointOnTriangle v0 v1 v2 p) Q ∧ ∀ R, InTriangle A B C R →
      Vec3.dot (P - Q) (P - Q) ≤ Vec3.dot (P - R) (P - R) + 5200 * (1 / 2 ^ 53) * L ^ 6 / Vec3.dot (normalOf A B C) (normalOf A B C) :=
  C110_closest_best _ _ _ rounds_double Format.binary64_odd L (scale4_double hL1 hL2) v0 v1 v2 p A B C P h0 h1 h2 hp hBC hP hA hnd

/-- **C110** for `float`. -/
theorem C110_float (L : ℚ) (hL1 : 1 / 2 ^ 24 ≤ L) (hL2 : L ≤ 2 ^ 25) (v0 v1 v2 p : Vec3 Single) (A B C P : Vec3 ℚ)
    (h0 : IsV v0 A) (h1 : IsV v1 B) (h2 : IsV v2 C) (hp : IsV p P) (hBC : oneNorm (B - A) + oneNorm (C - A) ≤ L)
    (hP : oneNorm (A - P) ≤ L) (hA : oneNorm A ≤ L) (hnd : 100 * (1 / 2 ^ 24) * L ^ 4 ≤ Vec3.dot (normalOf A B C) (normalOf A B C)) :
    ∃ Q, IsV (closestPointOnTriangle v0 v1 v2 p) Q ∧ ∀ R, InTriangle A B C R →
      Vec3.dot (P - Q) (P - Q) ≤ Vec3.dot (P - R) (P - R) + 5200 * (1 / 2 ^ 24) * L ^ 6 / Vec3.dot (normalOf A B C) (normalOf A B C) :=
  C110_closest_best _ _ _ rounds_float Format.binary32_odd L (scale4_float hL1 hL2) v0 v1 v2 p A B C P h0 h1 h2 hp hBC hP hA hnd

/-- The point below `(6, 5, 3)`, at distance 3, in a triangle: the square of the distance computed is at most `9 + 10^-6`. -/
example : ∃ Q, IsV (closestPointOnTriangle (dvec 0 0 0) (dvec 7 0 0) (dvec 7 6 0) (dvec 6 5 3)) Q ∧
    Vec3.dot (⟨6, 5, 3⟩ - Q) (⟨6, 5, 3⟩ - Q) ≤ 9 + 1 / 10 ^ 6 := by
  obtain ⟨Q, h1, h2⟩ := C110_double 20 (by decide +kernel) (by decide +kernel) (dvec 0 0 0) (dvec 7 0 0) (dvec 7 6 0) (dvec 6 5 3) ⟨0, 0, 0⟩
    ⟨7, 0, 0⟩ ⟨7, 6, 0⟩ ⟨6, 5, 3⟩
    (dvec_is (sx := false) (sy := false) (sz := false) (by decide +kernel))
    (dvec_is (sx := false) (sy := false) (sz := false) (by decide +kernel))
    (dvec_is (sx := false) (sy := false) (sz := false) (by decide +kernel))
    (dvec_is (sx := false) (sy := false) (sz := false) (by decide +kernel))
    (by decide +kernel) (by decide +kernel) (by decide +kernel) (by decide +kernel)
  exact ⟨Q, h1, (h2 ⟨6, 5, 0⟩ ⟨1 / 42, 5 / 6, by decide +kernel, by decide +kernel, by decide +kernel, by decide +kernel⟩).trans (by decide +kernel)⟩

end Blazert
