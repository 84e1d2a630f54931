/- C118: the point computed on a triangle is near the closest one, with rounding. -/
import Verif.Props.ClosestBest
import Verif.Proofs.ClosestUnique

set_option autoImplicit false

namespace Blazert
open Scalar

/-- **C118**.  For every triangle which is clearly not degenerate and every point `P`, all arithmetic rounded: the point computed is within
`80 u L` of a point `Y` of the triangle, and the square of the distance from `Y` to the point of the triangle closest to `P` is at most
`5200 u L⁶ / |n|² + 400 u L²`, `n` being the vector perpendicular to the triangle, of twice its area. -/
theorem C118_near_closest {K : Type} [Field K] [LinearOrder K] [IsStrictOrderedRing K] [FloorRing K] {F : Fmt K} (u η hi : K)
    (hF : F.Rounds u η hi) (hodd : F.Odd) (L : K) (hs : Scale4 u η hi L) (v0 v1 v2 p : Vec3 (XF F)) (A B C P : Vec3 K)
    (h0 : IsV v0 A) (h1 : IsV v1 B) (h2 : IsV v2 C) (hp : IsV p P) (hBC : oneNorm (B - A) + oneNorm (C - A) ≤ L)
    (hP : oneNorm (A - P) ≤ L) (hA : oneNorm A ≤ L) (hnd : 100 * u * L ^ 4 ≤ Vec3.dot (normalOf A B C) (normalOf A B C)) :
    ∃ Q Y, IsV (closestPointOnTriangle v0 v1 v2 p) Q ∧ InTriangle A B C Y ∧ (∀ k, |Q.get k - Y.get k| ≤ 80 * u * L) ∧
      ∀ R, ClosestIn A B C P R →
        Vec3.dot (Y - R) (Y - R) ≤ 5200 * u * L ^ 6 / Vec3.dot (normalOf A B C) (normalOf A B C) + 400 * u * L ^ 2 := by
  obtain ⟨Q, Y, h3, h4, h5⟩ := C109_closest_on_triangle u η hi hF hodd L hs v0 v1 v2 p A B C P h0 h1 h2 hp hBC hP hA hnd
  obtain ⟨Q', h3', h6⟩ := C110_closest_best u η hi hF hodd L hs v0 v1 v2 p A B C P h0 h1 h2 hp hBC hP hA hnd
  obtain rfl := h3'.unique h3
  refine ⟨Q', Y, h3, h4, h5, fun R hR => ?_⟩
  have h7 := near_sq hs.lin hBC hP h4 h5
  have h8 := h6 R hR.1
  have h9 := hR.apart h4
  rw [mul_assoc 400]
  linarith

/-- **C118** for `double`. -/
theorem C118_double (L : ℚ) (hL1 : 1 / 2 ^ 200 ≤ L) (hL2 : L ≤ 2 ^ 200) (v0 v1 v2 p : Vec3 Double) (A B C P : Vec3 ℚ)
    (h0 : IsV v0 A) (h1 : IsV v1 B) (h2 : IsV v2 C) (hp : IsV p P) (hBC : oneNorm (B - A) + oneNorm (C - A) ≤ L)
    (hP : oneNorm (A - P) ≤ L) (hA : oneNorm A ≤ L) (hnd : 100 * (1 / 2 ^ 53) * L ^ 4 ≤ Vec3.dot (normalOf A B C) (normalOf A B C)) :
    ∃ Q Y, IsV (closestPointOnTriangle v0 v1 v2 p) Q ∧ InTriangle A B C Y ∧ (∀ k, |Q.get k - Y.get k| ≤ 80 * (1 / 2 ^ 53) * L) ∧
      ∀ R, ClosestIn A B C P R →
        Vec3.dot (Y - R) (Y - R) ≤ 5200 * (1 / 2 ^ 53) * L ^ 6 / Vec3.dot (normalOf A B C) (normalOf A B C) + 400 * (1 / 2 ^ 53) * L ^ 2 :=
  C118_near_closest _ _ _ rounds_double Format.binary64_odd L (scale4_double hL1 hL2) v0 v1 v2 p A B C P h0 h1 h2 hp hBC hP hA hnd

/-- **C118** for `float`. -/
theorem C118_float (L : ℚ) (hL1 : 1 / 2 ^ 24 ≤ L) (hL2 : L ≤ 2 ^ 25) (v0 v1 v2 p : Vec3 Single) (A B C P : Vec3 ℚ)
    (h0 : IsV v0 A) (h1 : IsV v1 B) (h2 : IsV v2 C) (hp : IsV p P) (hBC : oneNorm (B - A) + oneNorm (C - A) ≤ L)
    (hP : oneNorm (A - P) ≤ L) (hA : oneNorm A ≤ L) (hnd : 100 * (1 / 2 ^ 24) * L ^ 4 ≤ Vec3.dot (normalOf A B C) (normalOf A B C)) :
    ∃ Q Y, IsV (closestPointOnTriangle v0 v1 v2 p) Q ∧ InTriangle A B C Y ∧ (∀ k, |Q.get k - Y.get k| ≤ 80 * (1 / 2 ^ 24) * L) ∧
      ∀ R, ClosestIn A B C P R →
        Vec3.dot (Y - R) (Y - R) ≤ 5200 * (1 / 2 ^ 24) * L ^ 6 / Vec3.dot (normalOf A B C) (normalOf A B C) + 400 * (1 / 2 ^ 24) * L ^ 2 :=
  C118_near_closest _ _ _ rounds_float Format.binary32_odd L (scale4_float hL1 hL2) v0 v1 v2 p A B C P h0 h1 h2 hp hBC hP hA hnd

/-- The point below `(6, 5, 3)` in a triangle is the closest one, and the point computed is near it. -/
example : ClosestIn (⟨0, 0, 0⟩ : Vec3 ℚ) ⟨7, 0, 0⟩ ⟨7, 6, 0⟩ ⟨6, 5, 3⟩ ⟨6, 5, 0⟩ ∧
    ∃ Q Y : Vec3 ℚ, IsV (closestPointOnTriangle (dvec 0 0 0) (dvec 7 0 0) (dvec 7 6 0) (dvec 6 5 3)) Q ∧
      (∀ k, |Q.get k - Y.get k| ≤ 80 * (1 / 2 ^ 53) * 20) ∧ Vec3.dot (Y - ⟨6, 5, 0⟩) (Y - ⟨6, 5, 0⟩) ≤ 1 / 10 ^ 6 := by
  have hc : ClosestIn (⟨0, 0, 0⟩ : Vec3 ℚ) ⟨7, 0, 0⟩ ⟨7, 6, 0⟩ ⟨6, 5, 3⟩ ⟨6, 5, 0⟩ := by
    refine ⟨⟨6 / 7 - 5 / 6, 5 / 6, by norm_num, by norm_num, by norm_num, by ext <;> decide +kernel⟩, ?_⟩
    rintro S ⟨s, t, -, -, -, rfl⟩
    simp only [bary, Vec3.dot, Vec3.add_x, Vec3.add_y, Vec3.add_z, Vec3.sub_x, Vec3.sub_y, Vec3.sub_z, Vec3.smul_x, Vec3.smul_y, Vec3.smul_z]
    nlinarith [sq_nonneg (6 - (s * 7 + t * 7)), sq_nonneg (5 - t * 6)]
  obtain ⟨Q, Y, h1, -, h2, h3⟩ := C118_double 20 (by decide +kernel) (by decide +kernel) (dvec 0 0 0) (dvec 7 0 0) (dvec 7 6 0) (dvec 6 5 3) ⟨0, 0, 0⟩
    ⟨7, 0, 0⟩ ⟨7, 6, 0⟩ ⟨6, 5, 3⟩
    (dvec_is (sx := false) (sy := false) (sz := false) (by decide +kernel))
    (dvec_is (sx := false) (sy := false) (sz := false) (by decide +kernel))
    (dvec_is (sx := false) (sy := false) (sz := false) (by decide +kernel))
    (dvec_is (sx := false) (sy := false) (sz := false) (by decide +kernel))
    (by decide +kernel) (by decide +kernel) (by decide +kernel) (by decide +kernel)
  exact ⟨hc, Q, Y, h1, h2, (h3 _ hc).trans (by decide +kernel)⟩

end Blazert
