/- C109: the closest point on a triangle, with rounding. -/
import Verif.Proofs.ClosestRound
import Verif.Props.TriRound

set_option autoImplicit false

namespace Blazert
open Scalar

/-- **C109**.  For every triangle which is clearly not degenerate and every point, all arithmetic rounded: the result is finite, and it is
within `80 u L` of a point of the triangle. -/
theorem C109_closest_on_triangle {K : Type} [Field K] [LinearOrder K] [IsStrictOrderedRing K] [FloorRing K] {F : Fmt K} (u η hi : K)
    (hF : F.Rounds u η hi) (hodd : F.Odd) (L : K) (hs : Scale4 u η hi L) (v0 v1 v2 p : Vec3 (XF F)) (A B C P : Vec3 K)
    (h0 : IsV v0 A) (h1 : IsV v1 B) (h2 : IsV v2 C) (hp : IsV p P) (hBC : oneNorm (B - A) + oneNorm (C - A) ≤ L)
    (hP : oneNorm (A - P) ≤ L) (hA : oneNorm A ≤ L) (hnd : 100 * u * L ^ 4 ≤ Vec3.dot (normalOf A B C) (normalOf A B C)) :
    ∃ Q Y, IsV (closestPointOnTriangle v0 v1 v2 p) Q ∧ InTriangle A B C Y ∧ ∀ k, |Q.get k - Y.get k| ≤ 80 * u * L := by
  obtain ⟨Q, Y, h3, h4, h5⟩ := closestPoint_near hF hodd hs h0 h1 h2 hp hBC hP hA (by rwa [← mul_assoc])
  exact ⟨Q, Y, h3, h4, fun k => by rw [mul_assoc]; exact h5 k⟩

theorem scale4_double {L : ℚ} (h1 : 1 / 2 ^ 200 ≤ L) (h2 : L ≤ 2 ^ 200) :
    Scale4 (1 / 2 ^ 53) (1 / 2 ^ 1075) ((2 - 1 / 2 ^ 52) * 2 ^ 1023) L := by
  have h0 : (0 : ℚ) < 1 / 2 ^ 200 := by decide +kernel
  have l2 : (1 / 2 ^ 200 : ℚ) ^ 2 ≤ L ^ 2 := pow_le_pow_left₀ h0.le h1 2
  have l4 : (1 / 2 ^ 200 : ℚ) ^ 4 ≤ L ^ 4 := pow_le_pow_left₀ h0.le h1 4
  have g2 : L ^ 2 ≤ (2 ^ 200 : ℚ) ^ 2 := pow_le_pow_left₀ (h0.le.trans h1) h2 2
  have g4 : L ^ 4 ≤ (2 ^ 200 : ℚ) ^ 4 := pow_le_pow_left₀ (h0.le.trans h1) h2 4
  have e1 : ((1 / 2 ^ 1075) : ℚ) * (2 ^ 200) ^ 4 ≤ (1 / 2 ^ 53) ^ 2 := by decide +kernel
  have e2 : (1 : ℚ) ≤ 1 / 2 ^ 53 * (1 / 2 ^ 200) ^ 4 * ((2 - 1 / 2 ^ 52) * 2 ^ 1023) := by decide +kernel
  have e3 : (0 : ℚ) ≤ (2 - 1 / 2 ^ 52) * 2 ^ 1023 := by decide +kernel
  exact ⟨scale_double (le_trans (by decide +kernel) h1) (h2.trans (by decide +kernel)),
    scale_double (le_trans (by decide +kernel) l2) (g2.trans (by decide +kernel)),
    (mul_le_mul_of_nonneg_left g4 (by positivity)).trans e1,
    e2.trans (mul_le_mul_of_nonneg_right (mul_le_mul_of_nonneg_left l4 (by positivity)) e3)⟩

theorem scale4_float {L : ℚ} (h1 : 1 / 2 ^ 24 ≤ L) (h2 : L ≤ 2 ^ 25) :
    Scale4 (1 / 2 ^ 24) (1 / 2 ^ 150) ((2 - 1 / 2 ^ 23) * 2 ^ 127) L := by
  have h0 : (0 : ℚ) < 1 / 2 ^ 24 := by decide +kernel
  have l2 : (1 / 2 ^ 24 : ℚ) ^ 2 ≤ L ^ 2 := pow_le_pow_left₀ h0.le h1 2
  have l4 : (1 / 2 ^ 24 : ℚ) ^ 4 ≤ L ^ 4 := pow_le_pow_left₀ h0.le h1 4
  have g2 : L ^ 2 ≤ (2 ^ 25 : ℚ) ^ 2 := pow_le_pow_left₀ (h0.le.trans h1) h2 2
  have g4 : L ^ 4 ≤ (2 ^ 25 : ℚ) ^ 4 := pow_le_pow_left₀ (h0.le.trans h1) h2 4
  have e1 : ((1 / 2 ^ 150) : ℚ) * (2 ^ 25) ^ 4 ≤ (1 / 2 ^ 24) ^ 2 := by decide +kernel
  have e2 : (1 : ℚ) ≤ 1 / 2 ^ 24 * (1 / 2 ^ 24) ^ 4 * ((2 - 1 / 2 ^ 23) * 2 ^ 127) := by decide +kernel
  have e3 : (0 : ℚ) ≤ (2 - 1 / 2 ^ 23) * 2 ^ 127 := by decide +kernel
  exact ⟨scale_float (le_trans (by decide +kernel) h1) (h2.trans (by decide +kernel)),
    scale_float (le_trans (by decide +kernel) l2) (g2.trans (by decide +kernel)),
    (mul_le_mul_of_nonneg_left g4 (by positivity)).trans e1,
    e2.trans (mul_le_mul_of_nonneg_right (mul_le_mul_of_nonneg_left l4 (by positivity)) e3)⟩

/-- **C109** for `double`. -/
theorem C109_double (L : ℚ) (hL1 : 1 / 2 ^ 200 ≤ L) (hL2 : L ≤ 2 ^ 200) (v0 v1 v2 p : Vec3 Double) (A B C P : Vec3 ℚ)
    (h0 : IsV v0 A) (h1 : IsV v1 B) (h2 : IsV v2 C) (hp : IsV p P) (hBC : oneNorm (B - A) + oneNorm (C - A) ≤ L)
    (hP : oneNorm (A - P) ≤ L) (hA : oneNorm A ≤ L) (hnd : 100 * (1 / 2 ^ 53) * L ^ 4 ≤ Vec3.dot (normalOf A B C) (normalOf A B C)) :
    ∃ Q Y, IsV (closestPointOnTriangle v0 v1 v2 p) Q ∧ InTriangle A B C Y ∧ ∀ k, |Q.get k - Y.get k| ≤ 80 * (1 / 2 ^ 53) * L :=
  C109_closest_on_triangle _ _ _ rounds_double Format.binary64_odd L (scale4_double hL1 hL2) v0 v1 v2 p A B C P h0 h1 h2 hp hBC hP hA hnd

/-- **C109** for `float`. -/
theorem C109_float (L : ℚ) (hL1 : 1 / 2 ^ 24 ≤ L) (hL2 : L ≤ 2 ^ 25) (v0 v1 v2 p : Vec3 Single) (A B C P : Vec3 ℚ)
    (h0 : IsV v0 A) (h1 : IsV v1 B) (h2 : IsV v2 C) (hp : IsV p P) (hBC : oneNorm (B - A) + oneNorm (C - A) ≤ L)
    (hP : oneNorm (A - P) ≤ L) (hA : oneNorm A ≤ L) (hnd : 100 * (1 / 2 ^ 24) * L ^ 4 ≤ Vec3.dot (normalOf A B C) (normalOf A B C)) :
    ∃ Q Y, IsV (closestPointOnTriangle v0 v1 v2 p) Q ∧ InTriangle A B C Y ∧ ∀ k, |Q.get k - Y.get k| ≤ 80 * (1 / 2 ^ 24) * L :=
  C109_closest_on_triangle _ _ _ rounds_float Format.binary32_odd L (scale4_float hL1 hL2) v0 v1 v2 p A B C P h0 h1 h2 hp hBC hP hA hnd

/-- Interior of a triangle whose barycentric coordinates have to be rounded. -/
example : ∃ Q Y, IsV (closestPointOnTriangle (dvec 0 0 0) (dvec 7 0 0) (dvec 7 6 0) (dvec 6 5 3)) Q ∧
    InTriangle (⟨0, 0, 0⟩ : Vec3 ℚ) ⟨7, 0, 0⟩ ⟨7, 6, 0⟩ Y ∧ ∀ k, |Q.get k - Y.get k| ≤ 80 * (1 / 2 ^ 53) * 20 :=
  C109_double 20 (by decide +kernel) (by decide +kernel) _ _ _ _ _ _ _ ⟨6, 5, 3⟩
    (dvec_is (sx := false) (sy := false) (sz := false) (by decide +kernel))
    (dvec_is (sx := false) (sy := false) (sz := false) (by decide +kernel))
    (dvec_is (sx := false) (sy := false) (sz := false) (by decide +kernel))
    (dvec_is (sx := false) (sy := false) (sz := false) (by decide +kernel))
    (by decide +kernel) (by decide +kernel) (by decide +kernel) (by decide +kernel)

/-- It is not computed exactly: the point of the plane below `(6, 5, 3)` is `(6, 5, 0)`. -/
example : ((closestPointOnTriangle (dvec 0 0 0) (dvec 7 0 0) (dvec 7 6 0) (dvec 6 5 3)).x == dbl 6 &&
    (closestPointOnTriangle (dvec 0 0 0) (dvec 7 0 0) (dvec 7 6 0) (dvec 6 5 3)).y == dbl 5) = false := by decide +kernel

end Blazert
