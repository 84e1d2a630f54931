/- C122: exchanging two vertices of a triangle hardly moves the point computed, with rounding. -/
import Verif.Props.ClosestUnique
import Verif.Proofs.ClosestSwap

set_option autoImplicit false

namespace Blazert
open Scalar

/-- **C122**.  For every triangle which is clearly not degenerate and every point, all arithmetic rounded: the points computed for the two
orders `v0 v1 v2` and `v0 v2 v1` of the vertices are, up to `80 u L` in each coordinate, two points `Y` and `Y'`, the square of whose
distance is at most four times the bound of C118. -/
theorem C122_swap {K : Type} [Field K] [LinearOrder K] [IsStrictOrderedRing K] [FloorRing K] {F : Fmt K} (u η hi : K)
    (hF : F.Rounds u η hi) (hodd : F.Odd) (L : K) (hs : Scale4 u η hi L) (v0 v1 v2 p : Vec3 (XF F)) (A B C P : Vec3 K)
    (h0 : IsV v0 A) (h1 : IsV v1 B) (h2 : IsV v2 C) (hp : IsV p P) (hBC : oneNorm (B - A) + oneNorm (C - A) ≤ L)
    (hP : oneNorm (A - P) ≤ L) (hA : oneNorm A ≤ L) (hnd : 100 * u * L ^ 4 ≤ Vec3.dot (normalOf A B C) (normalOf A B C)) :
    ∃ Q Q' Y Y', IsV (closestPointOnTriangle v0 v1 v2 p) Q ∧ IsV (closestPointOnTriangle v0 v2 v1 p) Q' ∧
      (∀ k, |Q.get k - Y.get k| ≤ 80 * u * L) ∧ (∀ k, |Q'.get k - Y'.get k| ≤ 80 * u * L) ∧
      Vec3.dot (Y - Y') (Y - Y') ≤ 4 * (5200 * u * L ^ 6 / Vec3.dot (normalOf A B C) (normalOf A B C) + 400 * u * L ^ 2) := by
  have hBC' : oneNorm (C - A) + oneNorm (B - A) ≤ L := by rw [add_comm]; exact hBC
  have hnd' := hnd
  rw [← normal_swap] at hnd'
  obtain ⟨Q, Y, k1, k2, k3⟩ := C109_closest_on_triangle u η hi hF hodd L hs v0 v1 v2 p A B C P h0 h1 h2 hp hBC hP hA hnd
  obtain ⟨Q', Y', m1, m2, m3⟩ := C109_closest_on_triangle u η hi hF hodd L hs v0 v2 v1 p A C B P h0 h2 h1 hp hBC' hP hA hnd'
  obtain ⟨_, k4, k5⟩ := C110_closest_best u η hi hF hodd L hs v0 v1 v2 p A B C P h0 h1 h2 hp hBC hP hA hnd
  obtain ⟨_, m4, m5⟩ := C110_closest_best u η hi hF hodd L hs v0 v2 v1 p A C B P h0 h2 h1 hp hBC' hP hA hnd'
  obtain rfl := k4.unique k1
  obtain rfl := m4.unique m1
  rw [normal_swap] at m5
  refine ⟨_, _, Y, Y', k1, m1, k3, m3, both_near k2 m2.swap (P := P) (fun S hS => ?_) (fun S hS => ?_)⟩
  · have h3 := near_sq hs.lin hBC hP k2 k3
    have h4 := k5 S hS
    rw [mul_assoc 400]
    linarith
  · have h3 := near_sq hs.lin hBC' hP m2 m3
    have h4 := m5 S hS.swap
    rw [mul_assoc 400]
    linarith

/-- **C122** for `double`. -/
theorem C122_double (L : ℚ) (hL1 : 1 / 2 ^ 200 ≤ L) (hL2 : L ≤ 2 ^ 200) (v0 v1 v2 p : Vec3 Double) (A B C P : Vec3 ℚ)
    (h0 : IsV v0 A) (h1 : IsV v1 B) (h2 : IsV v2 C) (hp : IsV p P) (hBC : oneNorm (B - A) + oneNorm (C - A) ≤ L)
    (hP : oneNorm (A - P) ≤ L) (hA : oneNorm A ≤ L) (hnd : 100 * (1 / 2 ^ 53) * L ^ 4 ≤ Vec3.dot (normalOf A B C) (normalOf A B C)) :
    ∃ Q Q' Y Y', IsV (closestPointOnTriangle v0 v1 v2 p) Q ∧ IsV (closestPointOnTriangle v0 v2 v1 p) Q' ∧
      (∀ k, |Q.get k - Y.get k| ≤ 80 * (1 / 2 ^ 53) * L) ∧ (∀ k, |Q'.get k - Y'.get k| ≤ 80 * (1 / 2 ^ 53) * L) ∧
      Vec3.dot (Y - Y') (Y - Y') ≤ 4 * (5200 * (1 / 2 ^ 53) * L ^ 6 / Vec3.dot (normalOf A B C) (normalOf A B C) + 400 * (1 / 2 ^ 53) * L ^ 2) :=
  C122_swap _ _ _ rounds_double Format.binary64_odd L (scale4_double hL1 hL2) v0 v1 v2 p A B C P h0 h1 h2 hp hBC hP hA hnd

/-- **C122** for `float`. -/
theorem C122_float (L : ℚ) (hL1 : 1 / 2 ^ 24 ≤ L) (hL2 : L ≤ 2 ^ 25) (v0 v1 v2 p : Vec3 Single) (A B C P : Vec3 ℚ)
    (h0 : IsV v0 A) (h1 : IsV v1 B) (h2 : IsV v2 C) (hp : IsV p P) (hBC : oneNorm (B - A) + oneNorm (C - A) ≤ L)
    (hP : oneNorm (A - P) ≤ L) (hA : oneNorm A ≤ L) (hnd : 100 * (1 / 2 ^ 24) * L ^ 4 ≤ Vec3.dot (normalOf A B C) (normalOf A B C)) :
    ∃ Q Q' Y Y', IsV (closestPointOnTriangle v0 v1 v2 p) Q ∧ IsV (closestPointOnTriangle v0 v2 v1 p) Q' ∧
      (∀ k, |Q.get k - Y.get k| ≤ 80 * (1 / 2 ^ 24) * L) ∧ (∀ k, |Q'.get k - Y'.get k| ≤ 80 * (1 / 2 ^ 24) * L) ∧
      Vec3.dot (Y - Y') (Y - Y') ≤ 4 * (5200 * (1 / 2 ^ 24) * L ^ 6 / Vec3.dot (normalOf A B C) (normalOf A B C) + 400 * (1 / 2 ^ 24) * L ^ 2) :=
  C122_swap _ _ _ rounds_float Format.binary32_odd L (scale4_float hL1 hL2) v0 v1 v2 p A B C P h0 h1 h2 hp hBC hP hA hnd

/-- A triangle whose barycentric coordinates have to be rounded, and the two orders. -/
example : ∃ Q Q' Y Y' : Vec3 ℚ, IsV (closestPointOnTriangle (dvec 0 0 0) (dvec 7 0 0) (dvec 7 6 0) (dvec 6 5 3)) Q ∧
    IsV (closestPointOnTriangle (dvec 0 0 0) (dvec 7 6 0) (dvec 7 0 0) (dvec 6 5 3)) Q' ∧
      (∀ k, |Q.get k - Y.get k| ≤ 80 * (1 / 2 ^ 53) * 20) ∧ (∀ k, |Q'.get k - Y'.get k| ≤ 80 * (1 / 2 ^ 53) * 20) ∧
      Vec3.dot (Y - Y') (Y - Y') ≤ 1 / 10 ^ 6 := by
  obtain ⟨Q, Q', Y, Y', h1, h2, h3, h4, h5⟩ := C122_double 20 (by decide +kernel) (by decide +kernel) (dvec 0 0 0) (dvec 7 0 0) (dvec 7 6 0)
    (dvec 6 5 3) ⟨0, 0, 0⟩ ⟨7, 0, 0⟩ ⟨7, 6, 0⟩ ⟨6, 5, 3⟩
    (dvec_is (sx := false) (sy := false) (sz := false) (by decide +kernel))
    (dvec_is (sx := false) (sy := false) (sz := false) (by decide +kernel))
    (dvec_is (sx := false) (sy := false) (sz := false) (by decide +kernel))
    (dvec_is (sx := false) (sy := false) (sz := false) (by decide +kernel))
    (by decide +kernel) (by decide +kernel) (by decide +kernel) (by decide +kernel)
  exact ⟨Q, Q', Y, Y', h1, h2, h3, h4, h5.trans (by decide +kernel)⟩

end Blazert
