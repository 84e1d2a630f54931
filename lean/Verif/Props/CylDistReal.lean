/- C116: the distance to a cylinder is not below the true one, over the reals. -/
import Verif.Props.CylDistAny
import Verif.Proofs.CylDistReal

set_option autoImplicit false

namespace Blazert
open Scalar

/-- **C116** for `double`.  `D` is any lower bound of the distances, over the reals, from the point to the surface itself: the result is not
below it, up to `√(v² + e)` instead of `v` and `μ L`.  The other names are those of C115. -/
theorem C116_double (isZ : Double → Double → Bool) (tol : Double) (cy : Cylinder Double) (point : Vec3 Double) (c p : Vec3 ℚ)
    (a b h x y z ε L r μ δ v : ℚ) (R : Mat3 ℚ) (hc : IsV cy.center c) (ha : cy.a.Is a) (hb : cy.b.Is b)
    (hh : cy.height.Is h) (hr : IsM cy.rotation R) (hR : NearOrtho ε R) (hε : ε ≤ 1 / 1000) (hp : IsV point p)
    (hpos : p = c + R.mulVec ⟨x, y, z⟩) (hra : r ≤ a) (hrb : r ≤ b) (hh0 : 0 ≤ h)
    (hL : |p.x - c.x| + |p.y - c.y| + |p.z - c.z| + a + b + h ≤ L) (hr0 : 1 / 2 ^ 484 ≤ r) (hL2 : L ≤ 2 ^ 484)
    (hμ : 60 * ((1 / 2 ^ 53 + ε) * L) ≤ μ * r) (hμ1 : μ ≤ 1) (hδ0 : 0 ≤ δ) (hδ : δ ≤ r / 2)
    (hZ : isZ (cy.rotation.trans.mulVec (point - cy.center)).x (cy.rotation.trans.mulVec (point - cy.center)).y = true →
      |x| ≤ δ ∧ |y| ≤ δ)
    (hv : (cylDistance isZ tol cy point).Is v) (D : ℝ) (hD : ∀ s, OnCylSurface a b h s → D ≤ dist3 ⟨x, y, z⟩ s) :
    D ≤ Real.sqrt ((v : ℝ) ^ 2 + (240 * (1 / 2 ^ 53 * L ^ 2) + 52 * (ε * L ^ 2) + 3 * (δ * L) : ℚ)) + μ * L := by
  have r0 : 0 < r := lt_of_lt_of_le (by decide +kernel) hr0
  have a0 := r0.trans_le hra
  have b0 := r0.trans_le hrb
  have x0 := abs_nonneg (p.x - c.x)
  have y0 := abs_nonneg (p.y - c.y)
  have z0 := abs_nonneg (p.z - c.z)
  have L0 : 0 ≤ L := by linarith
  have ε0 := hR.rows.nonneg
  have μ0 : 0 ≤ μ := by
    have h1 : 0 ≤ μ * r := le_trans (by positivity) hμ
    exact nonneg_of_mul_nonneg_left h1 r0
  exact reach_real a0 b0 (by linarith) (by linarith) μ0 (C115_double isZ tol cy point c p a b h x y z ε L r μ δ v R hc ha hb hh hr hR hε hp hpos
    hra hrb hh0 hL hr0 hL2 hμ hμ1 hδ0 hδ hZ hv) hD

/-- **C116** for `float`.  `D` is any lower bound of the distances, over the reals, from the point to the surface itself: the result is not
below it, up to `√(v² + e)` instead of `v` and `μ L`.  The other names are those of C115. -/
theorem C116_float (isZ : Single → Single → Bool) (tol : Single) (cy : Cylinder Single) (point : Vec3 Single) (c p : Vec3 ℚ)
    (a b h x y z ε L r μ δ v : ℚ) (R : Mat3 ℚ) (hc : IsV cy.center c) (ha : cy.a.Is a) (hb : cy.b.Is b)
    (hh : cy.height.Is h) (hr : IsM cy.rotation R) (hR : NearOrtho ε R) (hε : ε ≤ 1 / 1000) (hp : IsV point p)
    (hpos : p = c + R.mulVec ⟨x, y, z⟩) (hra : r ≤ a) (hrb : r ≤ b) (hh0 : 0 ≤ h)
    (hL : |p.x - c.x| + |p.y - c.y| + |p.z - c.z| + a + b + h ≤ L) (hr0 : 1 / 2 ^ 51 ≤ r) (hL2 : L ≤ 2 ^ 50)
    (hμ : 60 * ((1 / 2 ^ 24 + ε) * L) ≤ μ * r) (hμ1 : μ ≤ 1) (hδ0 : 0 ≤ δ) (hδ : δ ≤ r / 2)
    (hZ : isZ (cy.rotation.trans.mulVec (point - cy.center)).x (cy.rotation.trans.mulVec (point - cy.center)).y = true →
      |x| ≤ δ ∧ |y| ≤ δ)
    (hv : (cylDistance isZ tol cy point).Is v) (D : ℝ) (hD : ∀ s, OnCylSurface a b h s → D ≤ dist3 ⟨x, y, z⟩ s) :
    D ≤ Real.sqrt ((v : ℝ) ^ 2 + (240 * (1 / 2 ^ 24 * L ^ 2) + 52 * (ε * L ^ 2) + 3 * (δ * L) : ℚ)) + μ * L := by
  have r0 : 0 < r := lt_of_lt_of_le (by decide +kernel) hr0
  have a0 := r0.trans_le hra
  have b0 := r0.trans_le hrb
  have x0 := abs_nonneg (p.x - c.x)
  have y0 := abs_nonneg (p.y - c.y)
  have z0 := abs_nonneg (p.z - c.z)
  have L0 : 0 ≤ L := by linarith
  have ε0 := hR.rows.nonneg
  have μ0 : 0 ≤ μ := by
    have h1 : 0 ≤ μ * r := le_trans (by positivity) hμ
    exact nonneg_of_mul_nonneg_left h1 r0
  exact reach_real a0 b0 (by linarith) (by linarith) μ0 (C115_float isZ tol cy point c p a b h x y z ε L r μ δ v R hc ha hb hh hr hR hε hp hpos
    hra hrb hh0 hL hr0 hL2 hμ hμ1 hδ0 hδ hZ hv) hD

/-- The point beyond the rim of the example for C115: it is at least 2 away from the whole surface, so 2 is a value for `D`. -/
example : ∃ v x z : ℚ, 3 ≤ v ∧ (∀ s, OnCylSurface 2 1 4 s → 2 ≤ dist3 ⟨x, 3, z⟩ s) ∧
    ∀ D : ℝ, (∀ s, OnCylSurface 2 1 4 s → D ≤ dist3 ⟨x, 3, z⟩ s) → D ≤ Real.sqrt ((v : ℝ) ^ 2 + 1 / 10 ^ 10) + 1 / 10 ^ 12 * 20 := by
  obtain ⟨v, -, h3, x, z, -, h⟩ := rim_example
  refine ⟨v, x, z, h3, fun s hs => ?_, fun D hD => ?_⟩
  · have h1 : s.y ^ 2 ≤ 1 := by
      have h2 := sq_nonneg s.x
      rcases hs with ⟨k, -⟩ | ⟨-, k⟩ <;> nlinarith
    have h2 : s.y ≤ 1 := by nlinarith
    unfold dist3 len
    refine Real.le_sqrt_of_sq_le ?_
    show (2 : ℝ) ^ 2 ≤ (x - s.x) * (x - s.x) + (3 - s.y) * (3 - s.y) + (z - s.z) * (z - s.z)
    nlinarith [mul_self_nonneg ((x : ℝ) - s.x), mul_self_nonneg ((z : ℝ) - s.z)]
  · have k := reach_real (L := 20) (by norm_num) (by norm_num) (by norm_num) (by norm_num) (by norm_num) h (D := D)
      (fun s hs => by
        have := hD s (by push_cast at hs; exact hs)
        push_cast
        exact this)
    push_cast at k
    exact k

end Blazert
