/- C117: the distance to a cylinder is not below the true one in space. -/
import Verif.Props.CylDistReal
import Verif.Proofs.CylDistSpace

set_option autoImplicit false

namespace Blazert
open Scalar

/-- **C117** for `double`.  `D` is any lower bound of the distances in space, over the reals, from the point to the surface of the cylinder
with the center and the orientation given: the result is not below it, up to the terms of C116 and a factor `1 + 2 ε`. -/
theorem C117_double (isZ : Double → Double → Bool) (tol : Double) (cy : Cylinder Double) (point : Vec3 Double) (c p : Vec3 ℚ)
    (a b h x y z ε L r μ δ v : ℚ) (R : Mat3 ℚ) (hc : IsV cy.center c) (ha : cy.a.Is a) (hb : cy.b.Is b)
    (hh : cy.height.Is h) (hr : IsM cy.rotation R) (hR : NearOrtho ε R) (hε : ε ≤ 1 / 1000) (hp : IsV point p)
    (hpos : p = c + R.mulVec ⟨x, y, z⟩) (hra : r ≤ a) (hrb : r ≤ b) (hh0 : 0 ≤ h)
    (hL : |p.x - c.x| + |p.y - c.y| + |p.z - c.z| + a + b + h ≤ L) (hr0 : 1 / 2 ^ 484 ≤ r) (hL2 : L ≤ 2 ^ 484)
    (hμ : 60 * ((1 / 2 ^ 53 + ε) * L) ≤ μ * r) (hμ1 : μ ≤ 1) (hδ0 : 0 ≤ δ) (hδ : δ ≤ r / 2)
    (hZ : isZ (cy.rotation.trans.mulVec (point - cy.center)).x (cy.rotation.trans.mulVec (point - cy.center)).y = true →
      |x| ≤ δ ∧ |y| ≤ δ)
    (hv : (cylDistance isZ tol cy point).Is v) (D : ℝ)
    (hD : ∀ q, OnCylinderAt c.toReal a b h R.toReal q → D ≤ dist3 p.toReal q) :
    D ≤ (1 + 2 * ε) * (Real.sqrt ((v : ℝ) ^ 2 + (240 * (1 / 2 ^ 53 * L ^ 2) + 52 * (ε * L ^ 2) + 3 * (δ * L) : ℚ)) + μ * L) :=
  space_bound hR hpos hD (C116_double isZ tol cy point c p a b h x y z ε L r μ δ v R hc ha hb hh hr hR hε hp hpos hra hrb hh0 hL hr0 hL2 hμ hμ1 hδ0 hδ hZ hv)

/-- **C117** for `float`.  `D` is any lower bound of the distances in space, over the reals, from the point to the surface of the cylinder
with the center and the orientation given: the result is not below it, up to the terms of C116 and a factor `1 + 2 ε`. -/
theorem C117_float (isZ : Single → Single → Bool) (tol : Single) (cy : Cylinder Single) (point : Vec3 Single) (c p : Vec3 ℚ)
    (a b h x y z ε L r μ δ v : ℚ) (R : Mat3 ℚ) (hc : IsV cy.center c) (ha : cy.a.Is a) (hb : cy.b.Is b)
    (hh : cy.height.Is h) (hr : IsM cy.rotation R) (hR : NearOrtho ε R) (hε : ε ≤ 1 / 1000) (hp : IsV point p)
    (hpos : p = c + R.mulVec ⟨x, y, z⟩) (hra : r ≤ a) (hrb : r ≤ b) (hh0 : 0 ≤ h)
    (hL : |p.x - c.x| + |p.y - c.y| + |p.z - c.z| + a + b + h ≤ L) (hr0 : 1 / 2 ^ 51 ≤ r) (hL2 : L ≤ 2 ^ 50)
    (hμ : 60 * ((1 / 2 ^ 24 + ε) * L) ≤ μ * r) (hμ1 : μ ≤ 1) (hδ0 : 0 ≤ δ) (hδ : δ ≤ r / 2)
    (hZ : isZ (cy.rotation.trans.mulVec (point - cy.center)).x (cy.rotation.trans.mulVec (point - cy.center)).y = true →
      |x| ≤ δ ∧ |y| ≤ δ)
    (hv : (cylDistance isZ tol cy point).Is v) (D : ℝ)
    (hD : ∀ q, OnCylinderAt c.toReal a b h R.toReal q → D ≤ dist3 p.toReal q) :
    D ≤ (1 + 2 * ε) * (Real.sqrt ((v : ℝ) ^ 2 + (240 * (1 / 2 ^ 24 * L ^ 2) + 52 * (ε * L ^ 2) + 3 * (δ * L) : ℚ)) + μ * L) :=
  space_bound hR hpos hD (C116_float isZ tol cy point c p a b h x y z ε L r μ δ v R hc ha hb hh hr hR hε hp hpos hra hrb hh0 hL hr0 hL2 hμ hμ1 hδ0 hδ hZ hv)

/-- The point beyond the rim of the example for C115: it is at least 2 away from the whole surface, so 2 is a value for `D`. -/
example : ∃ v x z : ℚ, 3 ≤ v ∧
    (∀ q, OnCylinderAt (Vec3.toReal ⟨1, 2, 3⟩) 2 1 4 tiltQ.toReal q → 2 ≤ dist3 (Vec3.toReal ⟨6, 5, 5⟩) q) ∧
    (⟨6, 5, 5⟩ : Vec3 ℚ) = ⟨1, 2, 3⟩ + tiltQ.mulVec ⟨x, 3, z⟩ ∧
    ∀ D : ℝ, (∀ q, OnCylinderAt (Vec3.toReal ⟨1, 2, 3⟩) 2 1 4 tiltQ.toReal q → D ≤ dist3 (Vec3.toReal ⟨6, 5, 5⟩) q) →
      D ≤ (1 + 2 * (1 / 2 ^ 52 : ℚ)) * (Real.sqrt ((v : ℝ) ^ 2 + 1 / 10 ^ 10) + 1 / 10 ^ 12 * 20) := by
  obtain ⟨v, -, h3, x, z, hp, h⟩ := rim_example
  refine ⟨v, x, z, h3, ?_, hp, fun D hD => ?_⟩
  · rintro q ⟨s, hs, rfl⟩
    have h1 : s.y ^ 2 ≤ 1 := by
      have h2 := sq_nonneg s.x
      rcases hs with ⟨k, -⟩ | ⟨-, k⟩ <;> nlinarith
    have h2 : s.y ≤ 1 := by nlinarith
    refine le_trans ?_ (abs_get_le_len _ 1)
    have e : ((Vec3.toReal ⟨6, 5, 5⟩ : Vec3 ℝ) - (Vec3.toReal ⟨1, 2, 3⟩ + tiltQ.toReal.mulVec s)).get 1 = 3 - s.y := by
      simp [Vec3.toReal, Mat3.toReal, Mat3.mulVec, Vec3.dot, tiltQ, Vec3.get_one]
      ring
    rw [e]
    exact le_trans (by linarith) (le_abs_self _)
  · refine space_bound tilt_near hp hD fun D' hD' => ?_
    have k := reach_real (L := 20) (by norm_num) (by norm_num) (by norm_num) (by norm_num) (by norm_num) h (D := D')
      (fun s hs => by
        have := hD' s (by push_cast at hs; exact hs)
        push_cast
        exact this)
    push_cast at k
    exact k

end Blazert
