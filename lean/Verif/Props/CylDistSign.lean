/- C113: distances to cylinders are not negative, with all roundings. -/
import Verif.Props.CylDistRound
import Verif.Proofs.CylDistSign

set_option autoImplicit false

namespace Blazert
open Scalar

section
variable {K : Type} [Field K] [LinearOrder K] [IsStrictOrderedRing K] [FloorRing K] {F : Fmt K}

/-- **C113**, general.  In any format that rounds, monotonically, and whose roots are not negative: `distance_to_surface` of a cylinder
of moderate size is never a negative number, for any point at a moderate distance.  (It may be NaN, see `C44_nan`.)  Nothing is assumed
about the height, `blaze::isZero` and the tolerance of the search. -/
theorem C113_not_negative (u η hi : K) (hF : F.Rounds u η hi) (hm : F.Monotone) (hsq : ∀ v, 0 < v → 0 ≤ F.sqrt v) (heps : 0 < F.eps)
    (isZ : XF F → XF F → Bool) (tol : XF F) (cy : Cylinder (XF F)) (point : Vec3 (XF F)) (c p : Vec3 K) (a b ε L r : K) (R : Mat3 K)
    (hc : IsV cy.center c) (ha : cy.a.Is a) (hb : cy.b.Is b) (hr : IsM cy.rotation R) (hR : NearOrtho ε R) (hε : ε ≤ 1 / 1000)
    (hp : IsV point p) (hra : r ≤ a) (hrb : r ≤ b) (hL : |p.x - c.x| + |p.y - c.y| + |p.z - c.z| + a + b ≤ L) (hs : Scale u η hi L)
    (hsr : Scale u η hi r) : lt (cylDistance isZ tol cy point) (nat 0) = false := by
  have x0 := abs_nonneg (p.x - c.x)
  have y0 := abs_nonneg (p.y - c.y)
  have z0 := abs_nonneg (p.z - c.z)
  have r0 := hsr.pos
  obtain ⟨q, q1, qx, qy⟩ := coords_finite hF hs hp hc hr hR hε (by linarith)
  refine cylDistance_notneg hm hF.zero hsq heps isZ tol cy point ?_ ?_
    (ell_not_nan hF hm hs hsr q1.1 q1.2.1 ha hb qx qy hra (by linarith) hrb (by linarith))
  · rw [Bool.eq_false_iff, ne_eq, ha.lt hF.nat0]; linarith
  · rw [Bool.eq_false_iff, ne_eq, hb.lt hF.nat0]; linarith

end

/-- **C113** for `double`. -/
theorem C113_double (isZ : Double → Double → Bool) (tol : Double) (cy : Cylinder Double) (point : Vec3 Double) (c p : Vec3 ℚ)
    (a b ε L r : ℚ) (R : Mat3 ℚ) (hc : IsV cy.center c) (ha : cy.a.Is a) (hb : cy.b.Is b) (hr : IsM cy.rotation R) (hR : NearOrtho ε R)
    (hε : ε ≤ 1 / 1000) (hp : IsV point p) (hra : r ≤ a) (hrb : r ≤ b)
    (hL : |p.x - c.x| + |p.y - c.y| + |p.z - c.z| + a + b ≤ L) (hr0 : 1 / 2 ^ 484 ≤ r) (hL2 : L ≤ 2 ^ 500) :
    lt (cylDistance isZ tol cy point) (nat 0) = false := by
  have x0 := abs_nonneg (p.x - c.x)
  have y0 := abs_nonneg (p.y - c.y)
  have z0 := abs_nonneg (p.z - c.z)
  have r0 : 0 < r := lt_of_lt_of_le (by decide +kernel) hr0
  have hrL : r ≤ L := by linarith
  exact C113_not_negative _ _ _ rounds_double Format.binary64_monotone (fun v _ => Format.binary64_sqrt_nonneg v) (by decide +kernel)
    isZ tol cy point c p a b ε L r R hc ha hb hr hR hε hp hra hrb hL (scale_double (hr0.trans hrL) hL2) (scale_double hr0 (hrL.trans hL2))

/-- **C113** for `float`. -/
theorem C113_float (isZ : Single → Single → Bool) (tol : Single) (cy : Cylinder Single) (point : Vec3 Single) (c p : Vec3 ℚ)
    (a b ε L r : ℚ) (R : Mat3 ℚ) (hc : IsV cy.center c) (ha : cy.a.Is a) (hb : cy.b.Is b) (hr : IsM cy.rotation R) (hR : NearOrtho ε R)
    (hε : ε ≤ 1 / 1000) (hp : IsV point p) (hra : r ≤ a) (hrb : r ≤ b)
    (hL : |p.x - c.x| + |p.y - c.y| + |p.z - c.z| + a + b ≤ L) (hr0 : 1 / 2 ^ 51 ≤ r) (hL2 : L ≤ 2 ^ 60) :
    lt (cylDistance isZ tol cy point) (nat 0) = false := by
  have x0 := abs_nonneg (p.x - c.x)
  have y0 := abs_nonneg (p.y - c.y)
  have z0 := abs_nonneg (p.z - c.z)
  have r0 : 0 < r := lt_of_lt_of_le (by decide +kernel) hr0
  have hrL : r ≤ L := by linarith
  exact C113_not_negative _ _ _ rounds_float Format.binary32_monotone (fun v _ => Format.binary32_sqrt_nonneg v) (by decide +kernel)
    isZ tol cy point c p a b ε L r R hc ha hb hr hR hε hp hra hrb hL (scale_float (hr0.trans hrL) hL2) (scale_float hr0 (hrL.trans hL2))

/-- the tilted cylinder of the last example and a point beside it -/
example (isZ : Double → Double → Bool) (tol h : Double) :
    lt (cylDistance isZ tol ⟨dvec 1 2 3, dbl 2, dbl 1, h, tilt, 0⟩ (dvec (-20) 0 7)) (nat 0) = false := by
  have dv : ∀ x y z x' y' z' : ℚ, ∀ sx sy sz, dvec x y z = ⟨.fin x' sx, .fin y' sy, .fin z' sz⟩ →
      IsV (dvec x y z) ⟨x', y', z'⟩ := by
    intro x y z x' y' z' sx sy sz e
    rw [e]
    exact ⟨⟨_, rfl⟩, ⟨_, rfl⟩, ⟨_, rfl⟩⟩
  have i2 : (dbl 2 : Double).Is 2 := ⟨false, by decide +kernel⟩
  have i1 : (dbl 1 : Double).Is 1 := ⟨false, by decide +kernel⟩
  exact C113_double isZ tol ⟨dvec 1 2 3, dbl 2, dbl 1, h, tilt, 0⟩ (dvec (-20) 0 7) ⟨1, 2, 3⟩ ⟨-20, 0, 7⟩ 2 1 (1 / 2 ^ 52) 100 1 tiltQ
    (dv _ _ _ _ _ _ false false false (by decide +kernel)) i2 i1 tilt_is tilt_near (by decide +kernel)
    (dv _ _ _ _ _ _ true false false (by decide +kernel)) (by decide +kernel) (by decide +kernel) (by decide +kernel)
    (by decide +kernel) (by decide +kernel)

end Blazert
