/- C115: the distance to a cylinder is one to a point near its surface, anywhere, with all roundings. -/
import Verif.Props.CylDistLow
import Verif.Proofs.CylDistAny

set_option autoImplicit false

namespace Blazert
open Scalar

section
variable {K : Type} [Field K] [LinearOrder K] [IsStrictOrderedRing K] [FloorRing K] {F : Fmt K}

/-- **C115**, general.  In any format that rounds: for every point `p = c + R (x, y, z)`, whatever number `distance_to_surface` returns is
not negative, and is the distance from `p` to some point on the surface, up to `240 u L² + 52 ε L² + 3 δ L` in its square and `μ` in the
equation of the ellipse.  So the result is never less than the distance from the surface, up to this.  `δ` is how far from the axis a point
may be that `blaze::isZero` takes to be on it; `L` bounds the sizes, `r` is at most the half axes, `ε` is the deviation of the matrix from
an orthonormal one. -/
theorem C115_never_below (u η hi : K) (hF : F.Rounds u η hi) (hfa : F.Faithful u η) (hm : F.Monotone) (heps0 : 0 < F.eps)
    (heps : F.eps ≤ 2 * u) (isZ : XF F → XF F → Bool) (tol : XF F) (cy : Cylinder (XF F))
    (point : Vec3 (XF F)) (c p : Vec3 K) (a b h x y z ε L r μ δ v : K) (R : Mat3 K) (hc : IsV cy.center c) (ha : cy.a.Is a) (hb : cy.b.Is b)
    (hh : cy.height.Is h) (hr : IsM cy.rotation R) (hR : NearOrtho ε R) (hε : ε ≤ 1 / 1000) (hp : IsV point p)
    (hpos : p = c + R.mulVec ⟨x, y, z⟩) (hra : r ≤ a) (hrb : r ≤ b) (hh0 : 0 ≤ h)
    (hL : |p.x - c.x| + |p.y - c.y| + |p.z - c.z| + a + b + h ≤ L) (hs : Scale u η hi L) (hsr : Scale u η hi r)
    (hηr : η * L ≤ u ^ 2 * r) (hμ : 60 * ((u + ε) * L) ≤ μ * r) (hμ1 : μ ≤ 1) (hδ0 : 0 ≤ δ) (hδ : δ ≤ r / 2)
    (hZ : isZ (cy.rotation.trans.mulVec (point - cy.center)).x (cy.rotation.trans.mulVec (point - cy.center)).y = true →
      |x| ≤ δ ∧ |y| ≤ δ)
    (hv : (cylDistance isZ tol cy point).Is v) :
    ReachesSurface a b h μ x y z v (240 * (u * L ^ 2) + 52 * (ε * L ^ 2) + 3 * (δ * L)) := by
  have hz' := hs.sizes
  have u0 := hz'.u0
  have L0 := hz'.L0
  have uL0 := hz'.uL0
  have uL1 := hz'.uL1
  have x0 := abs_nonneg (p.x - c.x)
  have y0 := abs_nonneg (p.y - c.y)
  have z0 := abs_nonneg (p.z - c.z)
  have r0 := hsr.pos
  have a0 : 0 < a := r0.trans_le hra
  have b0 : 0 < b := r0.trans_le hrb
  have ε0 := hR.rows.nonneg
  have εL0 : 0 ≤ ε * L := mul_nonneg ε0 L0.le
  have εL1 : ε * L ≤ 1 / 1000 * L := mul_le_mul_of_nonneg_right hε L0.le
  have hrL : r ≤ L := by linarith
  obtain ⟨q, q1, qx, qy, qz, qL⟩ := plane_coords hF hs hp hc hr hR hε (by linarith) hpos
  obtain ⟨q', q1', qx', qy'⟩ := coords_finite hF hs hp hc hr hR hε (by linarith)
  obtain rfl := q1'.unique q1
  have P : LocalPoint F u η hi L ε r (6 * (u * L) + 4 * (ε * L)) a b h x y z (cy.rotation.trans.mulVec (point - cy.center)) cy.a cy.b
      cy.height q' :=
    ⟨hF, hfa, hm, hs, hsr, hηr, ε0, rfl, by linarith, q1, ha, hb, hh, qx, qy, qz, qx', qy', qL, hra, hrb, by linarith, by linarith, hh0,
      by linarith⟩
  have e3 : 60 * ((u + ε) * L) = 60 * (u * L) + 60 * (ε * L) := by ring
  have hθ : 10 * ((6 * (u * L) + 4 * (ε * L)) / r) ≤ μ := by
    rw [mul_div_assoc', div_le_iff₀ r0]
    linarith
  have hμu : 60 * u ≤ μ := by
    have h1 := mul_le_mul_of_nonneg_left hrL u0.le
    have h2 : 60 * u * r ≤ μ * r := by linarith
    exact le_of_mul_le_mul_right h2 r0
  exact P.reach isZ tol cy point rfl rfl rfl rfl heps0 heps hθ hμu hμ1 hδ0 hδ hZ hv

end

/-- **C115** for `double`. -/
theorem C115_double (isZ : Double → Double → Bool) (tol : Double) (cy : Cylinder Double) (point : Vec3 Double) (c p : Vec3 ℚ)
    (a b h x y z ε L r μ δ v : ℚ) (R : Mat3 ℚ) (hc : IsV cy.center c) (ha : cy.a.Is a) (hb : cy.b.Is b)
    (hh : cy.height.Is h) (hr : IsM cy.rotation R) (hR : NearOrtho ε R) (hε : ε ≤ 1 / 1000) (hp : IsV point p)
    (hpos : p = c + R.mulVec ⟨x, y, z⟩) (hra : r ≤ a) (hrb : r ≤ b) (hh0 : 0 ≤ h)
    (hL : |p.x - c.x| + |p.y - c.y| + |p.z - c.z| + a + b + h ≤ L) (hr0 : 1 / 2 ^ 484 ≤ r) (hL2 : L ≤ 2 ^ 484)
    (hμ : 60 * ((1 / 2 ^ 53 + ε) * L) ≤ μ * r) (hμ1 : μ ≤ 1) (hδ0 : 0 ≤ δ) (hδ : δ ≤ r / 2)
    (hZ : isZ (cy.rotation.trans.mulVec (point - cy.center)).x (cy.rotation.trans.mulVec (point - cy.center)).y = true →
      |x| ≤ δ ∧ |y| ≤ δ)
    (hv : (cylDistance isZ tol cy point).Is v) :
    ReachesSurface a b h μ x y z v (240 * (1 / 2 ^ 53 * L ^ 2) + 52 * (ε * L ^ 2) + 3 * (δ * L)) := by
  have x0 := abs_nonneg (p.x - c.x)
  have y0 := abs_nonneg (p.y - c.y)
  have z0 := abs_nonneg (p.z - c.z)
  have r0 : 0 < r := lt_of_lt_of_le (by decide +kernel) hr0
  have hrL : r ≤ L := by linarith
  have hL3 : L ≤ 2 ^ 500 := hL2.trans (by decide +kernel)
  have h1 : (1 / 2 ^ 1075 : ℚ) * L ≤ 1 / 2 ^ 1075 * 2 ^ 484 := mul_le_mul_of_nonneg_left hL2 (by decide +kernel)
  have h2 : (1 / 2 ^ 53 : ℚ) ^ 2 * (1 / 2 ^ 484) ≤ (1 / 2 ^ 53) ^ 2 * r := mul_le_mul_of_nonneg_left hr0 (by decide +kernel)
  have h3 : (1 / 2 ^ 1075 * 2 ^ 484 : ℚ) ≤ (1 / 2 ^ 53) ^ 2 * (1 / 2 ^ 484) := by decide +kernel
  exact C115_never_below _ _ _ rounds_double faithful_double Format.binary64_monotone (by decide +kernel) (by decide +kernel) isZ tol cy point
    c p a b h x y z ε L r μ δ v R hc ha hb hh hr hR hε hp hpos hra hrb hh0 hL (scale_double (hr0.trans hrL) hL3) (scale_double hr0 (hrL.trans hL3))
    (h1.trans (h3.trans h2)) hμ hμ1 hδ0 hδ hZ hv

/-- **C115** for `float`. -/
theorem C115_float (isZ : Single → Single → Bool) (tol : Single) (cy : Cylinder Single) (point : Vec3 Single) (c p : Vec3 ℚ)
    (a b h x y z ε L r μ δ v : ℚ) (R : Mat3 ℚ) (hc : IsV cy.center c) (ha : cy.a.Is a) (hb : cy.b.Is b)
    (hh : cy.height.Is h) (hr : IsM cy.rotation R) (hR : NearOrtho ε R) (hε : ε ≤ 1 / 1000) (hp : IsV point p)
    (hpos : p = c + R.mulVec ⟨x, y, z⟩) (hra : r ≤ a) (hrb : r ≤ b) (hh0 : 0 ≤ h)
    (hL : |p.x - c.x| + |p.y - c.y| + |p.z - c.z| + a + b + h ≤ L) (hr0 : 1 / 2 ^ 51 ≤ r) (hL2 : L ≤ 2 ^ 50)
    (hμ : 60 * ((1 / 2 ^ 24 + ε) * L) ≤ μ * r) (hμ1 : μ ≤ 1) (hδ0 : 0 ≤ δ) (hδ : δ ≤ r / 2)
    (hZ : isZ (cy.rotation.trans.mulVec (point - cy.center)).x (cy.rotation.trans.mulVec (point - cy.center)).y = true →
      |x| ≤ δ ∧ |y| ≤ δ)
    (hv : (cylDistance isZ tol cy point).Is v) :
    ReachesSurface a b h μ x y z v (240 * (1 / 2 ^ 24 * L ^ 2) + 52 * (ε * L ^ 2) + 3 * (δ * L)) := by
  have x0 := abs_nonneg (p.x - c.x)
  have y0 := abs_nonneg (p.y - c.y)
  have z0 := abs_nonneg (p.z - c.z)
  have r0 : 0 < r := lt_of_lt_of_le (by decide +kernel) hr0
  have hrL : r ≤ L := by linarith
  have hL3 : L ≤ 2 ^ 60 := hL2.trans (by decide +kernel)
  have h1 : (1 / 2 ^ 150 : ℚ) * L ≤ 1 / 2 ^ 150 * 2 ^ 50 := mul_le_mul_of_nonneg_left hL2 (by decide +kernel)
  have h2 : (1 / 2 ^ 24 : ℚ) ^ 2 * (1 / 2 ^ 51) ≤ (1 / 2 ^ 24) ^ 2 * r := mul_le_mul_of_nonneg_left hr0 (by decide +kernel)
  have h3 : (1 / 2 ^ 150 * 2 ^ 50 : ℚ) ≤ (1 / 2 ^ 24) ^ 2 * (1 / 2 ^ 51) := by decide +kernel
  exact C115_never_below _ _ _ rounds_float faithful_float Format.binary32_monotone (by decide +kernel) (by decide +kernel) isZ tol cy point
    c p a b h x y z ε L r μ δ v R hc ha hb hh hr hR hε hp hpos hra hrb hh0 hL (scale_float (hr0.trans hrL) hL3) (scale_float hr0 (hrL.trans hL3))
    (h1.trans (h3.trans h2)) hμ hμ1 hδ0 hδ hZ hv

/-- The tilted cylinder of the example for C114, and a point beyond its rim, both outside of the ellipse and above the cap; `isZero` compares
with zero.  The hypotheses can be met. -/
theorem rim_example : ∃ v, (cylDistance (fun x y => eq x (nat 0) && eq y (nat 0)) (dbl (1/10^7)) ⟨dvec 1 2 3, dbl 2, dbl 1, dbl 4, tilt, 0⟩
    (dvec 6 5 5)).Is v ∧ 3 ≤ v ∧ ∃ x z : ℚ, (⟨6, 5, 5⟩ : Vec3 ℚ) = ⟨1, 2, 3⟩ + tiltQ.mulVec ⟨x, 3, z⟩ ∧
      ReachesSurface 2 1 4 (1 / 10 ^ 12) x 3 z v (1 / 10 ^ 10) := by
  have dv : ∀ x y z x' y' z' : ℚ, ∀ sx sy sz, dvec x y z = ⟨.fin x' sx, .fin y' sy, .fin z' sz⟩ →
      IsV (dvec x y z) ⟨x', y', z'⟩ := by
    intro x y z x' y' z' sx sy sz e
    rw [e]
    exact ⟨⟨_, rfl⟩, ⟨_, rfl⟩, ⟨_, rfl⟩⟩
  let s : ℚ := 5404319552844595 / 2 ^ 53
  let t : ℚ := 3602879701896397 / 2 ^ 52
  let D : ℚ := s * s + t * t
  have i2 : (dbl 2 : Double).Is 2 := ⟨false, by decide +kernel⟩
  have i1 : (dbl 1 : Double).Is 1 := ⟨false, by decide +kernel⟩
  have i4 : (dbl 4 : Double).Is 4 := ⟨false, by decide +kernel⟩
  have hv : (cylDistance (fun x y => eq x (nat 0) && eq y (nat 0)) (dbl (1/10^7)) ⟨dvec 1 2 3, dbl 2, dbl 1, dbl 4, tilt, 0⟩
      (dvec 6 5 5)).Is (33986172057587 / 8796093022208) := ⟨false, by decide +kernel⟩
  have hp : (⟨6, 5, 5⟩ : Vec3 ℚ) = ⟨1, 2, 3⟩ + tiltQ.mulVec ⟨(5 * s - 2 * t) / D, 3, (5 * t + 2 * s) / D⟩ := by ext <;> decide +kernel
  have key := C115_double (fun x y => eq x (nat 0) && eq y (nat 0)) (dbl (1/10^7)) ⟨dvec 1 2 3, dbl 2, dbl 1, dbl 4, tilt, 0⟩ (dvec 6 5 5)
    ⟨1, 2, 3⟩ ⟨6, 5, 5⟩ 2 1 4 ((5 * s - 2 * t) / D) 3 ((5 * t + 2 * s) / D) (1 / 2 ^ 52) 20 1 (1 / 10 ^ 12) 0 _ tiltQ
    (dv _ _ _ _ _ _ false false false (by decide +kernel)) i2 i1 i4 tilt_is tilt_near (by decide +kernel)
    (dv _ _ _ _ _ _ false false false (by decide +kernel)) hp (by decide +kernel) (by decide +kernel)
    (by decide +kernel) (by decide +kernel) (by decide +kernel) (by decide +kernel) (by decide +kernel) (by decide +kernel)
    (by decide +kernel) (by decide +kernel) (fun k => absurd k (by decide +kernel)) hv
  exact ⟨_, hv, by norm_num, _, _, hp, key.mono (by decide +kernel)⟩

/-- So there is such a point for some result of at least 3. -/
example : ∃ v x z : ℚ, 3 ≤ v ∧ ReachesSurface 2 1 4 (1 / 10 ^ 12) x 3 z v (1 / 10 ^ 10) := by
  obtain ⟨v, -, h3, x, z, -, h⟩ := rim_example
  exact ⟨v, x, z, h3, h⟩

end Blazert
