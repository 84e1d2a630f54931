/- C112: the distance to a cylinder from points over its caps, with all roundings. -/
import Verif.Props.PlaneDist
import Verif.Proofs.CylDistRound

set_option autoImplicit false

namespace Blazert
open Scalar

section
variable {K : Type} [Field K] [LinearOrder K] [IsStrictOrderedRing K] [FloorRing K] {F : Fmt K}

/-- **C112**, general.  In any format that rounds: for a point `p = c + R (x, y, z)` straight above or below a cap of an elliptic
cylinder (inside the ellipse, and beyond the cap, by a margin for the roundings), `distance_to_surface` is its distance `|z| - h/2` from
the cap, up to `9 u L + 4 ε L`, whatever `blaze::isZero` says.  `L` bounds the sizes, `r` is at most the half axes, `ε` is the deviation of
the matrix from an orthonormal one. -/
theorem C112_over_cap (u η hi : K) (hF : F.Rounds u η hi) (isZ : XF F → XF F → Bool) (tol : XF F) (cy : Cylinder (XF F))
    (point : Vec3 (XF F)) (c p : Vec3 K) (a b h x y z ε L r μ : K) (R : Mat3 K) (hc : IsV cy.center c) (ha : cy.a.Is a) (hb : cy.b.Is b)
    (hh : cy.height.Is h) (hr : IsM cy.rotation R) (hR : NearOrtho ε R) (hε : ε ≤ 1 / 1000) (hp : IsV point p)
    (hpos : p = c + R.mulVec ⟨x, y, z⟩) (hra : r ≤ a) (hrb : r ≤ b) (hh0 : 0 ≤ h)
    (hL : |p.x - c.x| + |p.y - c.y| + |p.z - c.z| + a + b + h ≤ L) (hs : Scale u η hi L) (hsr : Scale u η hi r)
    (hμ : 60 * ((u + ε) * L) ≤ μ * r) (hin : x ^ 2 / a ^ 2 + y ^ 2 / b ^ 2 ≤ 1 - μ) (hz : h / 2 + (9 * u * L + 4 * ε * L) ≤ |z|) :
    ∃ v, (cylDistance isZ tol cy point).Is v ∧ |v - (|z| - h / 2)| ≤ 9 * u * L + 4 * ε * L := by
  obtain ⟨u0, u1, η0, ηu, ηL, ηLL, ηuLL, ηuL, L0, uL0, uLL0, uL1, uLL1, hi1, hiL, hiLL⟩ := hs.sizes
  have x0 := abs_nonneg (p.x - c.x)
  have y0 := abs_nonneg (p.y - c.y)
  have z0 := abs_nonneg (p.z - c.z)
  have r0 := hsr.pos
  have ε0 := hR.rows.nonneg
  have εL0 : 0 ≤ ε * L := mul_nonneg ε0 L0.le
  have hrL : r ≤ L := by linarith
  have e1 : 9 * u * L + 4 * ε * L = (6 * (u * L) + 4 * (ε * L)) + 3 * (u * L) := by ring
  rw [e1] at hz ⊢
  obtain ⟨q, q1, qx, qy, qz, qL⟩ := plane_coords hF hs hp hc hr hR hε (by linarith) hpos
  dsimp only at qx qy qz
  generalize hM : 6 * (u * L) + 4 * (ε * L) = M at *
  have M0 : 0 ≤ M := by rw [← hM]; linarith
  have e2 : M / r * r = M := div_mul_cancel₀ _ r0.ne'
  have e3 : 60 * ((u + ε) * L) = 60 * (u * L) + 60 * (ε * L) := by ring
  have hθ : 10 * (M / r) ≤ μ := by
    rw [mul_div_assoc', div_le_iff₀ r0, ← hM]
    linarith
  have hμu : 60 * u ≤ μ := by
    have h1 := mul_le_mul_of_nonneg_left hrL u0.le
    have h2 : 60 * u * r ≤ μ * r := by linarith
    exact le_of_mul_le_mul_right h2 r0
  obtain ⟨e, el1, el2⟩ := ell_neg hF hs hsr q1.1 q1.2.1 ha hb (by rw [e2]; exact qx) (by rw [e2]; exact qy) (div_nonneg M0 r0.le) hθ hμu
    hra (by linarith) hrb (by linarith) hin
  obtain ⟨⟨H, i1, i2⟩, ⟨H', j1, j2⟩, ⟨d, d1, d2⟩, ⟨f, f1, f2⟩⟩ := cap_dists hF hs q1.2.2 hh qz qL (by rw [abs_of_nonneg hh0]; linarith)
  have hmin : ∃ v, (minOf (abs ((cy.rotation.trans.mulVec (point - cy.center)).z - cy.height / nat 2))
      [abs ((cy.rotation.trans.mulVec (point - cy.center)).z + cy.height / nat 2)]).Is v ∧ |v - (|z| - h / 2)| ≤ M + 3 * (u * L) :=
    ⟨_, d1.min f1, min_cap hh0 (by linarith) d2 f2⟩
  obtain ⟨iL, iR⟩ := abs_le.1 i2
  obtain ⟨jL, jR⟩ := abs_le.1 j2
  obtain ⟨zL, zR⟩ := abs_le.1 qz
  have hside : (H < q.z ∧ ∃ w, w = d ∧ |w - (|z| - h / 2)| ≤ M + 3 * (u * L)) ∨
      (q.z < H' ∧ q.z < H ∧ ∃ w, w = f ∧ |w - (|z| - h / 2)| ≤ M + 3 * (u * L)) := by
    rcases le_abs.1 hz with k | k
    · refine .inl ⟨by linarith, d, rfl, ?_⟩
      rw [abs_of_nonneg (by linarith : 0 ≤ z - h / 2)] at d2
      rwa [abs_of_nonneg (by linarith : 0 ≤ z)]
    · refine .inr ⟨by linarith, by linarith, f, rfl, ?_⟩
      rw [abs_of_nonpos (by linarith : z + h / 2 ≤ 0)] at f2
      rwa [abs_of_nonpos (by linarith : z ≤ 0), show -z - h / 2 = -(z + h / 2) by ring]
  have hout : (gt (cy.rotation.trans.mulVec (point - cy.center)).z (cy.height / nat 2) ||
      lt (cy.rotation.trans.mulVec (point - cy.center)).z (-cy.height / nat 2)) = true := by
    rw [Bool.or_eq_true, q1.2.2.gt i1, q1.2.2.lt j1]
    exact hside.imp (fun k => k.1) (fun k => k.1)
  unfold cylDistance
  dsimp only
  by_cases c1 : isZ (cy.rotation.trans.mulVec (point - cy.center)).x (cy.rotation.trans.mulVec (point - cy.center)).y = true
  · rw [if_pos c1, if_pos hout]
    exact hmin
  rw [if_neg c1]
  by_cases c2 : lt (abs (ellipseEquation cy.a cy.b (cy.rotation.trans.mulVec (point - cy.center)).x
      (cy.rotation.trans.mulVec (point - cy.center)).y)) eps = true
  · rw [if_pos c2, if_pos hout]
    exact hmin
  rw [if_neg c2, if_pos ((el1.lt hF.nat0).2 el2)]
  rcases hside with ⟨k1, w, rfl, k2⟩ | ⟨k1, k3, w, rfl, k2⟩
  · rw [if_pos ((q1.2.2.ge i1).2 k1.le)]
    exact ⟨_, d1, k2⟩
  · rw [if_neg (fun k => absurd ((q1.2.2.ge i1).1 k) (not_le.2 k3)), if_pos ((q1.2.2.le j1).2 k1.le)]
    exact ⟨_, f1, k2⟩

end

/-- **C112** for `double`. -/
theorem C112_double (isZ : Double → Double → Bool) (tol : Double) (cy : Cylinder Double)
    (point : Vec3 Double) (c p : Vec3 ℚ) (a b h x y z ε L r μ : ℚ) (R : Mat3 ℚ) (hc : IsV cy.center c) (ha : cy.a.Is a) (hb : cy.b.Is b)
    (hh : cy.height.Is h) (hr : IsM cy.rotation R) (hR : NearOrtho ε R) (hε : ε ≤ 1 / 1000) (hp : IsV point p)
    (hpos : p = c + R.mulVec ⟨x, y, z⟩) (hra : r ≤ a) (hrb : r ≤ b) (hh0 : 0 ≤ h)
    (hL : |p.x - c.x| + |p.y - c.y| + |p.z - c.z| + a + b + h ≤ L) (hr0 : 1 / 2 ^ 484 ≤ r) (hL2 : L ≤ 2 ^ 500)
    (hμ : 60 * ((1 / 2 ^ 53 + ε) * L) ≤ μ * r) (hin : x ^ 2 / a ^ 2 + y ^ 2 / b ^ 2 ≤ 1 - μ)
    (hz : h / 2 + (9 * (1 / 2 ^ 53) * L + 4 * ε * L) ≤ |z|) :
    ∃ v, (cylDistance isZ tol cy point).Is v ∧ |v - (|z| - h / 2)| ≤ 9 * (1 / 2 ^ 53) * L + 4 * ε * L := by
  have x0 := abs_nonneg (p.x - c.x)
  have y0 := abs_nonneg (p.y - c.y)
  have z0 := abs_nonneg (p.z - c.z)
  have r0 : 0 < r := lt_of_lt_of_le (by decide +kernel) hr0
  have hrL : r ≤ L := by linarith
  exact C112_over_cap _ _ _ rounds_double isZ tol cy point c p a b h x y z ε L r μ R hc ha hb hh hr hR hε hp hpos hra hrb hh0 hL
    (scale_double (hr0.trans hrL) hL2) (scale_double hr0 (hrL.trans hL2)) hμ hin hz

/-- **C112** for `float`. -/
theorem C112_float (isZ : Single → Single → Bool) (tol : Single) (cy : Cylinder Single)
    (point : Vec3 Single) (c p : Vec3 ℚ) (a b h x y z ε L r μ : ℚ) (R : Mat3 ℚ) (hc : IsV cy.center c) (ha : cy.a.Is a) (hb : cy.b.Is b)
    (hh : cy.height.Is h) (hr : IsM cy.rotation R) (hR : NearOrtho ε R) (hε : ε ≤ 1 / 1000) (hp : IsV point p)
    (hpos : p = c + R.mulVec ⟨x, y, z⟩) (hra : r ≤ a) (hrb : r ≤ b) (hh0 : 0 ≤ h)
    (hL : |p.x - c.x| + |p.y - c.y| + |p.z - c.z| + a + b + h ≤ L) (hr0 : 1 / 2 ^ 51 ≤ r) (hL2 : L ≤ 2 ^ 60)
    (hμ : 60 * ((1 / 2 ^ 24 + ε) * L) ≤ μ * r) (hin : x ^ 2 / a ^ 2 + y ^ 2 / b ^ 2 ≤ 1 - μ)
    (hz : h / 2 + (9 * (1 / 2 ^ 24) * L + 4 * ε * L) ≤ |z|) :
    ∃ v, (cylDistance isZ tol cy point).Is v ∧ |v - (|z| - h / 2)| ≤ 9 * (1 / 2 ^ 24) * L + 4 * ε * L := by
  have x0 := abs_nonneg (p.x - c.x)
  have y0 := abs_nonneg (p.y - c.y)
  have z0 := abs_nonneg (p.z - c.z)
  have r0 : 0 < r := lt_of_lt_of_le (by decide +kernel) hr0
  have hrL : r ≤ L := by linarith
  exact C112_over_cap _ _ _ rounds_float isZ tol cy point c p a b h x y z ε L r μ R hc ha hb hh hr hR hε hp hpos hra hrb hh0 hL
    (scale_float (hr0.trans hrL) hL2) (scale_float hr0 (hrL.trans hL2)) hμ hin hz

/-- A tilted cylinder around `(1,2,3)` with the half axes 2 and 1 and the height 4, and a point 5 above its center, near the axis: the
distance is 3.  The hypotheses can be met. -/
example (isZ : Double → Double → Bool) (tol : Double) :
    ∃ v, (cylDistance isZ tol ⟨dvec 1 2 3, dbl 2, dbl 1, dbl 4, tilt, 0⟩ (dvec 5 (9/4) 6)).Is v ∧ |v - 3| ≤ 1 / 10 ^ 12 := by
  have dv : ∀ x y z x' y' z' : ℚ, ∀ sx sy sz, dvec x y z = ⟨.fin x' sx, .fin y' sy, .fin z' sz⟩ →
      IsV (dvec x y z) ⟨x', y', z'⟩ := by
    intro x y z x' y' z' sx sy sz e
    rw [e]
    exact ⟨⟨_, rfl⟩, ⟨_, rfl⟩, ⟨_, rfl⟩⟩
  let s : ℚ := 5404319552844595 / 2 ^ 53
  let t : ℚ := 3602879701896397 / 2 ^ 52
  let D : ℚ := s * s + t * t
  have i2 : (dbl 2 : Double).Is 2 := ⟨false, by decide +kernel⟩
  have i1 : (dbl 1 : Double).Is 1 := ⟨false, by decide +kernel⟩
  have i4 : (dbl 4 : Double).Is 4 := ⟨false, by decide +kernel⟩
  obtain ⟨v, h1, h2⟩ := C112_double isZ tol ⟨dvec 1 2 3, dbl 2, dbl 1, dbl 4, tilt, 0⟩ (dvec 5 (9/4) 6) ⟨1, 2, 3⟩ ⟨5, 9/4, 6⟩ 2 1 4
    ((4 * s - 3 * t) / D) (1/4) ((4 * t + 3 * s) / D) (1 / 2 ^ 52) 20 1 (1/2) tiltQ
    (dv _ _ _ _ _ _ false false false (by decide +kernel)) i2 i1 i4 tilt_is tilt_near (by decide +kernel)
    (dv _ _ _ _ _ _ false false false (by decide +kernel)) (by ext <;> decide +kernel) (by decide +kernel) (by decide +kernel)
    (by decide +kernel) (by decide +kernel) (by decide +kernel) (by decide +kernel) (by decide +kernel) (by decide +kernel)
    (by decide +kernel)
  refine ⟨v, h1, ?_⟩
  have h3 : |(|(4 * t + 3 * s) / D| - 4 / 2) - 3| ≤ 1 / 10 ^ 13 := by decide +kernel
  have h4 := abs_sub_le v (|(4 * t + 3 * s) / D| - 4 / 2) 3
  have h5 : (9 * (1 / 2 ^ 53) * 20 + 4 * (1 / 2 ^ 52) * 20 : ℚ) ≤ 1 / 10 ^ 13 := by decide +kernel
  have h6 : (1 / 10 ^ 13 + 1 / 10 ^ 13 : ℚ) ≤ 1 / 10 ^ 12 := by norm_num
  exact h4.trans ((add_le_add (h2.trans h5) h3).trans h6)

end Blazert
