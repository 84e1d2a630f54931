/- C119: from inside its tube, the distance to a cylinder is at most that to the nearer cap, with all roundings. -/
import Verif.Props.CylDistRound
import Verif.Proofs.CylDistUp

set_option autoImplicit false

namespace Blazert
open Scalar

section
variable {K : Type} [Field K] [LinearOrder K] [IsStrictOrderedRing K] [FloorRing K] {F : Fmt K}

/-- **C119**, general.  In any format that rounds: for a point `p = c + R (x, y, z)` inside the ellipse by a margin for the roundings, at any
height, whatever number `distance_to_surface` returns is at most the distance `||z| - h/2|` from the nearer cap, up to `18 u L + 8 ε L`,
whatever `blaze::isZero` says and whatever the search for the nearest point of the ellipse does.  Names as in C112. -/
theorem C119_at_most_cap (u η hi : K) (hF : F.Rounds u η hi) (isZ : XF F → XF F → Bool) (tol : XF F) (cy : Cylinder (XF F))
    (point : Vec3 (XF F)) (c p : Vec3 K) (a b h x y z ε L r μ v : K) (R : Mat3 K) (hc : IsV cy.center c) (ha : cy.a.Is a) (hb : cy.b.Is b)
    (hh : cy.height.Is h) (hr : IsM cy.rotation R) (hR : NearOrtho ε R) (hε : ε ≤ 1 / 1000) (hp : IsV point p)
    (hpos : p = c + R.mulVec ⟨x, y, z⟩) (hra : r ≤ a) (hrb : r ≤ b) (hh0 : 0 ≤ h)
    (hL : |p.x - c.x| + |p.y - c.y| + |p.z - c.z| + a + b + h ≤ L) (hs : Scale u η hi L) (hsr : Scale u η hi r)
    (hμ : 60 * ((u + ε) * L) ≤ μ * r) (hin : x ^ 2 / a ^ 2 + y ^ 2 / b ^ 2 ≤ 1 - μ) (hv : (cylDistance isZ tol cy point).Is v) :
    v ≤ |(|z|) - h / 2| + (18 * u * L + 8 * ε * L) := by
  obtain ⟨u0, u1, η0, ηu, ηL, ηLL, ηuLL, ηuL, L0, uL0, uLL0, uL1, uLL1, hi1, hiL, hiLL⟩ := hs.sizes
  have x0 := abs_nonneg (p.x - c.x)
  have y0 := abs_nonneg (p.y - c.y)
  have z0 := abs_nonneg (p.z - c.z)
  have r0 := hsr.pos
  have ε0 := hR.rows.nonneg
  have εL0 : 0 ≤ ε * L := mul_nonneg ε0 L0.le
  have hrL : r ≤ L := by linarith
  have e1 : 18 * u * L + 8 * ε * L = 2 * ((6 * (u * L) + 4 * (ε * L)) + 3 * (u * L)) := by ring
  rw [e1]
  obtain ⟨q, q1, qx, qy, qz, qL⟩ := plane_coords hF hs hp hc hr hR hε (by linarith) hpos
  dsimp only at qx qy qz
  generalize hM : 6 * (u * L) + 4 * (ε * L) = M at *
  have M0 : 0 ≤ M := by rw [← hM]; linarith
  have e2 : M / r * r = M := div_mul_cancel₀ _ r0.ne'
  have e3 : 60 * ((u + ε) * L) = 60 * (u * L) + 60 * (ε * L) := by ring
  have hθ : 10 * (M / r) ≤ μ := by
    rw [mul_div_assoc', div_le_iff₀ r0, ← hM]
    linarith
  have hμu : 60 * u ≤ μ := by
    have h1 := mul_le_mul_of_nonneg_left hrL u0.le
    have h2 : 60 * u * r ≤ μ * r := by linarith
    exact le_of_mul_le_mul_right h2 r0
  obtain ⟨e, el1, el2⟩ := ell_neg hF hs hsr q1.1 q1.2.1 ha hb (by rw [e2]; exact qx) (by rw [e2]; exact qy) (div_nonneg M0 r0.le) hθ hμu
    hra (by linarith) hrb (by linarith) hin
  obtain ⟨⟨H, i1, i2⟩, ⟨H', j1, j2⟩, ⟨d, d1, d2⟩, ⟨f, f1, f2⟩⟩ := cap_dists hF hs q1.2.2 hh qz qL (by rw [abs_of_nonneg hh0]; linarith)
  have d3 := (abs_le.1 d2).2
  have f3 := (abs_le.1 f2).2
  obtain ⟨iL, iR⟩ := abs_le.1 i2
  obtain ⟨jL, jR⟩ := abs_le.1 j2
  obtain ⟨zL, zR⟩ := abs_le.1 qz
  have both : v ≤ d → v ≤ f → v ≤ |z - h / 2| + 2 * (M + 3 * (u * L)) ∧ v ≤ |z + h / 2| + 2 * (M + 3 * (u * L)) := fun k1 k2 =>
    ⟨by linarith, by linarith⟩
  have hmin : (minOf (abs ((cy.rotation.trans.mulVec (point - cy.center)).z - cy.height / nat 2))
      [abs ((cy.rotation.trans.mulVec (point - cy.center)).z + cy.height / nat 2)]).Is v →
      v ≤ |z - h / 2| + 2 * (M + 3 * (u * L)) ∧ v ≤ |z + h / 2| + 2 * (M + 3 * (u * L)) := by
    intro k
    obtain rfl := k.unique (d1.min f1)
    exact both (min_le_left _ _) (min_le_right _ _)
  have key : v ≤ |z - h / 2| + 2 * (M + 3 * (u * L)) ∧ v ≤ |z + h / 2| + 2 * (M + 3 * (u * L)) := by
    unfold cylDistance at hv
    dsimp only at hv
    split at hv
    · split at hv
      · exact hmin hv
      · obtain ⟨m, h1, h2⟩ := minOf_is ha _ _ (.cons hb (.cons d1 (.cons f1 .nil)))
        obtain rfl := h1.unique hv
        exact both (h2 _ (by simp)) (h2 _ (by simp))
    split at hv
    · split at hv
      · exact hmin hv
      · obtain rfl := hv.unique hF.nat0
        have k1 := abs_nonneg (z - h / 2)
        have k2 := abs_nonneg (z + h / 2)
        exact ⟨by linarith, by linarith⟩
    rw [if_pos ((el1.lt hF.nat0).2 el2)] at hv
    split at hv
    · rename_i k
      have k := (q1.2.2.ge i1).1 k
      obtain rfl := hv.unique d1
      exact top_cap (M := M + u * L) hh0 (by linarith) (by linarith) (by linarith) (by linarith)
    split at hv
    · rename_i k
      have k := (q1.2.2.le j1).1 k
      obtain rfl := hv.unique f1
      exact bottom_cap (M := M + u * L) hh0 (by linarith) (by linarith) (by linarith) (by linarith)
    · obtain ⟨k1, k2⟩ := minOf_caps f1 d1 hv
      exact both k2 k1
  exact nearer_cap hh0 key.1 key.2

end

/-- **C119** for `double`. -/
theorem C119_double (isZ : Double → Double → Bool) (tol : Double) (cy : Cylinder Double)
    (point : Vec3 Double) (c p : Vec3 ℚ) (a b h x y z ε L r μ v : ℚ) (R : Mat3 ℚ) (hc : IsV cy.center c) (ha : cy.a.Is a) (hb : cy.b.Is b)
    (hh : cy.height.Is h) (hr : IsM cy.rotation R) (hR : NearOrtho ε R) (hε : ε ≤ 1 / 1000) (hp : IsV point p)
    (hpos : p = c + R.mulVec ⟨x, y, z⟩) (hra : r ≤ a) (hrb : r ≤ b) (hh0 : 0 ≤ h)
    (hL : |p.x - c.x| + |p.y - c.y| + |p.z - c.z| + a + b + h ≤ L) (hr0 : 1 / 2 ^ 484 ≤ r) (hL2 : L ≤ 2 ^ 500)
    (hμ : 60 * ((1 / 2 ^ 53 + ε) * L) ≤ μ * r) (hin : x ^ 2 / a ^ 2 + y ^ 2 / b ^ 2 ≤ 1 - μ)
    (hv : (cylDistance isZ tol cy point).Is v) : v ≤ |(|z|) - h / 2| + (18 * (1 / 2 ^ 53) * L + 8 * ε * L) := by
  have x0 := abs_nonneg (p.x - c.x)
  have y0 := abs_nonneg (p.y - c.y)
  have z0 := abs_nonneg (p.z - c.z)
  have r0 : 0 < r := lt_of_lt_of_le (by decide +kernel) hr0
  have hrL : r ≤ L := by linarith
  exact C119_at_most_cap _ _ _ rounds_double isZ tol cy point c p a b h x y z ε L r μ v R hc ha hb hh hr hR hε hp hpos hra hrb hh0 hL
    (scale_double (hr0.trans hrL) hL2) (scale_double hr0 (hrL.trans hL2)) hμ hin hv

/-- **C119** for `float`. -/
theorem C119_float (isZ : Single → Single → Bool) (tol : Single) (cy : Cylinder Single)
    (point : Vec3 Single) (c p : Vec3 ℚ) (a b h x y z ε L r μ v : ℚ) (R : Mat3 ℚ) (hc : IsV cy.center c) (ha : cy.a.Is a) (hb : cy.b.Is b)
    (hh : cy.height.Is h) (hr : IsM cy.rotation R) (hR : NearOrtho ε R) (hε : ε ≤ 1 / 1000) (hp : IsV point p)
    (hpos : p = c + R.mulVec ⟨x, y, z⟩) (hra : r ≤ a) (hrb : r ≤ b) (hh0 : 0 ≤ h)
    (hL : |p.x - c.x| + |p.y - c.y| + |p.z - c.z| + a + b + h ≤ L) (hr0 : 1 / 2 ^ 51 ≤ r) (hL2 : L ≤ 2 ^ 60)
    (hμ : 60 * ((1 / 2 ^ 24 + ε) * L) ≤ μ * r) (hin : x ^ 2 / a ^ 2 + y ^ 2 / b ^ 2 ≤ 1 - μ)
    (hv : (cylDistance isZ tol cy point).Is v) : v ≤ |(|z|) - h / 2| + (18 * (1 / 2 ^ 24) * L + 8 * ε * L) := by
  have x0 := abs_nonneg (p.x - c.x)
  have y0 := abs_nonneg (p.y - c.y)
  have z0 := abs_nonneg (p.z - c.z)
  have r0 : 0 < r := lt_of_lt_of_le (by decide +kernel) hr0
  have hrL : r ≤ L := by linarith
  exact C119_at_most_cap _ _ _ rounds_float isZ tol cy point c p a b h x y z ε L r μ v R hc ha hb hh hr hR hε hp hpos hra hrb hh0 hL
    (scale_float (hr0.trans hrL) hL2) (scale_float hr0 (hrL.trans hL2)) hμ hin hv

/-- The tilted cylinder of the example for C112, and a point in it, 3/10 below its upper cap, off the axis: the result is at most 3/10, up to
rounding.  The hypotheses can be met. -/
example : ∃ v, (cylDistance (fun x y => eq x (nat 0) && eq y (nat 0)) (dbl (1/10^7)) ⟨dvec 1 2 3, dbl 2, dbl 1, dbl 4, tilt, 0⟩
    (dvec 2 (9/4) (9/2))).Is v ∧ 1 / 4 < v ∧ v ≤ 3 / 10 + 1 / 10 ^ 12 := by
  have dv : ∀ x y z x' y' z' : ℚ, ∀ sx sy sz, dvec x y z = ⟨.fin x' sx, .fin y' sy, .fin z' sz⟩ →
      IsV (dvec x y z) ⟨x', y', z'⟩ := by
    intro x y z x' y' z' sx sy sz e
    rw [e]
    exact ⟨⟨_, rfl⟩, ⟨_, rfl⟩, ⟨_, rfl⟩⟩
  let s : ℚ := 5404319552844595 / 2 ^ 53
  let t : ℚ := 3602879701896397 / 2 ^ 52
  let D : ℚ := s * s + t * t
  have i2 : (dbl 2 : Double).Is 2 := ⟨false, by decide +kernel⟩
  have i1 : (dbl 1 : Double).Is 1 := ⟨false, by decide +kernel⟩
  have i4 : (dbl 4 : Double).Is 4 := ⟨false, by decide +kernel⟩
  have hv : (cylDistance (fun x y => eq x (nat 0) && eq y (nat 0)) (dbl (1/10^7)) ⟨dvec 1 2 3, dbl 2, dbl 1, dbl 4, tilt, 0⟩
      (dvec 2 (9/4) (9/2))).Is (1351079888211149 / 4503599627370496) := ⟨false, by decide +kernel⟩
  have key := C119_double (fun x y => eq x (nat 0) && eq y (nat 0)) (dbl (1/10^7)) ⟨dvec 1 2 3, dbl 2, dbl 1, dbl 4, tilt, 0⟩ (dvec 2 (9/4) (9/2))
    ⟨1, 2, 3⟩ ⟨2, 9/4, 9/2⟩ 2 1 4 ((s - 3 / 2 * t) / D) (1/4) ((t + 3 / 2 * s) / D) (1 / 2 ^ 52) 20 1 (1/2) _ tiltQ
    (dv _ _ _ _ _ _ false false false (by decide +kernel)) i2 i1 i4 tilt_is tilt_near (by decide +kernel)
    (dv _ _ _ _ _ _ false false false (by decide +kernel)) (by ext <;> decide +kernel) (by decide +kernel) (by decide +kernel)
    (by decide +kernel) (by decide +kernel) (by decide +kernel) (by decide +kernel) (by decide +kernel) (by decide +kernel) hv
  exact ⟨_, hv, by norm_num, key.trans (by decide +kernel)⟩

end Blazert
