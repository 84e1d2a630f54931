/- C114: the distance to a cylinder from points between its caps is one to a point near the surface, with all roundings. -/
import Verif.Props.CylDistSign
import Verif.Proofs.CylDistLow

set_option autoImplicit false

namespace Blazert
open Scalar

section
variable {K : Type} [Field K] [LinearOrder K] [IsStrictOrderedRing K] [FloorRing K] {F : Fmt K}

/-- **C114**, general.  In any format that rounds: for a point `p = c + R (x, y, z)` between the caps of an elliptic cylinder (by a margin
for the roundings), inside or outside of the ellipse, whatever number `distance_to_surface` returns is the distance from `p` to some point
on the surface, up to `120 u L² + 34 ε L²` in its square and `μ` in the equation of the ellipse.  So the result is not less than the distance
from the surface, up to this.  (It may be NaN, see `C44_nan`, and more than the distance, see `C44_overestimate`.)  `L` bounds the sizes, `r` is at most
the half axes, `ε` is the deviation of the matrix from an orthonormal one. -/
theorem C114_between_caps (u η hi : K) (hF : F.Rounds u η hi) (hfa : F.Faithful u η) (hm : F.Monotone) (heps0 : 0 < F.eps)
    (heps : F.eps ≤ 2 * u) (isZ : XF F → XF F → Bool) (tol : XF F) (cy : Cylinder (XF F))
    (point : Vec3 (XF F)) (c p : Vec3 K) (a b h x y z ε L r μ v : K) (R : Mat3 K) (hc : IsV cy.center c) (ha : cy.a.Is a) (hb : cy.b.Is b)
    (hh : cy.height.Is h) (hr : IsM cy.rotation R) (hR : NearOrtho ε R) (hε : ε ≤ 1 / 1000) (hp : IsV point p)
    (hpos : p = c + R.mulVec ⟨x, y, z⟩) (hra : r ≤ a) (hrb : r ≤ b) (hh0 : 0 ≤ h)
    (hL : |p.x - c.x| + |p.y - c.y| + |p.z - c.z| + a + b + h ≤ L) (hs : Scale u η hi L) (hsr : Scale u η hi r)
    (hηr : η * L ≤ u ^ 2 * r) (hμ : 60 * ((u + ε) * L) ≤ μ * r) (hμ1 : μ ≤ 1) (hz : |z| + (9 * u * L + 4 * ε * L) ≤ h / 2)
    (hZ : isZ (cy.rotation.trans.mulVec (point - cy.center)).x (cy.rotation.trans.mulVec (point - cy.center)).y = false)
    (hv : (cylDistance isZ tol cy point).Is v) :
    0 ≤ v ∧ ∃ q : Vec3 K, NearSurface a b h μ q ∧
      |v ^ 2 - ((x - q.x) ^ 2 + (y - q.y) ^ 2 + (z - q.z) ^ 2)| ≤ 120 * (u * L ^ 2) + 34 * (ε * L ^ 2) := by
  have hz' := hs.sizes
  have u0 := hz'.u0
  have u1 := hz'.u1
  have L0 := hz'.L0
  have uL0 := hz'.uL0
  have uL1 := hz'.uL1
  have x0 := abs_nonneg (p.x - c.x)
  have y0 := abs_nonneg (p.y - c.y)
  have z0 := abs_nonneg (p.z - c.z)
  have r0 := hsr.pos
  have a0 : 0 < a := r0.trans_le hra
  have b0 : 0 < b := r0.trans_le hrb
  have ε0 := hR.rows.nonneg
  have εL0 : 0 ≤ ε * L := mul_nonneg ε0 L0.le
  have εL1 : ε * L ≤ 1 / 1000 * L := mul_le_mul_of_nonneg_right hε L0.le
  have hrL : r ≤ L := by linarith
  have haL : a ≤ L := by linarith
  have hbL : b ≤ L := by linarith
  have e1 : 9 * u * L + 4 * ε * L = (6 * (u * L) + 4 * (ε * L)) + 3 * (u * L) := by ring
  rw [e1] at hz
  obtain ⟨q, q1, qx, qy, qz, qL⟩ := plane_coords hF hs hp hc hr hR hε (by linarith) hpos
  obtain ⟨q', q1', qx', qy'⟩ := coords_finite hF hs hp hc hr hR hε (by linarith)
  obtain rfl := q1'.unique q1
  dsimp only at qx qy qz
  obtain ⟨M, hM⟩ : ∃ M, M = 6 * (u * L) + 4 * (ε * L) := ⟨_, rfl⟩
  rw [← hM] at qx qy qz hz
  have M0 : 0 ≤ M := by rw [hM]; linarith
  have hML : M + 3 * (u * L) ≤ 1 / 100 * L := by rw [hM]; linarith
  have e2 : M / r * r = M := div_mul_cancel₀ _ r0.ne'
  have e3 : 60 * ((u + ε) * L) = 60 * (u * L) + 60 * (ε * L) := by ring
  have hθ : 10 * (M / r) ≤ μ := by
    rw [mul_div_assoc', div_le_iff₀ r0, hM]
    linarith
  have hμu : 60 * u ≤ μ := by
    have h1 := mul_le_mul_of_nonneg_left hrL u0.le
    have h2 : 60 * u * r ≤ μ * r := by linarith
    exact le_of_mul_le_mul_right h2 r0
  have hzh : |z| ≤ h / 2 := by linarith
  obtain ⟨⟨H, i1, i2⟩, ⟨H', j1, j2⟩, ⟨d, d1, d2⟩, ⟨f, f1, f2⟩⟩ := cap_dists hF hs q1.2.2 hh qz qL (by rw [abs_of_nonneg hh0]; linarith)
  obtain ⟨iL, iR⟩ := abs_le.1 i2
  obtain ⟨jL, jR⟩ := abs_le.1 j2
  obtain ⟨zL, zR⟩ := abs_le.1 qz
  have zl := neg_abs_le z
  have zr := le_abs_self z
  have cH : q'.z < H := by linarith
  have cH' : H' < q'.z := by linarith
  have T0 : 0 ≤ q'.x ^ 2 / a ^ 2 + q'.y ^ 2 / b ^ 2 := by positivity
  -- the equation of the ellipse, if it is a number
  have hel : ∀ e, (ellipseEquation cy.a cy.b (cy.rotation.trans.mulVec (point - cy.center)).x
      (cy.rotation.trans.mulVec (point - cy.center)).y).Is e → e ≤ 2 * u →
      x ^ 2 / a ^ 2 + y ^ 2 / b ^ 2 ≤ 1 + μ ∧ (-(2 * u) ≤ e → 1 - μ ≤ x ^ 2 / a ^ 2 + y ^ 2 / b ^ 2) := by
    intro e he h2
    have k := ell_value hF hfa hs hsr q1.1 q1.2.1 ha hb qx' qy' hra haL hrb hbL he
    obtain ⟨k1, k2, k3⟩ := ell_small u0 u1 T0 k h2
    obtain ⟨k4, k5⟩ := abs_le.1 (ell_given (θ := M / r) (div_nonneg M0 r0.le) (by rw [e2]; exact qx) (by rw [e2]; exact qy) r0 hra hrb rfl k1
      (by linarith))
    exact ⟨by linarith, fun k6 => by linarith [k3 k6]⟩
  -- the tube
  have side : ∀ w, (minDistEllipse tol cy.a cy.b (cy.rotation.trans.mulVec (point - cy.center)).x
      (cy.rotation.trans.mulVec (point - cy.center)).y).2.Is w → 0 ≤ w ∧ ∃ q : Vec3 K, NearSurface a b h μ q ∧
      |w ^ 2 - ((x - q.x) ^ 2 + (y - q.y) ^ 2 + (z - q.z) ^ 2)| ≤ 120 * (u * L ^ 2) + 34 * (ε * L ^ 2) := by
    intro w hw
    obtain ⟨k0, m, n, k1, k2, k3, k4⟩ := ellipse_dist hF hfa hs hsr hηr tol ha hb hra haL hrb hbL q1.1 q1.2.1 qx' qy' hw
    refine ⟨k0, ⟨m, n, z⟩, .inl ⟨k1.trans (by linarith), hzh⟩, ?_⟩
    have := side_given u0.le ε0 L0 hM (by linarith) qx qy k2 k3 k4
    dsimp only
    rwa [sub_self, zero_pow two_ne_zero, add_zero]
  -- the caps
  have cap : ∀ w t, |t| = h / 2 → 0 ≤ w → |w - (|z - t|)| ≤ M + 3 * (u * L) → x ^ 2 / a ^ 2 + y ^ 2 / b ^ 2 ≤ 1 + μ →
      0 ≤ w ∧ ∃ q : Vec3 K, NearSurface a b h μ q ∧
      |w ^ 2 - ((x - q.x) ^ 2 + (y - q.y) ^ 2 + (z - q.z) ^ 2)| ≤ 120 * (u * L ^ 2) + 34 * (ε * L ^ 2) := by
    intro w t ht hw hwt k
    refine ⟨hw, ⟨x, y, t⟩, .inr ⟨ht, k⟩, ?_⟩
    have := cap_given u0.le ε0 L0 (by rw [hM]) hML (w := z - t) ((abs_sub_le' hzh ht.le).trans (by linarith)) hwt
    dsimp only
    rwa [sub_self, sub_self, zero_pow two_ne_zero, zero_add, zero_add]
  have hh2 : |h / 2| = h / 2 := abs_of_nonneg (by linarith)
  have nout : ¬ (gt (cy.rotation.trans.mulVec (point - cy.center)).z (cy.height / nat 2) ||
      lt (cy.rotation.trans.mulVec (point - cy.center)).z (-cy.height / nat 2)) = true := by
    rw [Bool.or_eq_true, q1.2.2.gt i1, q1.2.2.lt j1]
    rintro (k | k) <;> linarith
  unfold cylDistance at hv
  dsimp only at hv
  rw [if_neg (by rw [hZ]; exact Bool.false_ne_true)] at hv
  by_cases c2 : lt (abs (ellipseEquation cy.a cy.b (cy.rotation.trans.mulVec (point - cy.center)).x
      (cy.rotation.trans.mulVec (point - cy.center)).y)) eps = true
  · rw [if_pos c2, if_neg nout] at hv
    obtain rfl := hv.unique hF.nat0
    obtain ⟨e, k1, k2⟩ := lt_abs_fin (b := F.eps) ⟨false, rfl⟩ c2
    obtain ⟨k3, k4⟩ := abs_lt.1 k2
    obtain ⟨k5, k6⟩ := hel e k1 (by linarith)
    have k7 := k6 (by linarith)
    refine ⟨le_refl _, ⟨x, y, z⟩, .inl ⟨abs_le.2 ⟨?_, ?_⟩, hzh⟩, ?_⟩
    · dsimp only; linarith
    · dsimp only; linarith
    · simp only [sub_self]
      rw [zero_pow two_ne_zero, add_zero, add_zero, sub_zero, abs_zero]
      positivity
  rw [if_neg c2] at hv
  have hnn := ell_not_nan hF hm hs hsr q1.1 q1.2.1 ha hb qx' qy' hra haL hrb hbL
  by_cases c3 : lt (ellipseEquation cy.a cy.b (cy.rotation.trans.mulVec (point - cy.center)).x
      (cy.rotation.trans.mulVec (point - cy.center)).y) (nat 0) = true
  · rw [if_pos c3, if_neg (fun k => absurd ((q1.2.2.ge i1).1 k) (not_le.2 cH)),
      if_neg (fun k => absurd ((q1.2.2.le j1).1 k) (not_le.2 cH'))] at hv
    obtain ⟨e, k1, k2⟩ := lt_fin hF.nat0 (ell_not_inf hF hm hs hsr q1.1 q1.2.1 ha hb qx' qy' hra haL hrb hbL) c3
    obtain ⟨k5, -⟩ := hel e k1 (by linarith)
    have hmem := minOf_mem (minDistEllipse tol cy.a cy.b (cy.rotation.trans.mulVec (point - cy.center)).x
      (cy.rotation.trans.mulVec (point - cy.center)).y).2 [abs ((cy.rotation.trans.mulVec (point - cy.center)).z + cy.height / nat 2),
      abs ((cy.rotation.trans.mulVec (point - cy.center)).z - cy.height / nat 2)]
    simp only [List.mem_cons, List.not_mem_nil, or_false] at hmem
    rcases hmem with k | k | k
    · rw [k] at hv
      exact side v hv
    · rw [k] at hv
      obtain rfl := hv.unique f1
      exact cap v (-(h / 2)) (by rw [abs_neg, hh2]) hv.abs_nonneg' (by rw [sub_neg_eq_add]; exact f2) k5
    · rw [k] at hv
      obtain rfl := hv.unique d1
      exact cap v (h / 2) hh2 hv.abs_nonneg' d2 k5
  · rw [if_neg c3, if_pos (not_nan_cases hnn hF.zero heps0 c2 c3), if_pos (by
      rw [Bool.and_eq_true, q1.2.2.lt i1, q1.2.2.gt j1]; exact ⟨cH, cH'⟩)] at hv
    exact side v hv

end

/-- **C114** for `double`. -/
theorem C114_double (isZ : Double → Double → Bool) (tol : Double) (cy : Cylinder Double) (point : Vec3 Double) (c p : Vec3 ℚ)
    (a b h x y z ε L r μ v : ℚ) (R : Mat3 ℚ) (hc : IsV cy.center c) (ha : cy.a.Is a) (hb : cy.b.Is b)
    (hh : cy.height.Is h) (hr : IsM cy.rotation R) (hR : NearOrtho ε R) (hε : ε ≤ 1 / 1000) (hp : IsV point p)
    (hpos : p = c + R.mulVec ⟨x, y, z⟩) (hra : r ≤ a) (hrb : r ≤ b) (hh0 : 0 ≤ h)
    (hL : |p.x - c.x| + |p.y - c.y| + |p.z - c.z| + a + b + h ≤ L) (hr0 : 1 / 2 ^ 484 ≤ r) (hL2 : L ≤ 2 ^ 484)
    (hμ : 60 * ((1 / 2 ^ 53 + ε) * L) ≤ μ * r) (hμ1 : μ ≤ 1) (hz : |z| + (9 * (1 / 2 ^ 53) * L + 4 * ε * L) ≤ h / 2)
    (hZ : isZ (cy.rotation.trans.mulVec (point - cy.center)).x (cy.rotation.trans.mulVec (point - cy.center)).y = false)
    (hv : (cylDistance isZ tol cy point).Is v) :
    0 ≤ v ∧ ∃ q : Vec3 ℚ, NearSurface a b h μ q ∧
      |v ^ 2 - ((x - q.x) ^ 2 + (y - q.y) ^ 2 + (z - q.z) ^ 2)| ≤ 120 * (1 / 2 ^ 53 * L ^ 2) + 34 * (ε * L ^ 2) := by
  have x0 := abs_nonneg (p.x - c.x)
  have y0 := abs_nonneg (p.y - c.y)
  have z0 := abs_nonneg (p.z - c.z)
  have r0 : 0 < r := lt_of_lt_of_le (by decide +kernel) hr0
  have hrL : r ≤ L := by linarith
  have hL3 : L ≤ 2 ^ 500 := hL2.trans (by decide +kernel)
  have h1 : (1 / 2 ^ 1075 : ℚ) * L ≤ 1 / 2 ^ 1075 * 2 ^ 484 := mul_le_mul_of_nonneg_left hL2 (by decide +kernel)
  have h2 : (1 / 2 ^ 53 : ℚ) ^ 2 * (1 / 2 ^ 484) ≤ (1 / 2 ^ 53) ^ 2 * r := mul_le_mul_of_nonneg_left hr0 (by decide +kernel)
  have h3 : (1 / 2 ^ 1075 * 2 ^ 484 : ℚ) ≤ (1 / 2 ^ 53) ^ 2 * (1 / 2 ^ 484) := by decide +kernel
  exact C114_between_caps _ _ _ rounds_double faithful_double Format.binary64_monotone (by decide +kernel) (by decide +kernel) isZ tol cy point
    c p a b h x y z ε L r μ v R hc ha hb hh hr hR hε hp hpos hra hrb hh0 hL (scale_double (hr0.trans hrL) hL3) (scale_double hr0 (hrL.trans hL3))
    (h1.trans (h3.trans h2)) hμ hμ1 hz hZ hv

/-- **C114** for `float`. -/
theorem C114_float (isZ : Single → Single → Bool) (tol : Single) (cy : Cylinder Single) (point : Vec3 Single) (c p : Vec3 ℚ)
    (a b h x y z ε L r μ v : ℚ) (R : Mat3 ℚ) (hc : IsV cy.center c) (ha : cy.a.Is a) (hb : cy.b.Is b)
    (hh : cy.height.Is h) (hr : IsM cy.rotation R) (hR : NearOrtho ε R) (hε : ε ≤ 1 / 1000) (hp : IsV point p)
    (hpos : p = c + R.mulVec ⟨x, y, z⟩) (hra : r ≤ a) (hrb : r ≤ b) (hh0 : 0 ≤ h)
    (hL : |p.x - c.x| + |p.y - c.y| + |p.z - c.z| + a + b + h ≤ L) (hr0 : 1 / 2 ^ 51 ≤ r) (hL2 : L ≤ 2 ^ 50)
    (hμ : 60 * ((1 / 2 ^ 24 + ε) * L) ≤ μ * r) (hμ1 : μ ≤ 1) (hz : |z| + (9 * (1 / 2 ^ 24) * L + 4 * ε * L) ≤ h / 2)
    (hZ : isZ (cy.rotation.trans.mulVec (point - cy.center)).x (cy.rotation.trans.mulVec (point - cy.center)).y = false)
    (hv : (cylDistance isZ tol cy point).Is v) :
    0 ≤ v ∧ ∃ q : Vec3 ℚ, NearSurface a b h μ q ∧
      |v ^ 2 - ((x - q.x) ^ 2 + (y - q.y) ^ 2 + (z - q.z) ^ 2)| ≤ 120 * (1 / 2 ^ 24 * L ^ 2) + 34 * (ε * L ^ 2) := by
  have x0 := abs_nonneg (p.x - c.x)
  have y0 := abs_nonneg (p.y - c.y)
  have z0 := abs_nonneg (p.z - c.z)
  have r0 : 0 < r := lt_of_lt_of_le (by decide +kernel) hr0
  have hrL : r ≤ L := by linarith
  have hL3 : L ≤ 2 ^ 60 := hL2.trans (by decide +kernel)
  have h1 : (1 / 2 ^ 150 : ℚ) * L ≤ 1 / 2 ^ 150 * 2 ^ 50 := mul_le_mul_of_nonneg_left hL2 (by decide +kernel)
  have h2 : (1 / 2 ^ 24 : ℚ) ^ 2 * (1 / 2 ^ 51) ≤ (1 / 2 ^ 24) ^ 2 * r := mul_le_mul_of_nonneg_left hr0 (by decide +kernel)
  have h3 : (1 / 2 ^ 150 * 2 ^ 50 : ℚ) ≤ (1 / 2 ^ 24) ^ 2 * (1 / 2 ^ 51) := by decide +kernel
  exact C114_between_caps _ _ _ rounds_float faithful_float Format.binary32_monotone (by decide +kernel) (by decide +kernel) isZ tol cy point
    c p a b h x y z ε L r μ v R hc ha hb hh hr hR hε hp hpos hra hrb hh0 hL (scale_float (hr0.trans hrL) hL3) (scale_float hr0 (hrL.trans hL3))
    (h1.trans (h3.trans h2)) hμ hμ1 hz hZ hv

/-- A tilted cylinder around `(1,2,3)` with the half axes 2 and 1 and the height 4, and a point inside of it: the result is about 0.693, the
distance to a point very near the surface.  The hypotheses can be met. -/
example : ∃ v, (cylDistance (fun _ _ => false) (dbl (1/10^7)) ⟨dvec 1 2 3, dbl 2, dbl 1, dbl 4, tilt, 0⟩ (dvec 2 (9/4) 3)).Is v ∧
    693/1000 ≤ v ∧ ∃ x z : ℚ, (⟨2, 9/4, 3⟩ : Vec3 ℚ) = ⟨1, 2, 3⟩ + tiltQ.mulVec ⟨x, 1/4, z⟩ ∧ ∃ q : Vec3 ℚ, NearSurface 2 1 4 (1 / 10 ^ 12) q ∧
      |v ^ 2 - ((x - q.x) ^ 2 + (1/4 - q.y) ^ 2 + (z - q.z) ^ 2)| ≤ 1 / 10 ^ 11 := by
  have dv : ∀ x y z x' y' z' : ℚ, ∀ sx sy sz, dvec x y z = ⟨.fin x' sx, .fin y' sy, .fin z' sz⟩ →
      IsV (dvec x y z) ⟨x', y', z'⟩ := by
    intro x y z x' y' z' sx sy sz e
    rw [e]
    exact ⟨⟨_, rfl⟩, ⟨_, rfl⟩, ⟨_, rfl⟩⟩
  let s : ℚ := 5404319552844595 / 2 ^ 53
  let t : ℚ := 3602879701896397 / 2 ^ 52
  let D : ℚ := s * s + t * t
  have i2 : (dbl 2 : Double).Is 2 := ⟨false, by decide +kernel⟩
  have i1 : (dbl 1 : Double).Is 1 := ⟨false, by decide +kernel⟩
  have i4 : (dbl 4 : Double).Is 4 := ⟨false, by decide +kernel⟩
  have hv : (cylDistance (fun _ _ => false) (dbl (1/10^7)) ⟨dvec 1 2 3, dbl 2, dbl 1, dbl 4, tilt, 0⟩ (dvec 2 (9/4) 3)).Is
      (6244636667554333 / 9007199254740992) := ⟨false, by decide +kernel⟩
  have hp : (⟨2, 9/4, 3⟩ : Vec3 ℚ) = ⟨1, 2, 3⟩ + tiltQ.mulVec ⟨s / D, 1/4, t / D⟩ := by ext <;> decide +kernel
  obtain ⟨-, q, q1, q2⟩ := C114_double (fun _ _ => false) (dbl (1/10^7)) ⟨dvec 1 2 3, dbl 2, dbl 1, dbl 4, tilt, 0⟩ (dvec 2 (9/4) 3)
    ⟨1, 2, 3⟩ ⟨2, 9/4, 3⟩ 2 1 4 (s / D) (1/4) (t / D) (1 / 2 ^ 52) 20 1 (1 / 10 ^ 12) _ tiltQ
    (dv _ _ _ _ _ _ false false false (by decide +kernel)) i2 i1 i4 tilt_is tilt_near (by decide +kernel)
    (dv _ _ _ _ _ _ false false false (by decide +kernel)) hp (by decide +kernel) (by decide +kernel)
    (by decide +kernel) (by decide +kernel) (by decide +kernel) (by decide +kernel) (by decide +kernel) (by decide +kernel)
    (by decide +kernel) rfl hv
  exact ⟨_, hv, by norm_num, _, _, hp, q, q1, q2.trans (by decide +kernel)⟩

end Blazert
