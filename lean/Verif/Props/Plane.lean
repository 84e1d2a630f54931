/- C33-C35, C41: planes (rectangles). -/
import Verif.Proofs.Plane
import Verif.Spec.Hits
import Verif.Samples
import Verif.SamplesReal

set_option autoImplicit false

namespace Blazert
open Scalar

variable {F : Fmt ℝ}


/-- **C33**.  For a ray with unit direction and nonnegative minimal distance `m`, the plane test accepts exactly when the ray
crosses the closed rectangle (i.e. it meets it and is not parallel to it) at a distance strictly between `m` and the closest
distance so far; it records this distance. -/
theorem C33_plane_exact (hF : F.Exact) (i : PlaneI (XF F)) (pl : Plane (XF F)) (ray : Ray (XF F))
    (c o d : Vec3 ℝ) (dx dy m : ℝ) (R : Mat3 ℝ) (hc : IsV pl.center c) (hx : pl.dx.Is dx) (hy : pl.dy.Is dy)
    (hr : IsM pl.rotation R) (hdx : 0 < dx) (hdy : 0 < dy) (hR : Orthonormal R)
    (ho : IsV i.rayOrg o) (hdir : IsV i.rayDir d) (hmin : i.minHit.Is m) (hd : sq d = 1) (hm : 0 ≤ m) :
    ((planeIntersect i pl ray).2 = true ↔
      Vec3.dot (perp R) d ≠ 0 ∧ ∃ t, m < t ∧ i.hd.Above t ∧ InRect c dx dy R (along o d t)) ∧
    ((planeIntersect i pl ray).2 = true → ∃ t, (planeIntersect i pl ray).1.hd.Is t ∧
      (∀ t', InRect c dx dy R (along o d t') ↔ t' = t) ∧ (planeIntersect i pl ray).1.primId = pl.primId) ∧
    ((planeIntersect i pl ray).2 = false → (planeIntersect i pl ray).1 = i) := by
  rcases planeIntersect_cases hF i pl ray c o d dx dy m R ⟨hc, hx, hy, hr⟩ hdx hdy hR ⟨ho, hdir, hmin⟩ hd hm with
    ⟨he, hn⟩ | ⟨hz, t, x, y, h1, h2, h3, k1, k2, k3, k4, n, hd', h4, he, _⟩
  · rw [he]
    refine ⟨⟨fun h => by simp at h, ?_⟩, fun h => by simp at h, fun _ => rfl⟩
    rintro ⟨h0, t, h1, h2, h3⟩
    rw [trans_mulVec_z] at hn
    exact absurd h3 (hn h0 t h1 h2)
  · rw [he]
    refine ⟨⟨fun _ => ⟨by rw [← trans_mulVec_z]; exact hz, t, h1, h2, x, y, k1, k2, k3, k4, h3⟩, fun _ => rfl⟩,
      fun _ => ⟨t, h4, fun t' => ⟨?_, ?_⟩, rfl⟩, fun h => by simp at h⟩
    · rintro ⟨x', y', _, _, _, _, h6⟩
      rw [hR.local_iff, trans_along] at h3 h6
      have e1 := congrArg Vec3.z h3; have e2 := congrArg Vec3.z h6
      simp only [along, Vec3.add_z, Vec3.smul_z] at e1 e2
      exact mul_right_cancel₀ hz (by linarith)
    · rintro rfl
      exact ⟨x, y, k1, k2, k3, k4, h3⟩

/-- a corner of the rectangle `[-1,1]²` is hit from above -/
example : (planeIntersect (T := XF exactFmt) ⟨rvec 0 0 0, rvec 1 1 3, rvec 0 0 (-1), rl 0, (rl 0, rl 0), rl 5, 0⟩
    ⟨rvec 0 0 0, rl 2, rl 2, idM, 4⟩ (Ray.make' (rvec 1 1 3) (rvec 0 0 (-1)))).2 = true := by
  rw [(C33_plane_exact exactFmt_exact _ _ _ ⟨0, 0, 0⟩ ⟨1, 1, 3⟩ ⟨0, 0, -1⟩ 2 2 0 idR (rvec_is _ _ _) (rl_is _) (rl_is _) idM_is
    (by norm_num) (by norm_num) idR_orthonormal (rvec_is _ _ _) (rvec_is _ _ _) (rl_is _) (by norm_num [sq, Vec3.dot])
    le_rfl).1]
  refine ⟨by norm_num [perp, idR, Vec3.dot], 3, by norm_num, .inr ⟨5, rl_is _, by norm_num⟩, 1, 1, by norm_num, by norm_num,
    by norm_num, by norm_num, ?_⟩
  ext <;> norm_num [along, Mat3.mulVec, idR, Vec3.dot]

/-- **C34**.  For a hit in the interior of the rectangle the reported normal is a unit vector perpendicular to the rectangle,
on the side of the ray's origin.  Missing: hits on the boundary, where the normal is tilted, see
`C34_edge_normal_tilted`. -/
theorem C34_plane_normal_partial (hF : F.Exact) (i i' : PlaneI (XF F)) (pl : Plane (XF F)) (ray : Ray (XF F))
    (rh rh' : RayHit (XF F)) (c o d : Vec3 ℝ) (dx dy m : ℝ) (R : Mat3 ℝ) (hc : IsV pl.center c) (hx : pl.dx.Is dx)
    (hy : pl.dy.Is dy) (hr : IsM pl.rotation R) (hdx : 0 < dx) (hdy : 0 < dy) (hR : Orthonormal R)
    (ho : IsV i.rayOrg o) (hdir : IsV i.rayDir d) (hmin : i.minHit.Is m) (hd : sq d = 1) (hm : 0 ≤ m)
    (hhit : planeIntersect i pl ray = (i', true)) (hpost : planePost i' rh = .ok rh')
    (hint : ∀ t x y, along o d t = c + R.mulVec ⟨x, y, 0⟩ → |x| ≠ dx / 2 ∧ |y| ≠ dy / 2) :
    ∃ n, IsV rh'.normal n ∧ len n = 1 ∧ (n = perp R ∨ n = Vec3.smul (-1) (perp R)) ∧ 0 < Vec3.dot n (o - c) ∧
      Vec3.dot n d < 0 := by
  rcases planeIntersect_cases hF i pl ray c o d dx dy m R ⟨hc, hx, hy, hr⟩ hdx hdy hR ⟨ho, hdir, hmin⟩ hd hm with
    ⟨he, hn⟩ | ⟨hz, t, x, y, h1, h2, h3, k1, k2, k3, k4, n, hd', h4, he, hs⟩
  · rw [he] at hhit; simp at hhit
  · rw [he] at hhit
    simp only [Prod.mk.injEq, and_true] at hhit
    subst hhit
    simp only [planePost, Except.ok.injEq] at hpost
    subst hpost
    obtain ⟨hx1, hy1⟩ := hint t x y h3
    exact plane_normal hF hdx hdy hR hz (lt_of_le_of_lt hm h1) h3 hs hx1 hy1

/-- the interior hypothesis of C34 can be met: the ray through the middle of the square -/
example : ∀ t x y, along (⟨0, 0, 3⟩ : Vec3 ℝ) ⟨0, 0, -1⟩ t = ⟨0, 0, 0⟩ + idR.mulVec ⟨x, y, 0⟩ →
    |x| ≠ (2 : ℝ) / 2 ∧ |y| ≠ (2 : ℝ) / 2 := by
  intro t x y h
  have h1 := congrArg Vec3.x h; have h2 := congrArg Vec3.y h
  simp [along, Mat3.mulVec, idR, Vec3.dot] at h1 h2
  subst h1 h2
  norm_num

/-- **C34** is false on the boundary: the square `[-1,1]²` in the plane `z = 0`, hit vertically at the point `(1,0,0)` of its
edge, reports a normal with a nonzero `x` component. -/
theorem C34_edge_normal_tilted :
    ∃ r, query stablePartition [.addPlanes [dvec 0 0 0] [dbl 2] [dbl 2] [⟨dvec 1 0 0, dvec 0 1 0, dvec 0 0 1⟩], .commit]
      (Ray.make' (dvec 1 0 3) (dvec 0 0 (-1))) RayHit.fresh = .ok r ∧
      (r.1 = true ∧ r.2.hitDistance = dbl 3 ∧ lt (dbl (1/2)) r.2.normal.x = true) :=
  exists_ok_of_eval (by decide +kernel)

/-- **C35**.  The box of a plane contains the center and every point of the rectangle (no assumption on the orientation
matrix is needed). -/
theorem C35_plane_box (hF : F.Exact) (center : Vec3 (XF F)) (dx' dy' : XF F) (rotation : Mat3 (XF F)) (c : Vec3 ℝ) (dx dy : ℝ)
    (R : Mat3 ℝ) (hc : IsV center c) (hx : dx'.Is dx) (hy : dy'.Is dy) (hr : IsM rotation R)
    (hdx : 0 ≤ dx) (hdy : 0 ≤ dy) :
    ∃ mn mx, IsV (planeBox center dx' dy' rotation).1 mn ∧ IsV (planeBox center dx' dy' rotation).2 mx ∧
      InBox mn mx c ∧ ∀ p, InRect c dx dy R p → InBox mn mx p :=
  planeBox_is hF center dx' dy' rotation c dx dy R hc hx hy hr hdx hdy

/-- the square of side 2 around `(1,1,1)` -/
example : ∃ mn mx, IsV (F := exactFmt) (planeBox (rvec 1 1 1) (rl 2) (rl 2) idM).1 mn ∧
    IsV (F := exactFmt) (planeBox (rvec 1 1 1) (rl 2) (rl 2) idM).2 mx ∧ InBox mn mx ⟨0, 2, 1⟩ := by
  obtain ⟨mn, mx, h1, h2, _, h3⟩ := C35_plane_box exactFmt_exact (rvec 1 1 1) (rl 2) (rl 2) idM ⟨1, 1, 1⟩ 2 2 idR (rvec_is _ _ _)
    (rl_is _) (rl_is _) idM_is (by norm_num) (by norm_num)
  refine ⟨mn, mx, h1, h2, h3 _ ⟨-1, 1, by norm_num, by norm_num, by norm_num, by norm_num, ?_⟩⟩
  ext <;> norm_num [Mat3.mulVec, idR, Vec3.dot]

/-- **C41**.  `distance_to_surface(plane, p)` is the smallest distance of `p` to a point of the rectangle, if the rectangle's
center is on the z axis and the foot of the perpendicular from `p` lies in the rectangle.  Missing: everything else, see
the two counterexamples below. -/
theorem C41_plane_distance_partial (hF : F.Exact) (pl : Plane (XF F)) (point : Vec3 (XF F)) (c p : Vec3 ℝ) (dx dy : ℝ)
    (R : Mat3 ℝ) (hc : IsV pl.center c) (hx : pl.dx.Is dx) (hy : pl.dy.Is dy) (hr : IsM pl.rotation R) (hR : Orthonormal R)
    (hp : IsV point p) (hcx : c.x = 0) (hcy : c.y = 0)
    (hfoot : ∃ h, InRect c dx dy R (p + Vec3.smul h (perp R))) :
    ∃ v, (planeDistance pl point).Is v ∧ IsLeast {x | ∃ q, InRect c dx dy R q ∧ x = dist3 p q} v := by
  have h2 : (nat 2 : XF F).Is 2 := by simpa using XF.Is.nat hF 2
  have hl := hr.trans.mulVec hF (hp.sub hF hc)
  have x2 := hx.div hF h2 two_ne_zero
  have y2 := hy.div hF h2 two_ne_zero
  set q := R.trans.mulVec (p - c) with hq
  have hpq : p = c + R.mulVec q := (hR.local_iff c p q).2 rfl
  obtain ⟨h, x, y, k1, k2, k3, k4, k5⟩ := hfoot
  have hloc : q + ⟨0, 0, h⟩ = ⟨x, y, 0⟩ := by
    rw [hR.local_iff] at k5
    rw [← k5, hq]
    have e1 : Vec3.smul h (perp R) = R.mulVec ⟨0, 0, h⟩ := by
      ext <;> simp [Mat3.mulVec, Vec3.dot, perp, mul_comm]
    have e2 : p + Vec3.smul h (perp R) - c = (p - c) + R.mulVec ⟨0, 0, h⟩ := by
      rw [e1]; ext <;> simp <;> ring
    rw [e2, Mat3.mulVec_add, hR.cols]
  have ex : q.x = x := by have := congrArg Vec3.x hloc; simpa using this
  have ey : q.y = y := by have := congrArg Vec3.y hloc; simpa using this
  have hdist : ∀ a b : ℝ, dist3 p (c + R.mulVec ⟨a, b, 0⟩) = len ⟨q.x - a, q.y - b, q.z⟩ := by
    intro a b
    unfold dist3
    have : p - (c + R.mulVec ⟨a, b, 0⟩) = R.mulVec ⟨q.x - a, q.y - b, q.z⟩ := by
      conv_lhs => rw [hpq]
      have : (⟨q.x - a, q.y - b, q.z⟩ : Vec3 ℝ) = q - ⟨a, b, 0⟩ := by ext <;> simp
      rw [this, Mat3.mulVec_sub]; ext <;> simp
    rw [this, hR.len]
  refine ⟨|q.z|, ?_, ?_, ?_⟩
  · unfold planeDistance
    have c0 := hc.1; have c1 := hc.2.1
    rw [hcx] at c0; rw [hcy] at c1
    simp only
    rw [if_pos]
    · exact hl.2.2.abs
    · rw [Bool.and_eq_true, Bool.and_eq_true, Bool.and_eq_true, hl.1.ge (c0.sub hF x2), hl.1.le (c0.add hF x2),
        hl.2.1.ge (c1.sub hF y2), hl.2.1.le (c1.add hF y2)]
      refine ⟨⟨⟨?_, ?_⟩, ?_⟩, ?_⟩ <;> linarith
  · refine ⟨c + R.mulVec ⟨x, y, 0⟩, ⟨x, y, k1, k2, k3, k4, rfl⟩, ?_⟩
    rw [hdist, ex, ey]
    symm
    rw [len]
    have : sq (⟨x - x, y - y, q.z⟩ : Vec3 ℝ) = q.z * q.z := by simp [sq, Vec3.dot]
    rw [this, Real.sqrt_mul_self_eq_abs]
  · rintro v ⟨w, ⟨a, b, _, _, _, _, rfl⟩, rfl⟩
    rw [hdist]
    exact abs_get_le_len ⟨q.x - a, q.y - b, q.z⟩ 2

/-- the distance of `(1/2,0,3)` to the square `[-1,1]²`: the hypotheses can be met -/
example : ∃ v, (planeDistance (T := XF exactFmt) ⟨rvec 0 0 0, rl 2, rl 2, idM, 0⟩ (rvec (1/2) 0 3)).Is v ∧
    IsLeast {x | ∃ q, InRect ⟨0, 0, 0⟩ 2 2 idR q ∧ x = dist3 ⟨1/2, 0, 3⟩ q} v := by
  refine C41_plane_distance_partial exactFmt_exact _ _ ⟨0, 0, 0⟩ ⟨1/2, 0, 3⟩ 2 2 idR (rvec_is _ _ _) (rl_is _) (rl_is _) idM_is
    idR_orthonormal (rvec_is _ _ _) rfl rfl ⟨-3, 1/2, 0, by norm_num, by norm_num, by norm_num, by norm_num, ?_⟩
  ext <;> norm_num [perp, idR, Mat3.mulVec, Vec3.dot]

/-- **C41** is false.  (1) The rectangle is looked for at twice its offset from the z axis: for the square of side 2 around
`(10,0,0)`, the point `(10,0,1)` straight above its center gets the largest number as distance, and (2) the point `(20,0,1)`,
9 units off its edge, gets the distance 1.  (3) A point beside the rectangle never gets a distance at all. -/
theorem C41_plane_distance_wrong :
    let id3 : Mat3 Double := ⟨dvec 1 0 0, dvec 0 1 0, dvec 0 0 1⟩
    planeDistance ⟨dvec 10 0 0, dbl 2, dbl 2, id3, 0⟩ (dvec 10 0 1) = maxVal ∧
    planeDistance ⟨dvec 10 0 0, dbl 2, dbl 2, id3, 0⟩ (dvec 20 0 1) = dbl 1 ∧
    planeDistance ⟨dvec 0 0 0, dbl 2, dbl 2, id3, 0⟩ (dvec 5 0 0) = maxVal := by
  decide +kernel

end Blazert
