/- Property theorems C55, C56, C58, C59, C60: the Embree callbacks of single primitives. -/
import Verif.Proofs.EmbreeCylinder
import Verif.Props.Sphere
import Verif.Props.Cylinder
import Verif.Samples
import Verif.SamplesReal

set_option autoImplicit false
set_option linter.unusedSectionVars false

namespace Blazert
open Scalar

/-- a ray for Embree in exact arithmetic -/
noncomputable def embRtc (o u : Vec3 ℝ) (m M : ℝ) : RtcRayHit (XF exactFmt) :=
  ⟨⟨rvec o.x o.y o.z, rvec u.x u.y u.z, rl m, rl M⟩, ⟨rvec 0 0 0, rl 0, rl 0, 0, invalidId, invalidId⟩⟩

theorem embRtc_for (o u : Vec3 ℝ) (m M : ℝ) (hu : sq u = 1) (hm : 0 ≤ m) : (embRtc o u m M).ray.For o u m M :=
  ⟨rvec_is _ _ _, rvec_is _ _ _, rl_is _, rl_is _, hu, hm⟩

/-- a ray for Embree in binary32 -/
def embRtc32 (o u : Vec3 Single) (m M : Single) : RtcRayHit Single :=
  ⟨⟨o, u, m, M⟩, ⟨svec 0 0 0, sgl 0, sgl 0, 0, invalidId, invalidId⟩⟩

/-- the unit sphere, the square of side 2 and the cylinder of radius 1 and height 2, around the origin -/
noncomputable def embSphere0 : EmbSphere (XF exactFmt) := ⟨rvec 0 0 0, rl 1, 3⟩
@[inherit_doc embSphere0]
noncomputable def embPlane0 : EmbPlane (XF exactFmt) := ⟨rvec 0 0 0, rl 2, rl 2, idM, 3⟩
@[inherit_doc embSphere0]
noncomputable def embCyl0 : EmbCyl (XF exactFmt) := ⟨rvec 0 0 0, rl 1, rl 1, rl 2, idM, 3⟩

theorem embSphere0_for : embSphere0.For ⟨0, 0, 0⟩ 1 := ⟨rvec_is _ _ _, rl_is _, zero_le_one⟩
theorem embPlane0_for : embPlane0.For ⟨0, 0, 0⟩ 2 2 idR :=
  ⟨rvec_is _ _ _, rl_is _, rl_is _, idM_is, two_pos, two_pos, idR_orthonormal⟩
theorem embCyl0_for : embCyl0.For ⟨0, 0, 0⟩ 1 1 2 idR :=
  ⟨rvec_is _ _ _, rl_is _, rl_is _, rl_is _, idM_is, one_pos, one_pos, two_pos, idR_orthonormal⟩

/-- the cylinder of radius 1 and height 2 in binary32 -/
def embCyl32 : EmbCyl Single := ⟨svec 0 0 0, sgl 1, sgl 1, sgl 2, ⟨svec 1 0 0, svec 0 1 0, svec 0 0 1⟩, 3⟩

/-- a ray in binary32; the native tests ignore it -/
def embRay0 : Ray Single := Ray.make' (svec 0 0 0) (svec 1 0 0)

/-! ### C55 -/

/-- **C55** for planes, in any arithmetic with the special values of IEEE 754, if the extents are positive (with half of the extent
still representable). -/
theorem C55_planes {K : Type} [Field K] [LinearOrder K] [FloorRing K] {F : Fmt K} (p : EmbPlane (XF F)) (instID : Nat) (inf : XF F)
    (rh : RtcRayHit (XF F)) (hx : lt (-p.d1 / nat 2) (p.d1 / nat 2) = true) (hy : lt (-p.d2 / nat 2) (p.d2 / nat 2) = true) :
    OcclusionAgrees inf (.plane p) instID rh := p.occluded_agree instID inf rh hx hy

/-- the square of side 2 in binary32 and any ray -/
example (rh : RtcRayHit Single) :
    OcclusionAgrees (.inf false) (.plane ⟨svec 0 0 0, sgl 2, sgl 2, ⟨svec 1 0 0, svec 0 1 0, svec 0 0 1⟩, 3⟩) 0 rh :=
  C55_planes _ 0 _ rh (by decide +kernel) (by decide +kernel)

/-- the ball is convex -/
theorem sphere_between {c o u : Vec3 ℝ} {r t t' m : ℝ} (hr : 0 ≤ r) (hu : sq u = 1) (h : OnSphere c r (along o u t))
    (h' : OnSphere c r (along o u t')) (h1 : t' ≤ m) (h2 : m < t) : dist3 (along o u m) c ≤ r := by
  rw [onSphere_iff hr, hu] at h h'
  have key : sq (along o u m - c) = m * m * sq u + m * (2 * Vec3.dot (o - c) u) + sq (o - c) := by
    simp only [sq, along, Vec3.dot, Vec3.sub_x, Vec3.sub_y, Vec3.sub_z, Vec3.add_x, Vec3.add_y, Vec3.add_z, Vec3.smul_x, Vec3.smul_y,
      Vec3.smul_z]
    ring
  rw [hu] at key
  have hb : t + t' + 2 * Vec3.dot (o - c) u = 0 := by
    have : (t - t') * (t + t' + 2 * Vec3.dot (o - c) u) = 0 := by linear_combination h - h'
    rcases mul_eq_zero.1 this with h | h
    · linarith
    · exact h
  have hf : sq (along o u m - c) - r * r = (m - t) * (m - t') := by rw [key]; linear_combination h + (m - t) * hb
  unfold dist3 len
  rw [Real.sqrt_le_left hr, pow_two]
  nlinarith [mul_nonneg (show 0 ≤ t - m by linarith) (show 0 ≤ m - t' by linarith)]

section
variable {F : Fmt ℝ}

/-- **C55** for spheres in exact arithmetic, if the point at the distance `tnear` is outside the ball.  Missing: rays which start
inside, see `C55_sphere_from_inside`. -/
theorem C55_spheres_partial (hF : F.Exact) {s : EmbSphere (XF F)} (instID : Nat) {rh : RtcRayHit (XF F)} {c o u : Vec3 ℝ} {r m M : ℝ}
    (hs : s.For c r) (hr : rh.ray.For o u m M) (hout : r < dist3 (along o u m) c) :
    OcclusionAgrees (.inf false) (.sphere s) instID rh := by
  rcases EmbSphere.intersect_cases hF instID hs hr (Ray.make' rh.ray.org rh.ray.dir) with ⟨h1, -, h2⟩ | ⟨t, x, n, h1, h2, h3, h4, -, h5, -⟩
  · rcases EmbSphere.occluded_cases hF hs hr with ⟨k1, k2⟩ | ⟨k1, t, k2, k3, k4, k5⟩
    · exact .inl ⟨h1, k1⟩
    · exact absurd k4 (h2 t k2 k3)
  · rcases EmbSphere.occluded_cases hF hs hr with ⟨k1, k2⟩ | ⟨k1, -⟩
    · obtain ⟨t', k3, k4⟩ := k2 t h4 h2 h3
      exact absurd (sphere_between hs.nonneg hr.unit h4 k4 k3 h2) (not_le.2 hout)
    · exact .inr ⟨⟨_, _, h5⟩, k1⟩

/-- the unit sphere seen from `(-5,0,0)` -/
example : OcclusionAgrees (.inf false) (.sphere embSphere0) 0 (embRtc ⟨-5, 0, 0⟩ ⟨1, 0, 0⟩ 0 100) :=
  C55_spheres_partial exactFmt_exact 0 embSphere0_for (embRtc_for _ _ _ _ (by norm_num [sq, Vec3.dot]) le_rfl) (by
    have : (5 : ℝ) = dist3 (along ⟨-5, 0, 0⟩ ⟨1, 0, 0⟩ 0) ⟨0, 0, 0⟩ := by
      symm; rw [dist3_eq_iff (by norm_num)]; norm_num [sq, Vec3.dot, along]
    rw [← this]; norm_num)

/-- **C55** is false for spheres from inside: if the point at the distance `tnear` is inside and the ray leaves the sphere before
`tfar`, the intersection callback records a hit, but the occlusion callback never reports one. -/
theorem C55_sphere_from_inside (hF : F.Exact) {s : EmbSphere (XF F)} (instID : Nat) {rh : RtcRayHit (XF F)} {c o u : Vec3 ℝ}
    {r m M t : ℝ} (hs : s.For c r) (hr : rh.ray.For o u m M) (hin : dist3 (along o u m) c < r) (h1 : m < t) (h2 : t < M)
    (hon : OnSphere c r (along o u t)) :
    (∃ x n, Records rh (s.intersect instID rh) s.geomID x n) ∧ s.occluded (.inf false) rh.ray = rh.ray := by
  constructor
  · rcases EmbSphere.intersect_cases hF instID hs hr (Ray.make' rh.ray.org rh.ray.dir) with ⟨-, -, h⟩ | ⟨t, x, n, -, -, -, -, -, h5, -⟩
    · exact absurd hon (h t h1 h2)
    · exact ⟨_, _, h5⟩
  · rcases EmbSphere.occluded_cases hF hs hr with ⟨k1, -⟩ | ⟨-, t', k2, k3, k4, k5⟩
    · exact k1
    · rcases sphereRoots_cases hF hr.org hr.dir hs.center hs.radius hs.nonneg hr.unit with ⟨-, h⟩ | ⟨T0, T1, t0, t1, -, -, -, h01, hiff, hq⟩
      · exact absurd hon (h t)
      · have q1 := k5 t0 ((hiff t0).2 (.inl rfl))
        have q2 := hq m
        unfold dist3 len at hin
        rw [Real.sqrt_lt' (lt_of_le_of_lt (Real.sqrt_nonneg _) hin), pow_two] at hin
        nlinarith [mul_nonneg (show 0 ≤ t0 - m by linarith) (show 0 ≤ t1 - m by linarith)]

/-- the unit sphere seen from its center -/
example : (∃ x n, Records (embRtc ⟨0, 0, 0⟩ ⟨1, 0, 0⟩ 0 100) (embSphere0.intersect 0 (embRtc ⟨0, 0, 0⟩ ⟨1, 0, 0⟩ 0 100)) 3 x n) ∧
    embSphere0.occluded (.inf false) (embRtc ⟨0, 0, 0⟩ ⟨1, 0, 0⟩ 0 100).ray = (embRtc ⟨0, 0, 0⟩ ⟨1, 0, 0⟩ 0 100).ray :=
  C55_sphere_from_inside exactFmt_exact 0 embSphere0_for (embRtc_for ⟨0, 0, 0⟩ ⟨1, 0, 0⟩ _ _ (by norm_num [sq, Vec3.dot]) le_rfl) (by
    have : (0 : ℝ) = dist3 (along ⟨0, 0, 0⟩ ⟨1, 0, 0⟩ 0) ⟨0, 0, 0⟩ := by
      symm; rw [dist3_eq_iff (by norm_num)]; norm_num [sq, Vec3.dot, along]
    rw [← this]; norm_num) one_pos (by norm_num) (by
    change dist3 _ _ = _
    rw [dist3_eq_iff (by norm_num)]; norm_num [sq, Vec3.dot, along])

/-- **C55** for cylinders in exact arithmetic, if the origin is above the top, below the bottom, or strictly inside.  Missing: origins
at the side, where occlusions are reported which are none (`C55_cylinder_from_side`), and on the surface (`C55_cylinder_from_cap`). -/
theorem C55_cylinders_partial (hF : F.Exact) {y : EmbCyl (XF F)} (instID : Nat) {rh : RtcRayHit (XF F)} {c o u : Vec3 ℝ}
    {a b h m M : ℝ} {R : Mat3 ℝ} (hy : y.For c a b h R) (hr : rh.ray.For o u m M)
    (hpos : (∃ x w z, o = c + R.mulVec ⟨x, w, z⟩ ∧ h / 2 < |z|) ∨ InOpenCyl c a b h R o) (inf : XF F) :
    OcclusionAgrees inf (.cylinder y) instID rh := by
  have hh := hy.h_pos
  have ig := hy.rot.trans.mulVec hF (hr.org.sub hF hy.center)
  have ie := hy.rot.trans.mulVec hF hr.dir
  have fin : ∀ {o' : Bool} {b' : RtcRayHit (XF F)}, y.intersect instID rh = b' → y.isOccluded rh.ray.org rh.ray.dir = o' →
      OccAgree rh y.geomID o' b' → OcclusionAgrees inf (.cylinder y) instID rh := by
    intro o' b' h1 h2 h3
    rcases h3 with ⟨h3, h4⟩ | ⟨h3, h4⟩
    · exact .inl ⟨h1.trans h3, by show (if _ then _ else _) = _; rw [h2, h4]; rfl⟩
    · exact .inr ⟨by obtain ⟨t, n, h⟩ := h3; subst h1; exact ⟨t, n, h⟩, by show (if _ then _ else _) = _; rw [h2, h4]; rfl⟩
  have hz : ∀ {x w z}, o = c + R.mulVec ⟨x, w, z⟩ → (R.trans.mulVec (o - c)).z = z := fun hc => by
    rw [(hy.orth.local_iff c _ _).1 hc]
  rcases EmbCyl.intersect_branches hF y instID hy hr (Ray.make' rh.ray.org rh.ray.dir) with ⟨_, h1, _, h2⟩ | ⟨_, h1, _, h2⟩ |
    ⟨z1, z2, hE, -⟩ | ⟨z1, z2, hE, h1, hn, h2⟩ | ⟨hz', hE, h1, -, h2⟩
  · exact fin h1 h2 (y.aboveBelow_occluded ..)
  · exact fin h1 h2 (y.aboveBelow_occluded ..)
  · exfalso
    rcases hpos with ⟨x, w, z, k1, k2⟩ | hin
    · rw [hz k1] at z1 z2
      exact absurd (abs_lt.2 ⟨z1, z2⟩) (not_lt.2 k2.le)
    · have := (inOpenCyl_along (o := o) (d := u) (c := c) (h := h) hy.orth hy.a_pos hy.b_pos 0).1 (by rw [along_zero]; exact hin)
      exact absurd this.1 (not_lt.2 hE.le)
  · rcases hpos with ⟨x, w, z, k1, k2⟩ | hin
    · exfalso
      rw [hz k1] at z1 z2
      exact absurd (abs_le.2 ⟨z1, z2⟩) (not_le.2 k2)
    · have hl := (inOpenCyl_along (o := o) (d := u) (c := c) (h := h) hy.orth hy.a_pos hy.b_pos 0).1 (by rw [along_zero]; exact hin)
      have hl2 := hl.2.1; have hl3 := hl.2.2
      rw [zero_mul, add_zero] at hl2 hl3
      have hocc := EmbCyl.inside_occluded hF hy ig ie hl2 hl3 hl.1
      have hag := EmbCyl.agree hF y instID hy hr (Ray.make' rh.ray.org rh.ray.dir)
      obtain ⟨n, hrec⟩ := hag.hit (C37_inside_partial hF _ (hy.test hr) hin).1
      exact fin rfl (h2.trans hocc) (.inr ⟨⟨_, _, hrec⟩, rfl⟩)
  · exfalso
    rcases hpos with ⟨x, w, z, k1, k2⟩ | hin
    · rw [hz k1] at hz'
      rcases hz' with rfl | rfl
      · rw [abs_of_pos (by linarith)] at k2; linarith
      · rw [abs_neg, abs_of_pos (by linarith)] at k2; linarith
    · have := (inOpenCyl_along (o := o) (d := u) (c := c) (h := h) hy.orth hy.a_pos hy.b_pos 0).1 (by rw [along_zero]; exact hin)
      exact absurd this.1 (not_lt.2 hE.le)

/-- the cylinder seen from above, obliquely -/
example : OcclusionAgrees (.inf false) (.cylinder embCyl0) 0 (embRtc ⟨-2, 0, 3⟩ ⟨3/5, 0, -4/5⟩ 0 100) :=
  C55_cylinders_partial exactFmt_exact 0 embCyl0_for (embRtc_for ⟨-2, 0, 3⟩ ⟨3/5, 0, -4/5⟩ _ _ (by norm_num [sq, Vec3.dot]) le_rfl)
    (.inl ⟨-2, 0, 3, sampleCyl_point _ _ _, by norm_num⟩) _

/-- **C55** for cylinders and any origin at the side, one direction, in any arithmetic with the special values of IEEE 754: where the
lateral occlusion test reports nothing, the lateral intersection test records nothing. -/
theorem C55_cylinder_side_partial {K : Type} [Field K] [LinearOrder K] [FloorRing K] {F : Fmt K} (y : EmbCyl (XF F)) (instID : Nat)
    (rh : RtcRayHit (XF F)) (zlow : XF F) (swap : Bool) (org dir : Vec3 (XF F)) (h : y.sideOccluded org dir = false) :
    y.lateral instID zlow swap org dir rh = rh := y.side_occluded instID rh zlow swap org dir h

/-- from `(-5,0,0)` away from the cylinder, in binary32 -/
example : embCyl32.lateral 0 (sgl 0) false (svec (-5) 0 0) (svec (-1) 0 0) (embRtc32 (svec (-5) 0 0) (svec (-1) 0 0) (sgl 0) (sgl 100)) =
    embRtc32 (svec (-5) 0 0) (svec (-1) 0 0) (sgl 0) (sgl 100) :=
  C55_cylinder_side_partial _ _ _ _ _ _ _ (by decide +kernel)

/-- **C55** is false for cylinders seen from the side: the ray from `(-5,0,0)` in the direction `(3/5,0,4/5)` passes far above the
cylinder of radius 1 and height 2 around the origin; nothing is hit, but an occlusion is reported. -/
theorem C55_cylinder_from_side :
    let ray := embRtc32 (svec (-5) 0 0) (svec (3/5) 0 (4/5)) (sgl 0) (sgl 100)
    (embCyl32.intersect 0 ray).hit.geomID = invalidId ∧ embCyl32.occluded (.inf false) ray.ray = ray.ray.block (.inf false) ∧
    ray.ray.block (.inf false) ≠ ray.ray := by
  refine ⟨by decide +kernel, ?_, fun h => ?_⟩
  · have : embCyl32.isOccluded (svec (-5) 0 0) (svec (3/5) 0 (4/5)) = true := by decide +kernel
    exact if_pos this
  · have := congrArg RtcRay.tfar h
    revert this
    decide +kernel

/-- **C55** is false for origins on a cap: the ray leaving the top upwards hits (at distance zero), but it is not occluded. -/
theorem C55_cylinder_from_cap :
    let ray := embRtc32 (svec 0 0 1) (svec 0 0 1) (sgl 0) (sgl 100)
    (embCyl32.intersect 0 ray).hit.geomID = 3 ∧ (embCyl32.intersect 0 ray).ray.tfar = sgl 0 ∧
    embCyl32.occluded (.inf false) ray.ray = ray.ray := by
  refine ⟨by decide +kernel, by decide +kernel, ?_⟩
  have : ¬ embCyl32.isOccluded (svec 0 0 1) (svec 0 0 1) = true := by decide +kernel
  exact if_neg this

/-! ### C56 -/

/-- **C56**, bounds, in any arithmetic: the bounds callbacks give the boxes of the native collections. -/
theorem C56_bounds {T : Type} [Scalar T] (s : EmbSphere T) (p : EmbPlane T) (y : EmbCyl T) :
    (UserGeom.sphere s).bounds = sphereBox s.native.center s.native.radius ∧
    (UserGeom.plane p).bounds = planeBox p.native.center p.native.dx p.native.dy p.native.rotation ∧
    (UserGeom.cylinder y).bounds = cylBox y.native.center y.native.a y.native.b y.native.height y.native.rotation := ⟨rfl, rfl, rfl⟩

/-- the box of the unit sphere around (1,2,3) in binary32 -/
example : (UserGeom.sphere ⟨svec 1 2 3, sgl 1, 0⟩ : UserGeom Single).bounds = (svec 0 1 2, svec 2 3 4) := by decide +kernel

/-- **C56** for planes, in any arithmetic: the callback records a hit if and only if the native test does, with the same distance, and
with the normal of the native test or the same divided by its length. -/
theorem C56_planes {T : Type} [Scalar T] (p : EmbPlane T) (instID : Nat) (rh : RtcRayHit T) (ray : Ray T) :
    ((planeIntersect rh.ray.planeI p.native ray).2 = false → p.intersect instID rh = rh) ∧
    ((planeIntersect rh.ray.planeI p.native ray).2 = true → ∃ n,
      Records rh (p.intersect instID rh) p.geomID (planeIntersect rh.ray.planeI p.native ray).1.hd n ∧
      (n = (planeIntersect rh.ray.planeI p.native ray).1.normal ∨
        n = Vec3.divs (planeIntersect rh.ray.planeI p.native ray).1.normal
          (Vec3.norm (planeIntersect rh.ray.planeI p.native ray).1.normal))) :=
  ⟨fun h => ((p.agree instID rh ray).miss h).1, (p.agree instID rh ray).hit⟩

/-- the square of side 2, in binary32, from above -/
example : ∃ n, Records (embRtc32 (svec 0 0 5) (svec 0 0 (-1)) (sgl 0) (sgl 100))
    ((⟨svec 0 0 0, sgl 2, sgl 2, ⟨svec 1 0 0, svec 0 1 0, svec 0 0 1⟩, 3⟩ : EmbPlane Single).intersect 0
      (embRtc32 (svec 0 0 5) (svec 0 0 (-1)) (sgl 0) (sgl 100))) 3 (sgl 5) n := by
  obtain ⟨n, h, _⟩ := (C56_planes (⟨svec 0 0 0, sgl 2, sgl 2, ⟨svec 1 0 0, svec 0 1 0, svec 0 0 1⟩, 3⟩ : EmbPlane Single) 0
    (embRtc32 (svec 0 0 5) (svec 0 0 (-1)) (sgl 0) (sgl 100)) embRay0).2 (by decide +kernel)
  have e : (planeIntersect (embRtc32 (svec 0 0 5) (svec 0 0 (-1)) (sgl 0) (sgl 100)).ray.planeI
    (EmbPlane.native ⟨svec 0 0 0, sgl 2, sgl 2, ⟨svec 1 0 0, svec 0 1 0, svec 0 0 1⟩, 3⟩) embRay0).1.hd = sgl 5 := by decide +kernel
  rw [e] at h
  exact ⟨n, h⟩

/-- **C56** for spheres, the answer, in any arithmetic: the callback records a hit if and only if the native test accepts. -/
theorem C56_sphere_answers {T : Type} [Scalar T] (s : EmbSphere T) (instID : Nat) (rh : RtcRayHit T) (ray : Ray T) :
    ((sphereIntersect rh.ray.sphereI s.native ray).2 = false → s.intersect instID rh = rh) ∧
    ((sphereIntersect rh.ray.sphereI s.native ray).2 = true → ∃ t n, Records rh (s.intersect instID rh) s.geomID t n) := by
  cases hr : sphereRoots rh.ray.org rh.ray.dir s.center s.radius with
  | none =>
    rw [EmbSphere.intersect_none hr, sphereIntersect_none (i := rh.ray.sphereI) (s := s.native) hr]
    exact ⟨fun _ => rfl, fun h => (by cases h)⟩
  | some x =>
    obtain ⟨t0, t1⟩ := x
    rw [EmbSphere.intersect_some hr, sphereIntersect_some (i := rh.ray.sphereI) (s := s.native) hr]
    have e : ∀ X, (gt X rh.ray.sphereI.minHit && lt X rh.ray.sphereI.hd) = rh.ray.within X := fun X => rfl
    rw [e, e]
    have r0 : ∀ t, ∃ t' n, Records rh (s.hit instID rh t) s.geomID t' n := fun t => ⟨_, _, s.hit_records instID rh t⟩
    cases rh.ray.within t0 <;> cases rh.ray.within t1
    · exact ⟨fun _ => rfl, fun h => (by cases h)⟩
    · exact ⟨fun h => (by cases h), fun _ => r0 t1⟩
    · refine ⟨fun h => (by cases h), fun _ => ?_⟩
      cases (s.hit instID rh t0).ray.within t1
      · exact r0 t0
      · exact ⟨_, _, ⟨rfl, rfl, rfl, rfl⟩⟩
    · refine ⟨fun h => (by cases h), fun _ => ?_⟩
      cases (s.hit instID rh t0).ray.within t1
      · exact r0 t0
      · exact ⟨_, _, ⟨rfl, rfl, rfl, rfl⟩⟩

/-- **C56** for spheres in exact arithmetic: with the same distance, too.  Missing: rounding. -/
theorem C56_spheres_partial (hF : F.Exact) {s : EmbSphere (XF F)} (instID : Nat) {rh : RtcRayHit (XF F)} {c o u : Vec3 ℝ} {r m M : ℝ}
    (hs : s.For c r) (hr : rh.ray.For o u m M) (ray : Ray (XF F)) (hhit : (sphereIntersect rh.ray.sphereI s.native ray).2 = true) :
    ∃ n, Records rh (s.intersect instID rh) s.geomID (sphereIntersect rh.ray.sphereI s.native ray).1.hd n := by
  rcases EmbSphere.intersect_cases hF instID hs hr ray with ⟨-, h, -⟩ | ⟨t, x, n, -, -, -, -, -, h5, -, rfl, -⟩
  · rw [h] at hhit; cases hhit
  · exact ⟨n, h5⟩

/-- the unit sphere from `(-5,0,0)`: the native test accepts -/
example : ∃ n, Records (embRtc ⟨-5, 0, 0⟩ ⟨1, 0, 0⟩ 0 100) (embSphere0.intersect 0 (embRtc ⟨-5, 0, 0⟩ ⟨1, 0, 0⟩ 0 100)) 3
    (sphereIntersect (embRtc ⟨-5, 0, 0⟩ ⟨1, 0, 0⟩ 0 100).ray.sphereI embSphere0.native
      (Ray.make' (rvec (-5) 0 0) (rvec 1 0 0))).1.hd n := by
  have hf := embRtc_for ⟨-5, 0, 0⟩ ⟨1, 0, 0⟩ 0 100 (by norm_num [sq, Vec3.dot]) le_rfl
  refine C56_spheres_partial exactFmt_exact 0 embSphere0_for hf _ ?_
  rcases EmbSphere.intersect_cases exactFmt_exact 0 embSphere0_for hf (Ray.make' (rvec (-5) 0 0) (rvec 1 0 0)) with
    ⟨-, -, h⟩ | ⟨t, x, n, -, -, -, -, -, -, h, -⟩
  · refine absurd ?_ (h 4 (by norm_num) (by norm_num))
    change dist3 _ _ = _
    rw [dist3_eq_iff (by norm_num)]; norm_num [sq, Vec3.dot, along]
  · exact h

/-- **C56** for cylinders in exact arithmetic: the callback records a hit if and only if the native test accepts, with the same
distance; and with the same normal, if the origin is not in the solid.  Missing: rounding, see `C56_false`. -/
theorem C56_cylinders_partial (hF : F.Exact) {y : EmbCyl (XF F)} (instID : Nat) {rh : RtcRayHit (XF F)} {c o u : Vec3 ℝ}
    {a b h m M : ℝ} {R : Mat3 ℝ} (hy : y.For c a b h R) (hr : rh.ray.For o u m M) (ray : Ray (XF F)) :
    ((cylIntersect rh.ray.planeI y.native ray).2 = false → y.intersect instID rh = rh) ∧
    ((cylIntersect rh.ray.planeI y.native ray).2 = true → ∃ n,
      Records rh (y.intersect instID rh) y.geomID (cylIntersect rh.ray.planeI y.native ray).1.hd n ∧
      (¬ InCyl c a b h R o → n = (cylIntersect rh.ray.planeI y.native ray).1.normal)) := by
  have hag := EmbCyl.agree hF y instID hy hr ray
  refine ⟨fun h => (hag.miss h).1, fun hh => ?_⟩
  by_cases h0 : InCyl c a b h R o
  · obtain ⟨n, hn⟩ := hag.hit hh
    exact ⟨n, hn, fun h => absurd h0 h⟩
  · exact ⟨_, (EmbCyl.agree_outside hF y instID hy hr ray h0).hit hh, fun _ => rfl⟩

/-- from the center of the cylinder, obliquely -/
example : ∃ n, Records (embRtc ⟨0, 0, 0⟩ ⟨4/5, 0, 3/5⟩ 0 100) (embCyl0.intersect 0 (embRtc ⟨0, 0, 0⟩ ⟨4/5, 0, 3/5⟩ 0 100)) 3
    (cylIntersect (embRtc ⟨0, 0, 0⟩ ⟨4/5, 0, 3/5⟩ 0 100).ray.planeI embCyl0.native (Ray.make' (rvec 0 0 0) (rvec (4/5) 0 (3/5)))).1.hd n := by
  have hf := embRtc_for ⟨0, 0, 0⟩ ⟨4/5, 0, 3/5⟩ 0 100 (by norm_num [sq, Vec3.dot]) le_rfl
  obtain ⟨n, h, _⟩ := (C56_cylinders_partial exactFmt_exact 0 embCyl0_for hf (Ray.make' (rvec 0 0 0) (rvec (4/5) 0 (3/5)))).2
    (C37_inside_partial exactFmt_exact _ (embCyl0_for.test hf)
      ⟨0, 0, 0, by norm_num, by norm_num, by norm_num, sampleCyl_point _ _ _⟩).1
  exact ⟨n, h⟩

/-- **C56** is false in binary32: the origin `(-14529496/2^24, 1/2, 0)` is on the cylinder of radius 1 up to rounding; for the ray into
the cylinder the native test reports the distance `2^-24` and the callback more than 1. -/
theorem C56_false :
    let ray := embRtc32 (svec (-14529496/2^24) (1/2) 0) (svec 1 0 0) (sgl 0) (sgl 100)
    (cylIntersect ray.ray.planeI embCyl32.native embRay0).2 = true ∧
    (cylIntersect ray.ray.planeI embCyl32.native embRay0).1.hd = sgl (1/2^24) ∧
    (embCyl32.intersect 0 ray).hit.geomID = 3 ∧ lt (sgl 1) (embCyl32.intersect 0 ray).ray.tfar = true := by
  refine ⟨by decide +kernel, by decide +kernel, by decide +kernel, by decide +kernel⟩

end

/-! ### C58 -/

section
variable {F : Fmt ℝ}

/-- **C58** for spheres: the distance is the smallest distance of the point to a point of the sphere. -/
theorem C58_sphere_distance (hF : F.Exact) (s : EmbSphere (XF F)) (point : Vec3 (XF F)) (c p : Vec3 ℝ) (r : ℝ) (hs : s.For c r)
    (hp : IsV point p) : ∃ v, (s.distance point).Is v ∧ IsLeast {x | ∃ q, OnSphere c r q ∧ x = dist3 p q} v :=
  C40_sphere_distance hF s.native point c p r hs.center hs.radius hs.nonneg hp

/-- **C58** for planes and a point of the rectangle.  Missing: all other points, see `C58_plane_always_zero`. -/
theorem C58_plane_distance_partial (hF : F.Exact) (pl : EmbPlane (XF F)) (point : Vec3 (XF F)) (c p : Vec3 ℝ) (dx dy : ℝ) (R : Mat3 ℝ)
    (hin : InRect c dx dy R p) :
    ∃ v, (pl.distance point).Is v ∧ IsLeast {x | ∃ q, InRect c dx dy R q ∧ x = dist3 p q} v := by
  refine ⟨0, XF.Is.zero hF, ⟨p, hin, ?_⟩, ?_⟩
  · symm; rw [dist3_eq_iff le_rfl]; simp [sq, Vec3.dot]
  · rintro x ⟨q, _, rfl⟩; exact Real.sqrt_nonneg _

/-- **C58** is false for planes: the distance is zero for every point, also for those which are not on the rectangle. -/
theorem C58_plane_always_zero (hF : F.Exact) (pl : EmbPlane (XF F)) (point : Vec3 (XF F)) (c p : Vec3 ℝ) (dx dy : ℝ) (R : Mat3 ℝ)
    (hout : ¬ InRect c dx dy R p) :
    ∀ v, (pl.distance point).Is v → ¬ IsLeast {x | ∃ q, InRect c dx dy R q ∧ x = dist3 p q} v := by
  intro v hv h
  have : v = 0 := hv.unique (XF.Is.zero hF)
  subst this
  obtain ⟨q, hq, h0⟩ := h.1
  have h0' : sq (p - q) = 0 * 0 := (dist3_eq_iff le_rfl).1 h0.symm
  rw [mul_zero, sq_eq_zero] at h0'
  have : p = q := by
    by_contra hne
    exact Vec3.sub_ne_zero.2 hne h0'
  exact hout (this ▸ hq)

/-- the distance of `(0,0,5)` to the square of side 2 -/
example : ∀ v, (embPlane0.distance (rvec 0 0 5)).Is v → ¬ IsLeast {x | ∃ q, InRect ⟨0, 0, 0⟩ 2 2 idR q ∧ x = dist3 ⟨0, 0, 5⟩ q} v :=
  C58_plane_always_zero exactFmt_exact _ _ _ _ _ _ _ (by
    rintro ⟨x, y, _, _, _, _, h⟩
    have := congrArg Vec3.z h
    norm_num [Mat3.mulVec, idR, Vec3.dot] at this)

/-- the distance of `(3,4,0)` to the unit sphere -/
example : ∃ v, (embSphere0.distance (rvec 3 4 0)).Is v ∧ IsLeast {x | ∃ q, OnSphere ⟨0, 0, 0⟩ 1 q ∧ x = dist3 ⟨3, 4, 0⟩ q} v :=
  C58_sphere_distance exactFmt_exact _ _ _ _ _ embSphere0_for (rvec_is _ _ _)

/-! ### C59 -/

/-- **C59**, what is changed, for all classes and in any arithmetic: the callback changes nothing, or it records a hit: `tfar`, the
normal, the id of the geometry and the primitive number 0; it never changes origin, direction and `tnear`. -/
theorem C59_changes {T : Type} [Scalar T] (g : UserGeom T) (instID : Nat) (rh : RtcRayHit T) :
    g.intersect instID rh = rh ∨ ∃ t n, Records rh (g.intersect instID rh) g.geomID t n := g.intersect_mayRecord instID rh

/-- **C59** for spheres, in exact arithmetic: a recorded distance is strictly between `tnear` and `tfar`. -/
theorem C59_spheres (hF : F.Exact) {s : EmbSphere (XF F)} (instID : Nat) {rh : RtcRayHit (XF F)} {c o u : Vec3 ℝ} {r m M : ℝ}
    (hs : s.For c r) (hr : rh.ray.For o u m M) :
    s.intersect instID rh = rh ∨ ∃ t x n, x.Is t ∧ m < t ∧ t < M ∧ Records rh (s.intersect instID rh) s.geomID x n := by
  rcases EmbSphere.intersect_cases hF instID hs hr (Ray.make' rh.ray.org rh.ray.dir) with ⟨h, -⟩ | ⟨t, x, n, h1, h2, h3, -, -, h5, -⟩
  · exact .inl h
  · exact .inr ⟨t, x, n, h1, h2, h3, h5⟩

/-- **C59** for planes, in exact arithmetic. -/
theorem C59_planes (hF : F.Exact) {p : EmbPlane (XF F)} (instID : Nat) {rh : RtcRayHit (XF F)} {c o u : Vec3 ℝ} {dx dy m M : ℝ}
    {R : Mat3 ℝ} (hp : p.For c dx dy R) (hr : rh.ray.For o u m M) :
    p.intersect instID rh = rh ∨ ∃ t x n, x.Is t ∧ m < t ∧ t < M ∧ Records rh (p.intersect instID rh) p.geomID x n := by
  rcases EmbPlane.intersect_cases hF instID hp hr with ⟨h, -⟩ | ⟨-, t, x, n, h1, h2, h3, -, h5⟩
  · exact .inl h
  · exact .inr ⟨t, x, n, h1, h2, h3, h5⟩

/-- the unit sphere from inside, and the square from above -/
example : (embSphere0.intersect 0 (embRtc ⟨0, 0, 0⟩ ⟨0, 0, -1⟩ (1/2) 100) = embRtc ⟨0, 0, 0⟩ ⟨0, 0, -1⟩ (1/2) 100 ∨
    ∃ t x n, x.Is t ∧ 1/2 < t ∧ t < 100 ∧
      Records (embRtc ⟨0, 0, 0⟩ ⟨0, 0, -1⟩ (1/2) 100) (embSphere0.intersect 0 (embRtc ⟨0, 0, 0⟩ ⟨0, 0, -1⟩ (1/2) 100)) 3 x n) ∧
    (embPlane0.intersect 0 (embRtc ⟨0, 0, 5⟩ ⟨0, 0, -1⟩ 0 100) = embRtc ⟨0, 0, 5⟩ ⟨0, 0, -1⟩ 0 100 ∨
    ∃ t x n, x.Is t ∧ 0 < t ∧ t < 100 ∧
      Records (embRtc ⟨0, 0, 5⟩ ⟨0, 0, -1⟩ 0 100) (embPlane0.intersect 0 (embRtc ⟨0, 0, 5⟩ ⟨0, 0, -1⟩ 0 100)) 3 x n) :=
  ⟨C59_spheres exactFmt_exact 0 embSphere0_for (embRtc_for _ _ _ _ (by norm_num [sq, Vec3.dot]) (by norm_num)),
   C59_planes exactFmt_exact 0 embPlane0_for (embRtc_for _ _ _ _ (by norm_num [sq, Vec3.dot]) le_rfl)⟩

/-- **C59** is false for cylinders: `tnear` and `tfar` have no influence on what the callback records. -/
theorem C59_cylinder_ignores_limits (hF : F.Exact) {y : EmbCyl (XF F)} (instID : Nat) {rh rh' : RtcRayHit (XF F)} {c o u : Vec3 ℝ}
    {a b h m M m' M' : ℝ} {R : Mat3 ℝ} (hy : y.For c a b h R) (hr : rh.ray.For o u m M) (hr' : rh'.ray.For o u m' M')
    (ho : rh'.ray.org = rh.ray.org) (hd : rh'.ray.dir = rh.ray.dir) :
    (y.intersect instID rh = rh ∧ y.intersect instID rh' = rh') ∨
    ∃ t n n', Records rh (y.intersect instID rh) y.geomID t n ∧ Records rh' (y.intersect instID rh') y.geomID t n' := by
  have h1 := EmbCyl.agree hF y instID hy hr (Ray.make' rh.ray.org rh.ray.dir)
  have h2 := EmbCyl.agree hF y instID hy hr' (Ray.make' rh.ray.org rh.ray.dir)
  have e : rh'.ray.planeI = { rh.ray.planeI with hd := rh'.ray.tfar, minHit := rh'.ray.tnear } := by
    unfold RtcRay.planeI; rw [ho, hd]
  obtain ⟨k1, k2⟩ := C36_ignores_limits rh.ray.planeI rh'.ray.tfar rh'.ray.tnear y.native (Ray.make' rh.ray.org rh.ray.dir)
  rw [← e] at k1 k2
  cases hh : (cylIntersect rh.ray.planeI y.native (Ray.make' rh.ray.org rh.ray.dir)).2 with
  | false => exact .inl ⟨(h1.miss hh).1, (h2.miss (k1.trans hh)).1⟩
  | true =>
    obtain ⟨n, r1⟩ := h1.hit hh
    obtain ⟨n', r2⟩ := h2.hit (k1.trans hh)
    have := k2 hh
    rw [this] at r2
    exact .inr ⟨_, n, n', r1, r2⟩

/-- so `tfar` may grow: from 1 to 4 for the ray from `(-5,0,0)` and the cylinder of radius 1 -/
theorem C59_false : (embCyl32.intersect 0 (embRtc32 (svec (-5) 0 0) (svec 1 0 0) (sgl 0) (sgl 1))).hit.geomID = 3 ∧
    (embCyl32.intersect 0 (embRtc32 (svec (-5) 0 0) (svec 1 0 0) (sgl 0) (sgl 1))).ray.tfar = sgl 4 := by
  constructor <;> decide +kernel

/-- the cylinder in exact arithmetic with the limits 0, 1 and 2, 3 -/
example : (embCyl0.intersect 0 (embRtc ⟨-5, 0, 0⟩ ⟨1, 0, 0⟩ 0 1) = embRtc ⟨-5, 0, 0⟩ ⟨1, 0, 0⟩ 0 1 ∧
      embCyl0.intersect 0 (embRtc ⟨-5, 0, 0⟩ ⟨1, 0, 0⟩ 2 3) = embRtc ⟨-5, 0, 0⟩ ⟨1, 0, 0⟩ 2 3) ∨
    ∃ t n n', Records (embRtc ⟨-5, 0, 0⟩ ⟨1, 0, 0⟩ 0 1) (embCyl0.intersect 0 (embRtc ⟨-5, 0, 0⟩ ⟨1, 0, 0⟩ 0 1)) 3 t n ∧
      Records (embRtc ⟨-5, 0, 0⟩ ⟨1, 0, 0⟩ 2 3) (embCyl0.intersect 0 (embRtc ⟨-5, 0, 0⟩ ⟨1, 0, 0⟩ 2 3)) 3 t n' :=
  C59_cylinder_ignores_limits exactFmt_exact 0 embCyl0_for (embRtc_for _ _ _ _ (by norm_num [sq, Vec3.dot]) le_rfl)
    (embRtc_for ⟨-5, 0, 0⟩ ⟨1, 0, 0⟩ 2 3 (by norm_num [sq, Vec3.dot]) (by norm_num)) rfl rfl

/-! ### C60 -/

/-- **C60** for spheres of positive radius: the recorded normal `n` is a unit vector, and the point hit is `c + r n`. -/
theorem C60_spheres (hF : F.Exact) {s : EmbSphere (XF F)} (instID : Nat) {rh : RtcRayHit (XF F)} {c o u : Vec3 ℝ} {r m M : ℝ}
    (hs : s.For c r) (hr0 : 0 < r) (hr : rh.ray.For o u m M) :
    s.intersect instID rh = rh ∨ ∃ t x n n', x.Is t ∧ Records rh (s.intersect instID rh) s.geomID x n ∧ IsV n n' ∧ len n' = 1 ∧
      along o u t = c + Vec3.smul r n' := by
  rcases EmbSphere.intersect_cases hF instID hs hr (Ray.make' rh.ray.org rh.ray.dir) with ⟨h, -⟩ | ⟨t, x, n, h1, -, -, -, -, h5, -, -, h6⟩
  · exact .inl h
  · obtain ⟨n', k1, k2, k3⟩ := h6 hr0
    exact .inr ⟨t, x, n, n', h1, h5, k1, k2, k3⟩

/-- **C60** for planes: for a hit in the interior of the rectangle the recorded normal is a unit vector perpendicular to the rectangle on
the side of the ray's origin.  Missing: hits on the boundary, see `C60_plane_edge`. -/
theorem C60_planes_partial (hF : F.Exact) {p : EmbPlane (XF F)} (instID : Nat) {rh : RtcRayHit (XF F)} {c o u : Vec3 ℝ} {dx dy m M : ℝ}
    {R : Mat3 ℝ} (hp : p.For c dx dy R) (hr : rh.ray.For o u m M)
    (hint : ∀ t x y, along o u t = c + R.mulVec ⟨x, y, 0⟩ → |x| ≠ dx / 2 ∧ |y| ≠ dy / 2) :
    p.intersect instID rh = rh ∨ ∃ t x n n', x.Is t ∧ Records rh (p.intersect instID rh) p.geomID x n ∧ IsV n n' ∧ len n' = 1 ∧
      (n' = perp R ∨ n' = Vec3.smul (-1) (perp R)) ∧ 0 < Vec3.dot n' (o - c) ∧ Vec3.dot n' u < 0 := by
  have hag := p.agree instID rh (Ray.make' rh.ray.org rh.ray.dir)
  rcases planeIntersect_cases hF rh.ray.planeI p.native (Ray.make' rh.ray.org rh.ray.dir) c o u dx dy m R
    ⟨hp.center, hp.d1, hp.d2, hp.rot⟩ hp.dx_pos hp.dy_pos hp.orth ⟨hr.org, hr.dir, hr.near⟩ hr.unit hr.nonneg with
    ⟨he, h⟩ | ⟨hz, t, x, y, h1, h2, h3, h4, h5, h6, h7, n, hd', h8, he, hs⟩
  · rw [he] at hag
    exact .inl (hag.miss rfl).1
  · rw [he] at hag
    obtain ⟨n', hrec, hn⟩ := hag.hit rfl
    obtain ⟨hx1, hy1⟩ := hint t x y h3
    obtain ⟨N, k1, k2, k3⟩ := plane_normal_raw hp.dx_pos hp.dy_pos hp.orth hz (lt_of_le_of_lt hr.nonneg h1) h3 hs hx1 hy1
    refine .inr ⟨t, hd', n', N, h8, hrec, ?_, k2, k3⟩
    rcases hn with rfl | rfl
    · exact k1
    · have hl := k1.norm hF
      rw [k2] at hl
      have := IsV.divs hF hl one_ne_zero k1
      rwa [show Vec3.divs N 1 = N by ext <;> simp [Vec3.divs]] at this

/-- **C60** is false on the edge of a plane: the normal is tilted there. -/
theorem C60_plane_edge :
    let p : EmbPlane Single := ⟨svec 0 0 0, sgl 2, sgl 2, ⟨svec 1 0 0, svec 0 1 0, svec 0 0 1⟩, 3⟩
    let r := p.intersect 0 (embRtc32 (svec 1 0 3) (svec 0 0 (-1)) (sgl 0) (sgl 100))
    r.hit.geomID = 3 ∧ r.ray.tfar = sgl 3 ∧ lt (sgl (1/2)) r.hit.ng.x = true := by
  refine ⟨by decide +kernel, by decide +kernel, by decide +kernel⟩

/-- **C60** for cylinders: the recorded normal is an outer unit normal at the point hit, also if the origin is inside (unlike that of
the native back-end, `C39_inside_normal_not_rotated`).  Missing: origins on the lateral surface with rays not heading inside, for which
the reported point is not on the cylinder (`C36_false_cap_hit`). -/
theorem C60_cylinders_partial (hF : F.Exact) {y : EmbCyl (XF F)} (instID : Nat) {rh : RtcRayHit (XF F)} {c o u : Vec3 ℝ}
    {a b h m M : ℝ} {R : Mat3 ℝ} (hy : y.For c a b h R) (hr : rh.ray.For o u m M)
    (hlat : OnLateral c a b h R o → ∃ t, 0 < t ∧ InTube c a b R (along o u t)) :
    y.intersect instID rh = rh ∨ ∃ t x n n', x.Is t ∧ Records rh (y.intersect instID rh) y.geomID x n ∧ IsV n n' ∧
      OnCyl c a b h R (along o u t) ∧ OuterNormal (InCyl c a b h R) (along o u t) n' := by
  have H := hy.test hr
  have hag := EmbCyl.agree hF y instID hy hr (Ray.make' rh.ray.org rh.ray.dir)
  cases hhit : (cylIntersect rh.ray.planeI y.native (Ray.make' rh.ray.org rh.ray.dir)).2 with
  | false => exact .inl (hag.miss hhit).1
  | true =>
    by_cases h0 : InCyl c a b h R o
    · have ig := hy.rot.trans.mulVec hF (hr.org.sub hF hy.center)
      have ie := hy.rot.trans.mulVec hF hr.dir
      have hes : sq (R.trans.mulVec u) = 1 := by rw [hy.orth.trans.sq, hr.unit]
      have hl := (inCyl_along (o := o) (d := u) (c := c) (h := h) hy.orth hy.a_pos hy.b_pos 0).1 (by rw [along_zero]; exact h0)
      have hl2 := hl.2.1; have hl3 := hl.2.2
      rw [zero_mul, add_zero] at hl2 hl3
      have hin : y.intersect instID rh = y.inside instID (y.rot.trans.mulVec (rh.ray.org - y.center)) (y.rot.trans.mulVec rh.ray.dir) rh := by
        rcases EmbCyl.intersect_branches hF y instID hy hr (Ray.make' rh.ray.org rh.ray.dir) with ⟨k, -⟩ | ⟨k, -⟩ | ⟨-, -, k, -⟩ |
          ⟨-, -, -, k, -⟩ | ⟨-, k, -⟩
        · exact absurd hl3 (not_le.2 k)
        · exact absurd hl2 (not_le.2 k)
        · exact absurd hl.1 (not_le.2 k)
        · exact k
        · exact absurd hl.1 (not_le.2 k)
      obtain ⟨n0, hn0⟩ := hag.hit hhit
      obtain ⟨t0, -, q2, q3, -⟩ := (C36_on_surface_partial hF (Ray.make' rh.ray.org rh.ray.dir) H hlat).1 hhit
      rcases EmbCyl.inside_normal hF y instID rh hy ig ie hes (H.entering h0 hlat) hl2 hl3 with hmiss | ⟨t, x, n, n', k1, k2, k3, k4⟩
      · exact .inl (hin.trans hmiss)
      · rw [← hin] at k2
        have ht : t = t0 := by
          have : x = _ := (congrArg RtcRay.tfar (k2.ray.symm.trans hn0.ray))
          rw [this] at k1
          exact k1.unique q2
        subst ht
        exact .inr ⟨t, x, n, _, k1, k2, k3, q3, k4.outer hy.orth hy.a_pos hy.b_pos⟩
    · have hN := (EmbCyl.agree_outside hF y instID hy hr (Ray.make' rh.ray.org rh.ray.dir) h0).hit hhit
      by_cases hz : AtCapLevel c h R o
      · rw [H.cap_level hF _ h0 hz] at hhit; cases hhit
      · rcases H.outside hF (Ray.make' rh.ray.org rh.ray.dir) h0 hz with ⟨hr', -⟩ | ⟨t, N, k1, k2, k3, k4, n, hd, k6, k7, hr'⟩
        · rw [hr'] at hhit; cases hhit
        · rw [hr'] at hN
          exact .inr ⟨t, hd, n, _, k7, hN, k6, (onCyl_along hy.orth hy.a_pos hy.b_pos t).2 k2, k4.outer hy.orth hy.a_pos hy.b_pos⟩

/-- the unit sphere, the middle of the square, and the cylinder from its center, obliquely -/
example : (embSphere0.intersect 0 (embRtc ⟨-5, 0, 0⟩ ⟨1, 0, 0⟩ 0 100) = embRtc ⟨-5, 0, 0⟩ ⟨1, 0, 0⟩ 0 100 ∨
    ∃ t x n n', x.Is t ∧ Records (embRtc ⟨-5, 0, 0⟩ ⟨1, 0, 0⟩ 0 100) (embSphere0.intersect 0 (embRtc ⟨-5, 0, 0⟩ ⟨1, 0, 0⟩ 0 100)) 3 x n ∧
      IsV n n' ∧ len n' = 1 ∧ along ⟨-5, 0, 0⟩ ⟨1, 0, 0⟩ t = ⟨0, 0, 0⟩ + Vec3.smul 1 n') ∧
    (embPlane0.intersect 0 (embRtc ⟨0, 0, 5⟩ ⟨0, 0, -1⟩ 0 100) = embRtc ⟨0, 0, 5⟩ ⟨0, 0, -1⟩ 0 100 ∨
    ∃ t x n n', x.Is t ∧ Records (embRtc ⟨0, 0, 5⟩ ⟨0, 0, -1⟩ 0 100) (embPlane0.intersect 0 (embRtc ⟨0, 0, 5⟩ ⟨0, 0, -1⟩ 0 100)) 3 x n ∧
      IsV n n' ∧ len n' = 1 ∧ (n' = perp idR ∨ n' = Vec3.smul (-1) (perp idR)) ∧ 0 < Vec3.dot n' (⟨0, 0, 5⟩ - ⟨0, 0, 0⟩) ∧
      Vec3.dot n' ⟨0, 0, -1⟩ < 0) ∧
    (embCyl0.intersect 0 (embRtc ⟨0, 0, 0⟩ ⟨4/5, 0, 3/5⟩ 0 100) = embRtc ⟨0, 0, 0⟩ ⟨4/5, 0, 3/5⟩ 0 100 ∨
    ∃ t x n n', x.Is t ∧ Records (embRtc ⟨0, 0, 0⟩ ⟨4/5, 0, 3/5⟩ 0 100) (embCyl0.intersect 0 (embRtc ⟨0, 0, 0⟩ ⟨4/5, 0, 3/5⟩ 0 100)) 3 x n ∧
      IsV n n' ∧ OnCyl ⟨0, 0, 0⟩ 1 1 2 idR (along ⟨0, 0, 0⟩ ⟨4/5, 0, 3/5⟩ t) ∧
      OuterNormal (InCyl ⟨0, 0, 0⟩ 1 1 2 idR) (along ⟨0, 0, 0⟩ ⟨4/5, 0, 3/5⟩ t) n') := by
  refine ⟨C60_spheres exactFmt_exact 0 embSphere0_for one_pos (embRtc_for _ _ _ _ (by norm_num [sq, Vec3.dot]) le_rfl),
    C60_planes_partial exactFmt_exact 0 embPlane0_for (embRtc_for _ _ _ _ (by norm_num [sq, Vec3.dot]) le_rfl) ?_,
    C60_cylinders_partial exactFmt_exact 0 embCyl0_for (embRtc_for _ _ _ _ (by norm_num [sq, Vec3.dot]) le_rfl) ?_⟩
  · intro t x y h
    have h1 := congrArg Vec3.x h
    have h2 := congrArg Vec3.y h
    simp [along, Mat3.mulVec, idR, Vec3.dot, Vec3.smul] at h1 h2
    subst h1 h2
    norm_num
  · rintro ⟨x, y, z, h1, -, -, h2⟩
    have := (idR_orthonormal.local_iff _ _ _).1 h2
    have hx := congrArg Vec3.x this
    have hy := congrArg Vec3.y this
    simp [Mat3.mulVec, Mat3.trans, idR, Vec3.dot] at hx hy
    subst hx hy
    norm_num at h1

end
end Blazert
