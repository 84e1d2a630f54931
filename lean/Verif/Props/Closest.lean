/- C01, C02, C04, C47-C49: queries on committed scenes of meshes, spheres and planes.  Exact real arithmetic. -/
import Verif.Proofs.Queries
import Verif.Props.Traverse
import Verif.Props.Total
import Verif.SampleScene

set_option autoImplicit false

namespace Blazert
open Scalar Format

variable {F : Fmt ℝ}

/-! ### C01 -/

/-- **C01**, up to the tolerance of the triangle test.  A miss means that nothing is hit before `M`; after a hit, the distance
reported is below `M`, nothing is hit at a smaller distance, and the named primitive is hit there (a mesh face at least
nearly). -/
theorem C01_closest_hit_tolerance_partial (hF : F.Exact) {s : Scene (XF F)} {rs : List Nat} (hist : History s rs)
    (hc : s.committed = true) (hgood : s.Good) (hdepth : DepthAtMost s 26) {origin direction : Vec3 (XF F)} {minHit maxHit : XF F}
    {o d : Vec3 ℝ} {m M : ℝ} (hray : RayFor origin direction minHit maxHit o d m M) (hoff : s.OffZFaces o d)
    (rh0 : RayHit (XF F)) (hrh0 : ∀ t, t < M → rh0.hitDistance.Above t) :
    ∃ hit rh, s.intersect1 (Ray.make origin direction minHit maxHit false) rh0 = .ok (hit, rh) ∧
      (hit = false → rh = rh0 ∧ ∀ g i t, s.Hit o (unit d) m g i t → M ≤ t) ∧
      (hit = true → ∃ t, rh.hitDistance.Is t ∧ t < M ∧ s.Near (4 * F.eps) o (unit d) m rh.geomId rh.primId t ∧
        ∀ g i t', s.Hit o (unit d) m g i t' → t ≤ t') := by
  obtain ⟨r, hr⟩ := C10_no_undefined_behaviour (XF.irreflLt F) s rs hist hc hdepth (Ray.make origin direction minHit maxHit false) rh0
  rcases intersect1_spec hF hist hc hgood.toPlain hray.toRayBase True (fun _ => ⟨hray, hgood, hoff⟩) false rh0 hrh0 with e | ⟨hit, rh, e, h⟩
  · rw [hr] at e; simp at e
  · refine ⟨hit, rh, e, ?_, ?_⟩
    · rintro rfl
      rcases h with ⟨_, h2, h3⟩ | ⟨h1, _⟩
      · exact ⟨h2, h3 trivial⟩
      · simp at h1
    · rintro rfl
      rcases h with ⟨h1, _⟩ | ⟨_, t, h1, h2, h3, h4⟩
      · simp at h1
      · exact ⟨t, h1, h2, h3.near, h4 trivial rfl⟩

/-- **C01**.  On every committed scene of meshes, spheres and planes, however its BVHs were built, `intersect1` returns true
exactly if some primitive is hit before `M`, and it then reports the smallest such distance and names a primitive hit there.
Missing from the full claim: rays with a component `-0.0` or lying in a z face of a bounding box (false, see C23 and C24),
trees deeper than 26 (false, see C11), meshes with faces passed so narrowly that the tolerance decides (false, see
`C02_phantom_hit`), cylinders, and rounding. -/
theorem C01_closest_hit_partial (hF : F.Exact) {s : Scene (XF F)} {rs : List Nat} (hist : History s rs)
    (hc : s.committed = true) (hgood : s.Good) (hdepth : DepthAtMost s 26) {origin direction : Vec3 (XF F)} {minHit maxHit : XF F}
    {o d : Vec3 ℝ} {m M : ℝ} (hray : RayFor origin direction minHit maxHit o d m M) (hoff : s.OffZFaces o d)
    (hclear : s.Clear (4 * F.eps) o (unit d) m)
    (rh0 : RayHit (XF F)) (hrh0 : ∀ t, t < M → rh0.hitDistance.Above t) :
    ∃ hit rh, s.intersect1 (Ray.make origin direction minHit maxHit false) rh0 = .ok (hit, rh) ∧
      (hit = true ↔ ∃ g i t, s.Hit o (unit d) m g i t ∧ t < M) ∧
      (hit = true → ∃ t, rh.hitDistance.Is t ∧ s.Hit o (unit d) m rh.geomId rh.primId t ∧
        ∀ g i t', s.Hit o (unit d) m g i t' → t ≤ t') ∧
      (hit = false → rh = rh0) := by
  obtain ⟨hit, rh, e, h1, h2⟩ := C01_closest_hit_tolerance_partial hF hist hc hgood hdepth hray hoff rh0 hrh0
  refine ⟨hit, rh, e, ⟨?_, ?_⟩, ?_, fun h => (h1 h).1⟩
  · intro h
    obtain ⟨t, _, h4, h5, _⟩ := h2 h
    exact ⟨_, _, t, hclear _ _ _ h5, h4⟩
  · rintro ⟨g, i, t, h3, h4⟩
    cases hit with
    | true => rfl
    | false => exact absurd ((h1 rfl).2 g i t h3) (not_le.2 h4)
  · intro h
    obtain ⟨t, h3, _, h5, h6⟩ := h2 h
    exact ⟨t, h3, hclear _ _ _ h5, h6⟩

/-- A scene and a ray to which the theorem applies: a triangle and two spheres, all of them met by the ray; the hit reported is
the one on the triangle. -/
example : ∃ s : Scene (XF exactFmt), History s [0, 1] ∧ s.committed = true ∧ s.Good ∧ DepthAtMost s 26 ∧
    RayFor (rvec 0 0 10 : Vec3 (XF exactFmt)) (rvec 0 0 (-1)) (rl 0) (rl 100) ⟨0, 0, 10⟩ ⟨0, 0, -1⟩ 0 100 ∧
    s.OffZFaces ⟨0, 0, 10⟩ ⟨0, 0, -1⟩ ∧ s.Clear (4 * exactFmt.eps) ⟨0, 0, 10⟩ (unit ⟨0, 0, -1⟩) 0 ∧
    (∀ t, t < 100 → (RayHit.fresh : RayHit (XF exactFmt)).hitDistance.Above t) ∧
    s.Hit ⟨0, 0, 10⟩ (unit ⟨0, 0, -1⟩) 0 0 0 5 ∧ s.Hit ⟨0, 0, 10⟩ (unit ⟨0, 0, -1⟩) 0 1 0 9 ∧
    s.Hit ⟨0, 0, 10⟩ (unit ⟨0, 0, -1⟩) 0 1 1 13 := by
  obtain ⟨s, h1, h2, h3, h4, h5, h6, h7⟩ := sample_scene sampleBalls sampleBalls_small
  refine ⟨s, h1, h2, h3, h4, sample_ray _, offZ_of_ne (by norm_num), sample_clear h6 _, sample_fresh le_rfl, ?_, ?_, ?_⟩
  · obtain ⟨p, e1, e2, e3, e4⟩ := h6
    refine .inl ⟨p, e1, e2.symm, ⟨-2, -2, 5⟩, ⟨2, -2, 5⟩, ⟨0, 2, 5⟩, ⟨⟨0, 1, 2⟩, rvec (-2) (-2) 5, rvec 2 (-2) 5, rvec 0 2 5,
      by rw [e4]; rfl, by rw [e3]; rfl, by rw [e3]; rfl, by rw [e3]; rfl, rvec_is _ _ _, rvec_is _ _ _, rvec_is _ _ _⟩,
      by norm_num, ?_, 1 / 4, 1 / 2, by norm_num, by norm_num, by norm_num, ?_⟩
    · rw [sample_unit]; norm_num [triPerp, Vec3.cross, Vec3.dot]
    · rw [sample_unit]; ext <;> norm_num [along, bary, Vec3.smul]
  · obtain ⟨p, e1, e2, e3, e4⟩ := h7
    refine .inr (.inl ⟨p, e1, e2.symm, rvec 0 0 0, rl 1, ⟨0, 0, 0⟩, 1, by rw [e3]; rfl, by rw [e4]; rfl, rvec_is _ _ _, rl_is _,
      by norm_num, ?_⟩)
    rw [sample_unit]; norm_num [OnSphere, dist3, len, along, Vec3.smul, sq, Vec3.dot]
  · obtain ⟨p, e1, e2, e3, e4⟩ := h7
    refine .inr (.inl ⟨p, e1, e2.symm, rvec 0 0 (-4), rl 1, ⟨0, 0, -4⟩, 1, by rw [e3]; rfl, by rw [e4]; rfl, rvec_is _ _ _, rl_is _,
      by norm_num, ?_⟩)
    rw [sample_unit]; norm_num [OnSphere, dist3, len, along, Vec3.smul, sq, Vec3.dot]

/-- Scenes without meshes need no hypothesis about the tolerance. -/
theorem C01_spheres_and_planes_partial (hF : F.Exact) {s : Scene (XF F)} {rs : List Nat} (hist : History s rs)
    (hc : s.committed = true) (hgood : s.Good) (hmesh : s.mesh = none) (hdepth : DepthAtMost s 26)
    {origin direction : Vec3 (XF F)} {minHit maxHit : XF F}
    {o d : Vec3 ℝ} {m M : ℝ} (hray : RayFor origin direction minHit maxHit o d m M) (hoff : s.OffZFaces o d)
    (rh0 : RayHit (XF F)) (hrh0 : ∀ t, t < M → rh0.hitDistance.Above t) :
    ∃ hit rh, s.intersect1 (Ray.make origin direction minHit maxHit false) rh0 = .ok (hit, rh) ∧
      (hit = true ↔ ∃ g i t, s.Hit o (unit d) m g i t ∧ t < M) ∧
      (hit = true → ∃ t, rh.hitDistance.Is t ∧ s.Hit o (unit d) m rh.geomId rh.primId t ∧
        ∀ g i t', s.Hit o (unit d) m g i t' → t ≤ t') ∧
      (hit = false → rh = rh0) :=
  C01_closest_hit_partial hF hist hc hgood hdepth hray hoff (.of_no_mesh hmesh _ _ _ _) rh0 hrh0

/-! ### C02 -/

/-- **C02**.  Every hit reported by `intersect1`, on any committed scene, for any non-zero direction and either value of
`any_hit`, is below the ray's max hit distance, and the record describes (`Scene.Rep`) a hit of the ray with the named
primitive at the reported distance, with its normal or its barycentric coordinates.  Missing from the full claim: for mesh
faces the hit is genuine only up to the tolerance (`C02_phantom_hit`); cylinders; rounding. -/
theorem C02_no_phantom_partial (hF : F.Exact) {s : Scene (XF F)} {rs : List Nat} (hist : History s rs)
    (hc : s.committed = true) (hplain : s.Plain) {origin direction : Vec3 (XF F)} {minHit maxHit : XF F} {o d : Vec3 ℝ}
    {m M : ℝ} (hray : RayBase origin direction minHit maxHit o d m M) (any : Bool) (rh0 rh : RayHit (XF F))
    (hrh0 : ∀ t, t < M → rh0.hitDistance.Above t)
    (h : s.intersect1 (Ray.make origin direction minHit maxHit any) rh0 = .ok (true, rh)) :
    ∃ t, rh.hitDistance.Is t ∧ t < M ∧ s.Rep o (unit d) m rh t := by
  rcases intersect1_spec hF hist hc hplain hray False (fun h => h.elim) any rh0 hrh0 with e | ⟨hit, rh', e, h'⟩
  · rw [h] at e; simp at e
  · rw [h] at e
    simp only [Except.ok.injEq, Prod.mk.injEq] at e
    obtain ⟨rfl, rfl⟩ := e
    rcases h' with ⟨h1, _⟩ | ⟨_, t, h1, h2, h3, _⟩
    · simp at h1
    · exact ⟨t, h1, h2, h3⟩

/-- a mesh with a tiny triangle in the plane `z = 0` and a large one in the plane `z = -5` -/
def phantomMesh : List (Call Double) :=
  [.addMesh [dvec 0 0 0, dvec (pow2 (-30)) 0 0, dvec 0 (pow2 (-30)) 0, dvec (-8) (-8) (-5), dvec 8 (-8) (-5), dvec 0 8 (-5)]
    [⟨0, 1, 2⟩, ⟨3, 4, 5⟩], .commit]

/-- **C02 is false for meshes** (double arithmetic): the ray passes the tiny triangle (edges `2^-30`) at 256 times its size,
but the hit reported is one with this triangle, at the distance 1 and with barycentric coordinates 256.  The ray's only hit is
the one with the large triangle at the distance 6. -/
theorem C02_phantom_hit : ∃ r, query stablePartition phantomMesh
      (Ray.make' (dvec (pow2 (-22)) (pow2 (-22)) 1) (dvec 0 0 (-1))) RayHit.fresh = .ok r ∧
    r.1 = true ∧ r.2.primId = 0 ∧ r.2.hitDistance = dbl 1 ∧ r.2.uv = (dbl 256, dbl 256) :=
  exists_ok_of_eval (by decide +kernel)

/-- indeed, the point of the ray at the distance 1 is not in the tiny triangle (not even close) -/
example : ¬ InTriangle (K := ℚ) ⟨0, 0, 0⟩ ⟨pow2 (-30), 0, 0⟩ ⟨0, pow2 (-30), 0⟩ (along ⟨pow2 (-22), pow2 (-22), 1⟩ ⟨0, 0, -1⟩ 1) := by
  rintro ⟨u, v, h1, h2, h3, e⟩
  have ex := congrArg Vec3.x e
  have e1 : pow2 (-22) = 1 / 4194304 := by decide +kernel
  have e2 : pow2 (-30) = 1 / 1073741824 := by decide +kernel
  simp [along, bary, Vec3.smul, e1, e2] at ex
  linarith

/-- the hypotheses of `C02_no_phantom_partial` and of the theorems about C04 below can be met -/
example : ∃ (s : Scene (XF exactFmt)) (rs : List Nat), History s rs ∧ s.committed = true ∧ s.Good ∧
    (∃ rh, s.intersect1 (Ray.make (rvec 0 0 10) (rvec 0 0 (-1)) (rl 0) (rl 100) false) RayHit.fresh = .ok (true, rh)) ∧
    (∃ rh, s.intersect1 (Ray.make (rvec 0 0 10) (rvec 0 0 (-1)) (rl 0) (rl 100) true) RayHit.fresh = .ok (true, rh)) := by
  obtain ⟨s, h1, h2, h3, h4, h5, h6, h7⟩ := sample_scene sampleBalls sampleBalls_small
  have hr := sample_ray 100
  obtain ⟨hit, rh, e, e1, _, _⟩ := C01_closest_hit_partial exactFmt_exact h1 h2 h3 h4 hr (offZ_of_ne (by norm_num))
    (sample_clear h6 _) RayHit.fresh (sample_fresh le_rfl)
  have hhit : hit = true := by
    refine e1.2 ⟨1, 0, 9, ?_, by norm_num⟩
    obtain ⟨p, e1, e2, e3, e4⟩ := h7
    refine .inr (.inl ⟨p, e1, e2.symm, rvec 0 0 0, rl 1, ⟨0, 0, 0⟩, 1, by rw [e3]; rfl, by rw [e4]; rfl, rvec_is _ _ _, rl_is _,
      by norm_num, ?_⟩)
    rw [sample_unit]; norm_num [OnSphere, dist3, len, along, Vec3.smul, sq, Vec3.dot]
  subst hhit
  refine ⟨s, _, h1, h2, h3, ⟨rh, e⟩, ?_⟩
  obtain ⟨⟨b, rh'⟩, hb⟩ := C10_no_undefined_behaviour (XF.irreflLt _) s _ h1 h2 h4
    (Ray.make (rvec 0 0 10) (rvec 0 0 (-1)) (rl 0) (rl 100) true) RayHit.fresh
  obtain rfl := intersect1_any exactFmt_exact h1 h2 h3.toPlain hr.toRayBase RayHit.fresh (sample_fresh le_rfl) _ _ _ _ e hb
  exact ⟨rh', hb⟩

/-! ### C04 -/

/-- **C04**.  On any committed scene, for any ray with non-zero direction, a query with `any_hit` returns the same truth value
as one without.  Missing from the full claim: cylinders, and rounding. -/
theorem C04_any_hit_same_answer_partial (hF : F.Exact) {s : Scene (XF F)} {rs : List Nat} (hist : History s rs)
    (hc : s.committed = true) (hplain : s.Plain) {origin direction : Vec3 (XF F)} {minHit maxHit : XF F} {o d : Vec3 ℝ}
    {m M : ℝ} (hray : RayBase origin direction minHit maxHit o d m M)
    (rh0 : RayHit (XF F)) (hrh0 : ∀ t, t < M → rh0.hitDistance.Above t) (b b' : Bool) (rh rh' : RayHit (XF F))
    (h1 : s.intersect1 (Ray.make origin direction minHit maxHit false) rh0 = .ok (b, rh))
    (h2 : s.intersect1 (Ray.make origin direction minHit maxHit true) rh0 = .ok (b', rh')) : b = b' :=
  intersect1_any hF hist hc hplain hray rh0 hrh0 b b' rh rh' h1 h2

/-- **C04**, the distance: a hit reported with `any_hit` is a hit of the ray with the named primitive (up to the tolerance of
the triangle test), at a distance not below the one reported without `any_hit`. -/
theorem C04_any_hit_genuine_partial (hF : F.Exact) {s : Scene (XF F)} {rs : List Nat} (hist : History s rs)
    (hc : s.committed = true) (hgood : s.Good) {origin direction : Vec3 (XF F)} {minHit maxHit : XF F} {o d : Vec3 ℝ}
    {m M : ℝ} (hray : RayFor origin direction minHit maxHit o d m M) (hoff : s.OffZFaces o d)
    (hclear : s.Clear (4 * F.eps) o (unit d) m)
    (rh0 : RayHit (XF F)) (hrh0 : ∀ t, t < M → rh0.hitDistance.Above t) (b : Bool) (rh rh' : RayHit (XF F))
    (h1 : s.intersect1 (Ray.make origin direction minHit maxHit false) rh0 = .ok (b, rh))
    (h2 : s.intersect1 (Ray.make origin direction minHit maxHit true) rh0 = .ok (true, rh')) :
    ∃ t t', rh.hitDistance.Is t ∧ rh'.hitDistance.Is t' ∧ t ≤ t' ∧ t' < M ∧
      s.Hit o (unit d) m rh'.geomId rh'.primId t' := by
  obtain rfl := C04_any_hit_same_answer_partial hF hist hc hgood.toPlain hray.toRayBase rh0 hrh0 b true rh rh' h1 h2
  obtain ⟨t', e1, e2, e3⟩ := C02_no_phantom_partial hF hist hc hgood.toPlain hray.toRayBase true rh0 rh' hrh0 h2
  have hit := hclear _ _ _ e3.near
  rcases intersect1_spec hF hist hc hgood.toPlain hray.toRayBase True (fun _ => ⟨hray, hgood, hoff⟩) false rh0 hrh0 with e | ⟨hit', rh'', e, h'⟩
  · rw [h1] at e; simp at e
  · rw [h1] at e
    simp only [Except.ok.injEq, Prod.mk.injEq] at e
    obtain ⟨rfl, rfl⟩ := e
    rcases h' with ⟨h1, _⟩ | ⟨_, t, f1, _, _, f4⟩
    · simp at h1
    · exact ⟨t, t', f1, e1, f4 trivial rfl _ _ _ hit, e2, hit⟩

/-! ### C48, C47 -/

/-- **C48**.  If every triangle, sphere and rectangle of the scene `s` also occurs in the scene `s'`, a hit in `s` is a hit in
`s'`, at the same or a smaller distance.  (`s'` may consist of any further primitives, in any order, and its BVHs may be built
differently.)  Only in `s` must no face be passed narrowly.  Missing from the full claim: as for C01. -/
theorem C48_more_geometry_partial (hF : F.Exact) {s s' : Scene (XF F)} {rs rs' : List Nat} (hist : History s rs)
    (hist' : History s' rs') (hc : s.committed = true) (hc' : s'.committed = true) (hplain : s.Plain) (hgood' : s'.Good)
    (hsub : s.Sub s') (hdepth' : DepthAtMost s' 26)
    {origin direction : Vec3 (XF F)} {minHit maxHit : XF F} {o d : Vec3 ℝ} {m M : ℝ}
    (hray : RayFor origin direction minHit maxHit o d m M) (hoff' : s'.OffZFaces o d)
    (hclear : s.Clear (4 * F.eps) o (unit d) m)
    (rh0 rh : RayHit (XF F)) (hrh0 : ∀ t, t < M → rh0.hitDistance.Above t)
    (h : s.intersect1 (Ray.make origin direction minHit maxHit false) rh0 = .ok (true, rh)) :
    ∃ rh' t t', s'.intersect1 (Ray.make origin direction minHit maxHit false) rh0 = .ok (true, rh') ∧
      rh.hitDistance.Is t ∧ rh'.hitDistance.Is t' ∧ t' ≤ t := by
  obtain ⟨t, e1, e2, e3⟩ := C02_no_phantom_partial hF hist hc hplain hray.toRayBase false rh0 rh hrh0 h
  obtain ⟨g, i, hit⟩ := hsub.hit (hclear _ _ _ e3.near)
  obtain ⟨hit', rh', f1, f2, f3⟩ := C01_closest_hit_tolerance_partial hF hist' hc' hgood' hdepth' hray hoff' rh0 hrh0
  cases hit' with
  | false => exact absurd ((f2 rfl).2 g i t hit) (not_le.2 e2)
  | true =>
    obtain ⟨t', g1, _, _, g4⟩ := f3 rfl
    exact ⟨rh', t, t', f1, e1, g1, g4 g i t hit⟩

/-- **C47**.  Two scenes made of the same triangles, spheres and rectangles in different orders give the same answer and the
same distance.  Missing from the full claim: as for C01. -/
theorem C47_order_irrelevant_partial (hF : F.Exact) {s s' : Scene (XF F)} {rs rs' : List Nat} (hist : History s rs)
    (hist' : History s' rs') (hc : s.committed = true) (hc' : s'.committed = true) (hgood : s.Good) (hgood' : s'.Good)
    (hperm : s.Reordered s') (hdepth : DepthAtMost s 26) (hdepth' : DepthAtMost s' 26)
    {origin direction : Vec3 (XF F)} {minHit maxHit : XF F} {o d : Vec3 ℝ} {m M : ℝ}
    (hray : RayFor origin direction minHit maxHit o d m M) (hoff : s.OffZFaces o d) (hoff' : s'.OffZFaces o d)
    (hclear : s.Clear (4 * F.eps) o (unit d) m) (hclear' : s'.Clear (4 * F.eps) o (unit d) m)
    (rh0 : RayHit (XF F)) (hrh0 : ∀ t, t < M → rh0.hitDistance.Above t) :
    ∃ hit rh rh', s.intersect1 (Ray.make origin direction minHit maxHit false) rh0 = .ok (hit, rh) ∧
      s'.intersect1 (Ray.make origin direction minHit maxHit false) rh0 = .ok (hit, rh') ∧
      (hit = true → SameDistance rh.hitDistance rh'.hitDistance) ∧ (hit = false → rh = rh') := by
  obtain ⟨hit, rh, e, e1, e2, e3⟩ := C01_closest_hit_partial hF hist hc hgood hdepth hray hoff hclear rh0 hrh0
  obtain ⟨hit', rh', f, f1, f2, f3⟩ := C01_closest_hit_partial hF hist' hc' hgood' hdepth' hray hoff' hclear' rh0 hrh0
  have key : hit = hit' := by
    rw [Bool.eq_iff_iff, e1, f1]
    constructor
    · rintro ⟨g, i, t, h1, h2⟩
      obtain ⟨g', i', h1⟩ := hperm.sub.hit h1
      exact ⟨g', i', t, h1, h2⟩
    · rintro ⟨g, i, t, h1, h2⟩
      obtain ⟨g', i', h1⟩ := hperm.symm.sub.hit h1
      exact ⟨g', i', t, h1, h2⟩
  subst key
  refine ⟨hit, rh, rh', e, f, fun h => ?_, fun h => (e3 h).trans (f3 h).symm⟩
  obtain ⟨t, a1, a2, a3⟩ := e2 h
  obtain ⟨t', b1, b2, b3⟩ := f2 h
  obtain ⟨g, i, c1⟩ := hperm.sub.hit a2
  obtain ⟨g', i', c2⟩ := hperm.symm.sub.hit b2
  have : t = t' := le_antisymm (a3 _ _ _ c2) (b3 _ _ _ c1)
  subst this
  exact ⟨t, a1, b1⟩

/-- two scenes to which the theorems about C47 and C48 apply: in the second one the order of the spheres is reversed; the third
one has an additional sphere -/
example : ∃ s s' s'' : Scene (XF exactFmt), s.Reordered s' ∧ s.Sub s'' ∧ ¬ s''.Sub s ∧
    ∀ x ∈ [s, s', s''], History x [0, 1] ∧ x.committed = true ∧ x.Good ∧ DepthAtMost x 26 ∧
      x.OffZFaces ⟨0, 0, 10⟩ ⟨0, 0, -1⟩ ∧ x.Clear (4 * exactFmt.eps) ⟨0, 0, 10⟩ (unit ⟨0, 0, -1⟩) 0 := by
  have small' : SmallSpheres [((⟨0, 0, -4⟩ : Vec3 ℝ), 1), (⟨0, 0, 0⟩, 1)] := by
    refine ⟨by decide, ?_⟩
    simp only [List.mem_cons, List.not_mem_nil, or_false]
    rintro x (rfl | rfl) <;> norm_num [InBox]
  have small'' : SmallSpheres [((⟨0, 0, -4⟩ : Vec3 ℝ), 1), (⟨0, 0, 0⟩, 1), (⟨0, 0, 7⟩, 1)] := by
    refine ⟨by decide, ?_⟩
    simp only [List.mem_cons, List.not_mem_nil, or_false]
    rintro x (rfl | rfl | rfl) <;> norm_num [InBox]
  obtain ⟨s, h1, h2, h3, h4, h5, h6, h7⟩ := sample_scene sampleBalls sampleBalls_small
  obtain ⟨s', i1, i2, i3, i4, i5, i6, i7⟩ := sample_scene _ small'
  obtain ⟨s'', j1, j2, j3, j4, j5, j6, j7⟩ := sample_scene _ small''
  have off : ∀ x : Scene (XF exactFmt), x.OffZFaces ⟨0, 0, 10⟩ ⟨0, 0, -1⟩ := fun x => offZ_of_ne (by norm_num)
  have c1 := sample_clear h6 (4 * exactFmt.eps)
  have c2 := sample_clear i6 (4 * exactFmt.eps)
  have c3 := sample_clear j6 (4 * exactFmt.eps)
  obtain ⟨p, p1, p2, p3, p4⟩ := h6
  obtain ⟨q, q1, q2, q3, q4⟩ := h7
  obtain ⟨p', p1', p2', p3', p4'⟩ := i6
  obtain ⟨q', q1', q2', q3', q4'⟩ := i7
  obtain ⟨p'', p1'', p2'', p3'', p4''⟩ := j6
  obtain ⟨q'', q1'', q2'', q3'', q4''⟩ := j7
  refine ⟨s, s', s'', ⟨?_, ?_, ?_⟩, ⟨?_, ?_, ?_⟩, ?_, ?_⟩
  · rw [Scene.faceList, Scene.faceList, p1, p1']; simp only [p3, p4, p3', p4']; exact .refl _
  · rw [Scene.sphereList, Scene.sphereList, q1, q1']
    simp only [q3, q4, q3', q4', centersOf, radiiOf, sampleBalls, List.map, List.zip, List.zipWith]
    exact .swap _ _ _
  · rw [Scene.planeList, Scene.planeList, h5, i5]
  · rw [Scene.faceList, Scene.faceList, p1, p1'']; simp only [p3, p4, p3'', p4'']; exact List.Subset.refl _
  · rw [Scene.sphereList, Scene.sphereList, q1, q1'']
    simp only [q3, q4, q3'', q4'', centersOf, radiiOf, sampleBalls, List.map, List.zip, List.zipWith]
    intro x hx
    simp only [List.mem_cons, List.not_mem_nil, or_false] at hx ⊢
    tauto
  · rw [Scene.planeList, Scene.planeList, h5, j5]; exact List.Subset.refl _
  · intro hsub
    have := hsub.spheres
    rw [Scene.sphereList, Scene.sphereList, q1, q1''] at this
    simp only [q3, q4, q3'', q4'', centersOf, radiiOf, sampleBalls, List.map, List.zip, List.zipWith] at this
    have := this (a := (rvec 0 0 7, rl 1)) (by simp)
    simp [rvec, rl] at this
    norm_num at this
  · simp only [List.mem_cons, List.not_mem_nil, or_false]
    rintro x (rfl | rfl | rfl)
    · exact ⟨h1, h2, h3, h4, off _, c1⟩
    · exact ⟨i1, i2, i3, i4, off _, c2⟩
    · exact ⟨j1, j2, j3, j4, off _, c3⟩

/-! ### C49 -/

/-- **C49**.  Lowering the max hit distance from `M` to `M'` makes a miss of every hit at a distance `≥ M'`, leaves the
distances of all other hits unchanged, and leaves misses misses.  Missing from the full claim: as for C01. -/
theorem C49_max_distance_partial (hF : F.Exact) {s : Scene (XF F)} {rs : List Nat} (hist : History s rs)
    (hc : s.committed = true) (hgood : s.Good) (hdepth : DepthAtMost s 26) {origin direction : Vec3 (XF F)}
    {minHit maxHit maxHit' : XF F} {o d : Vec3 ℝ} {m M M' : ℝ} (hray : RayFor origin direction minHit maxHit o d m M)
    (hM' : maxHit'.Is M') (hle : M' ≤ M) (hoff : s.OffZFaces o d) (hclear : s.Clear (4 * F.eps) o (unit d) m)
    (rh0 : RayHit (XF F)) (hrh0 : ∀ t, t < M → rh0.hitDistance.Above t) :
    ∃ hit rh hit' rh', s.intersect1 (Ray.make origin direction minHit maxHit false) rh0 = .ok (hit, rh) ∧
      s.intersect1 (Ray.make origin direction minHit maxHit' false) rh0 = .ok (hit', rh') ∧
      (hit' = true ↔ hit = true ∧ ∃ t, rh.hitDistance.Is t ∧ t < M') ∧
      (hit' = true → SameDistance rh.hitDistance rh'.hitDistance) := by
  have hray' : RayFor origin direction minHit maxHit' o d m M' :=
    ⟨⟨hray.org, hray.dir, hray.min, hM', hray.nonneg, hray.ne_zero⟩, hray.scale, hray.noNegZero⟩
  obtain ⟨hit, rh, e, e1, e2, _⟩ := C01_closest_hit_partial hF hist hc hgood hdepth hray hoff hclear rh0 hrh0
  obtain ⟨hit', rh', f, f1, f2, _⟩ := C01_closest_hit_partial hF hist hc hgood hdepth hray' hoff hclear rh0
    (fun t ht => hrh0 t (ht.trans_le hle))
  have key : hit' = true → ∃ t, hit = true ∧ rh.hitDistance.Is t ∧ rh'.hitDistance.Is t ∧ t < M' := by
    intro h
    obtain ⟨g, i, t0, h0, h0'⟩ := f1.1 h
    obtain ⟨t', b1, b2, b3⟩ := f2 h
    have hh : hit = true := e1.2 ⟨g, i, t0, h0, h0'.trans_le hle⟩
    obtain ⟨t, a1, a2, a3⟩ := e2 hh
    have : t = t' := le_antisymm (a3 _ _ _ b2) (b3 _ _ _ a2)
    subst this
    exact ⟨t, hh, a1, b1, (b3 _ _ _ h0).trans_lt h0'⟩
  refine ⟨hit, rh, hit', rh', e, f, ⟨fun h => ?_, ?_⟩, fun h => ?_⟩
  · obtain ⟨t, h1, h2, _, h4⟩ := key h
    exact ⟨h1, t, h2, h4⟩
  · rintro ⟨h1, t, h2, h3⟩
    obtain ⟨t', a1, a2, _⟩ := e2 h1
    obtain rfl := h2.unique a1
    exact f1.2 ⟨_, _, t, a2, h3⟩
  · obtain ⟨t, _, h2, h3, _⟩ := key h
    exact ⟨t, h2, h3⟩

end Blazert
