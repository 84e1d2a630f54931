/- C86, C87, C88: normals of spheres and rectangles, and the distance to a sphere, with all roundings. -/
import Verif.Proofs.NormalRound
import Verif.Proofs.Sphere
import Verif.Spec.NormalRound
import Verif.Props.PlaneRound
import Verif.Props.TriRound

set_option autoImplicit false

namespace Blazert
open Scalar

section
variable {K : Type} [Field K] [LinearOrder K] [IsStrictOrderedRing K] [FloorRing K] {F : Fmt K}

/-- **C86**, general.  In any format that rounds: the normal reported with a hit on a sphere (with or without `any_hit`) has
length one up to `11 u` (squared), and it is the outward normal at the point at the reported distance up to an error of
`2100 u (L / r)²` in each coordinate, where `r` is the radius and `L` any bound for the coordinates of origin and center and
the radius, provided that the sphere is not too small compared with `L`. -/
theorem C86_sphere_normal (u η hi : K) (hF : F.Rounds u η hi) (part : StdPartition) (coll : SphereColl (XF F))
    (opts : BuildOptions) (nodes : List (Node (XF F) (Sphere (XF F)))) (stats : Statistics)
    (hbuild : build part coll.toCollection opts [] = .ok (nodes, stats))
    (origin direction : Vec3 (XF F)) (minHit maxHit : XF F) {any : Bool} (o p : Vec3 K) (m : K)
    (ho : IsV origin o) (hdir : IsV direction p) (hmin : minHit.Is m) (hm : 0 ≤ m)
    (hscale : Scale u η hi (|p.x| + |p.y| + |p.z|)) (rayhit out : RayHit (XF F))
    (h : traverse (sphereIx coll) nodes (Ray.make origin direction minHit maxHit any) rayhit = .ok (true, out)) :
    ∃ center radius d, coll.centers[out.primId]? = some center ∧ coll.radii[out.primId]? = some radius ∧
      IsV (Ray.make origin direction minHit maxHit any).direction d ∧
      ∀ c r L, IsV center c → radius.Is r → |o.x| + |o.y| + |o.z| + |c.x| + |c.y| + |c.z| + r ≤ L →
        Scale u η hi (4 * L) → Scale u η hi (r / 2) → 5000 * u * L ^ 2 ≤ r ^ 2 →
        ∃ h n, out.hitDistance.Is h ∧ 0 ≤ h ∧ IsV out.normal n ∧ |Vec3.dot n n - 1| ≤ 11 * u ∧
          ∀ k, |n.get k - ((along o d h).get k - c.get k) / r| ≤ 2100 * u * (L / r) ^ 2 := by
  obtain ⟨d, n, h1, h2, -⟩ := normalize_near hF hdir hscale
  have hquiet := sphere_quiet coll (Ray.make origin direction minHit maxHit any)
  obtain ⟨ps, vs, rest, e1, e2, ⟨e3, e4, -⟩⟩ := traverse_tests hbuild hquiet h
  have e4 := e4 rfl
  set ray := Ray.make origin direction minHit maxHit any with hray
  obtain ⟨f1, f2⟩ := testAll_last hquiet (Inv := SphereKeeps ray) (fun s q => SphereKeeps.step s q) vs _
    (SphereKeeps.prepare ray coll)
  rw [← scan_eq_testAll] at f1 f2
  rcases f2 with f2 | ⟨q, hq, s', f3, f4⟩
  · rw [scanHit, f2, hquiet.start, XF.lt_irrefl] at e3
    cases e3
  have hqps : q ∈ ps := e2.subset (by simp [hq])
  obtain ⟨i, hi', hiq⟩ := mapM_mem_of_out e1 hqps
  obtain ⟨g1, g2, g3⟩ := SphereColl.prim_eq hiq
  have hid := (sphere_primId (ray := ray) f4).trans g3
  obtain ⟨k1, k2, k3⟩ := sphere_post_normal e4 (hid.symm ▸ g1)
  rw [k1, k2, k3, hid]
  refine ⟨q.center, q.radius, d, g1, g2, h1, fun c r L hc hr hL hsc hsr hsmall => ?_⟩
  have r0 : 0 < r := by linarith [hsr.pos]
  have b1 := abs_sub_le' (le_refl |o.x|) (le_refl |c.x|)
  have b2 := abs_sub_le' (le_refl |o.y|) (le_refl |c.y|)
  have b3 := abs_sub_le' (le_refl |o.z|) (le_refl |c.z|)
  have hL0 : r ≤ L := by
    have := abs_nonneg o.x; have := abs_nonneg o.y; have := abs_nonneg o.z
    have := abs_nonneg c.x; have := abs_nonneg c.y; have := abs_nonneg c.z
    linarith
  have hsL : Scale u η hi L := hsr.between hsc (by linarith) (by linarith)
  obtain ⟨k, t, a1, a2, -, -, -, -, a3⟩ := sphere_hit_near hF hsL ray (i := s') (s := q)
    (by rw [f3.org]; exact ho) (by rw [f3.dir]; exact h1) hc hr (by rw [f3.min]; exact hmin) hm h2 hsL.eleven (by rw [abs_of_pos r0]; linarith) f4
  have a4 : |power c r (along o d k)| ≤ 2000 * u * L ^ 2 := by
    refine a3.trans ?_
    have := hsL.sizes.uLL0
    nlinarith
  obtain ⟨n', n1, n2, n3⟩ := sphere_normal_near hF hsc hsr
    (org := (scan (sphereIx coll) ray vs).rayOrg) (dir := (scan (sphereIx coll) ray vs).rayDir)
    (by rw [f1.org]; exact ho) (by rw [f1.dir]; exact h1) hc a1 hL hsmall a4
  exact ⟨k, n', a1, a2, n1, n2, n3⟩

/-- **C87**, general.  In any format that rounds, and whose finite results are accurate: the normal reported with a hit on a
rectangle (with or without `any_hit`), away from its sides by a few rounding errors, has length one up to `11 u` (squared); it
is one of the two perpendicular directions up to an error of `80 u + ε` in each coordinate, namely the one on the side of the
origin, which the ray runs against (both up to rounding).  (Hits on the sides are different, see `C34_edge_normal_tilted`.) -/
theorem C87_plane_normal (u η hi : K) (hF : F.Rounds u η hi) (hfa : F.Faithful u η) (hodd : F.Odd) (part : StdPartition)
    (coll : PlaneColl (XF F)) (opts : BuildOptions) (nodes : List (Node (XF F) (Plane (XF F)))) (stats : Statistics)
    (hbuild : build part coll.toCollection opts [] = .ok (nodes, stats))
    (origin direction : Vec3 (XF F)) (minHit maxHit : XF F) {any : Bool} (o p : Vec3 K) (m : K)
    (ho : IsV origin o) (hdir : IsV direction p) (hmin : minHit.Is m) (hm : 0 ≤ m)
    (hscale : Scale u η hi (|p.x| + |p.y| + |p.z|)) (hhalf : Scale u η hi (1 / 2)) (hfour : Scale u η hi 4)
    (rayhit out : RayHit (XF F))
    (h : traverse planeIx nodes (Ray.make origin direction minHit maxHit any) rayhit = .ok (true, out)) :
    ∃ center dx dy rotation d, coll.centers[out.primId]? = some center ∧ coll.dxs[out.primId]? = some dx ∧
      coll.dys[out.primId]? = some dy ∧ coll.rotations[out.primId]? = some rotation ∧
      IsV (Ray.make origin direction minHit maxHit any).direction d ∧
      ∀ c a b R ε L, IsV center c → dx.Is a → dy.Is b → IsM rotation R → NearOrtho ε R → ε ≤ 1 / 1000 →
        |o.x - c.x| + |o.y - c.y| + |o.z - c.z| + |a| + |b| ≤ L → Scale u η hi L →
        ∃ h, out.hitDistance.Is h ∧ 0 ≤ h ∧
          (|(R.trans.mulVec (along o d h - c)).x| + 185 * (u * L) + 11 * (ε * L) < a / 2 →
          |(R.trans.mulVec (along o d h - c)).y| + 185 * (u * L) + 11 * (ε * L) < b / 2 →
          ∃ n σ, IsV out.normal n ∧ |Vec3.dot n n - 1| ≤ 11 * u ∧ (σ = 1 ∨ σ = -1) ∧
            (∀ k, |n.get k - σ * (perp R).get k| ≤ 80 * u + ε) ∧
            -(6 * (u * L)) ≤ σ * Vec3.dot (perp R) (o - c) ∧ σ * Vec3.dot (perp R) d ≤ 8 * u) := by
  obtain ⟨d, n, h1, h2, -⟩ := normalize_near hF hdir hscale
  have hquiet := plane_quiet (Ray.make origin direction minHit maxHit any)
  obtain ⟨ps, vs, rest, e1, e2, ⟨e3, e4, -⟩⟩ := traverse_tests hbuild hquiet h
  have e4 := e4 rfl
  set ray := Ray.make origin direction minHit maxHit any with hray
  obtain ⟨f1, f2⟩ := testAll_last hquiet (Inv := PlaneStart ray)
    (fun s q hs => Frame.start (planeIntersect_frame s q ray) hs) vs (planeIx.prepare ray) ⟨rfl, rfl, rfl⟩
  rw [← scan_eq_testAll] at f1 f2
  rcases f2 with f2 | ⟨q, hq, s', f3, f4⟩
  · rw [scanHit, f2, hquiet.start, XF.lt_irrefl] at e3
    cases e3
  have hqps : q ∈ ps := e2.subset (by simp [hq])
  obtain ⟨i, hi', hiq⟩ := mapM_mem_of_out e1 hqps
  obtain ⟨g0, g1, g2, g3, g4⟩ := PlaneColl.prim_ok hiq
  have e4 : planePost (scan planeIx ray vs) rayhit = .ok out := e4
  obtain ⟨k1, k2⟩ := Frame.post (planeIntersect_frame s' q ray) f4 e4
  have k3 : out.normal = Vec3.normalize (scan planeIx ray vs).normal := by
    simp only [planePost, Except.ok.injEq] at e4
    rw [← e4]
  rw [k1, k2, k3, g0]
  refine ⟨q.center, q.dx, q.dy, q.rotation, d, g1, g2, g3, g4, h1, fun c a b R ε L hc ha hb hR hε hε' hL hsc => ?_⟩
  obtain ⟨k, T, a1, a2, -, -, -, -, -, ⟨z, e, z1, z2, z3, z4⟩, a3, -⟩ := plane_hit_near hF hfa hodd hsc ray (i := s') (f3.1 ▸ ho)
    (f3.2.1 ▸ h1) ⟨hc, ha, hb, hR, hε, hL⟩ hε' (f3.2.2 ▸ hmin) hm h2 f4
  refine ⟨k, a1, a2, fun ix iy => ?_⟩
  rw [a3 ix iy]
  have hz0 : z ≠ 0 := by
    rintro rfl
    rw [zero_mul] at z4
    exact lt_irrefl _ z4
  obtain ⟨n', σ, n1, n2, n3, n4, n5⟩ := plane_normal_near hF hhalf hfour hR hε hε' z1 hz0
  refine ⟨n', σ, n1, n2, n3, n5, ?_, ?_⟩
  · obtain ⟨y1, y2⟩ := abs_le.1 z2
    change -(6 * (u * L)) ≤ σ * (R.trans.mulVec (o - c)).z
    rcases n3 with rfl | rfl <;> linarith
  · obtain ⟨y1, y2⟩ := abs_le.1 z3
    change σ * (R.trans.mulVec d).z ≤ 8 * u
    rcases n3 with rfl | rfl
    · have : e < 0 := by
        by_contra hneg
        have := mul_nonneg (by linarith : 0 ≤ z) (not_lt.1 hneg)
        linarith
      linarith
    · have : 0 < e := by
        by_contra hneg
        have := mul_nonneg_of_nonpos_of_nonpos (by linarith : z ≤ 0) (not_lt.1 hneg)
        linarith
      linarith

end

/-- **C86** for `double`. -/
theorem C86_double (part : StdPartition) (coll : SphereColl Double) (opts : BuildOptions) (nodes : List (Node Double (Sphere Double)))
    (stats : Statistics) (hbuild : build part coll.toCollection opts [] = .ok (nodes, stats))
    (origin direction : Vec3 Double) (minHit maxHit : Double) {any : Bool} (o p : Vec3 ℚ) (m : ℚ)
    (ho : IsV origin o) (hdir : IsV direction p) (hmin : minHit.Is m) (hm : 0 ≤ m)
    (hp1 : 1 / 2 ^ 484 ≤ |p.x| + |p.y| + |p.z|) (hp2 : |p.x| + |p.y| + |p.z| ≤ 2 ^ 500) (rayhit out : RayHit Double)
    (h : traverse (sphereIx coll) nodes (Ray.make origin direction minHit maxHit any) rayhit = .ok (true, out)) :
    ∃ center radius d, coll.centers[out.primId]? = some center ∧ coll.radii[out.primId]? = some radius ∧
      IsV (Ray.make origin direction minHit maxHit any).direction d ∧ |Vec3.dot d d - 1| ≤ 11 / 2 ^ 53 ∧
      ∀ c r L, IsV center c → radius.Is r → |o.x| + |o.y| + |o.z| + |c.x| + |c.y| + |c.z| + r ≤ L →
        1 / 2 ^ 483 ≤ r → L ≤ 2 ^ 498 → 5000 * L ^ 2 ≤ 2 ^ 53 * r ^ 2 →
        ∃ h n, out.hitDistance.Is h ∧ 0 ≤ h ∧ IsV out.normal n ∧ |Vec3.dot n n - 1| ≤ 11 / 2 ^ 53 ∧
          ∀ k, |n.get k - ((along o d h).get k - c.get k) / r| ≤ 2100 / 2 ^ 53 * (L / r) ^ 2 := by
  have hsc := scale_double hp1 hp2
  obtain ⟨center, radius, d, h1, h2, h3, h4⟩ := C86_sphere_normal _ _ _ rounds_double part coll opts nodes stats hbuild origin
    direction minHit maxHit o p m ho hdir hmin hm hsc rayhit out h
  obtain ⟨d', n, g1, g2, -⟩ := C68_direction _ _ _ rounds_double origin direction minHit maxHit any p hdir hsc
  obtain rfl := g1.unique h3
  refine ⟨center, radius, _, h1, h2, h3, g2.trans_eq (by ring), fun c r L hc hr hL hr1 hL2 hsmall => ?_⟩
  have hrL : r ≤ L := by
    have := abs_nonneg o.x; have := abs_nonneg o.y; have := abs_nonneg o.z
    have := abs_nonneg c.x; have := abs_nonneg c.y; have := abs_nonneg c.z
    linarith
  have e1 : (1 / 2 ^ 484 : ℚ) = 1 / 2 ^ 483 / 2 := by decide +kernel
  have e2 : (4 * 2 ^ 498 : ℚ) = 2 ^ 500 := by decide +kernel
  have e3 : (1 / 2 ^ 484 : ℚ) ≤ 1 / 2 ^ 483 := by decide +kernel
  have e4 : (0 : ℚ) < 1 / 2 ^ 483 := by decide +kernel
  have e5 : (2 ^ 498 : ℚ) ≤ 2 ^ 500 := by decide +kernel
  obtain ⟨k, n', k1, k2, k3, k4, k5⟩ := h4 c r L hc hr hL
    (scale_double (e3.trans (by linarith only [hr1, hrL, e4])) (by rw [← e2]; exact mul_le_mul_of_nonneg_left hL2 (by norm_num)))
    (scale_double (by rw [e1]; exact div_le_div_of_nonneg_right hr1 (by norm_num))
      ((show r / 2 ≤ L by linarith only [hr1, hrL, e4]).trans (hL2.trans e5)))
    (by rw [show 5000 * (1 / 2 ^ 53 : ℚ) * L ^ 2 = 5000 * L ^ 2 / 2 ^ 53 by ring, div_le_iff₀ (by norm_num)]; linarith)
  exact ⟨k, n', k1, k2, k3, k4.trans_eq (by ring), fun j => (k5 j).trans_eq (by ring)⟩

/-- **C86** for `float`. -/
theorem C86_float (part : StdPartition) (coll : SphereColl Single) (opts : BuildOptions) (nodes : List (Node Single (Sphere Single)))
    (stats : Statistics) (hbuild : build part coll.toCollection opts [] = .ok (nodes, stats))
    (origin direction : Vec3 Single) (minHit maxHit : Single) {any : Bool} (o p : Vec3 ℚ) (m : ℚ)
    (ho : IsV origin o) (hdir : IsV direction p) (hmin : minHit.Is m) (hm : 0 ≤ m)
    (hp1 : 1 / 2 ^ 51 ≤ |p.x| + |p.y| + |p.z|) (hp2 : |p.x| + |p.y| + |p.z| ≤ 2 ^ 60) (rayhit out : RayHit Single)
    (h : traverse (sphereIx coll) nodes (Ray.make origin direction minHit maxHit any) rayhit = .ok (true, out)) :
    ∃ center radius d, coll.centers[out.primId]? = some center ∧ coll.radii[out.primId]? = some radius ∧
      IsV (Ray.make origin direction minHit maxHit any).direction d ∧ |Vec3.dot d d - 1| ≤ 11 / 2 ^ 24 ∧
      ∀ c r L, IsV center c → radius.Is r → |o.x| + |o.y| + |o.z| + |c.x| + |c.y| + |c.z| + r ≤ L →
        1 / 2 ^ 50 ≤ r → L ≤ 2 ^ 58 → 5000 * L ^ 2 ≤ 2 ^ 24 * r ^ 2 →
        ∃ h n, out.hitDistance.Is h ∧ 0 ≤ h ∧ IsV out.normal n ∧ |Vec3.dot n n - 1| ≤ 11 / 2 ^ 24 ∧
          ∀ k, |n.get k - ((along o d h).get k - c.get k) / r| ≤ 2100 / 2 ^ 24 * (L / r) ^ 2 := by
  have hsc := scale_float hp1 hp2
  obtain ⟨center, radius, d, h1, h2, h3, h4⟩ := C86_sphere_normal _ _ _ rounds_float part coll opts nodes stats hbuild origin
    direction minHit maxHit o p m ho hdir hmin hm hsc rayhit out h
  obtain ⟨d', n, g1, g2, -⟩ := C68_direction _ _ _ rounds_float origin direction minHit maxHit any p hdir hsc
  obtain rfl := g1.unique h3
  refine ⟨center, radius, _, h1, h2, h3, g2.trans_eq (by ring), fun c r L hc hr hL hr1 hL2 hsmall => ?_⟩
  have hrL : r ≤ L := by
    have := abs_nonneg o.x; have := abs_nonneg o.y; have := abs_nonneg o.z
    have := abs_nonneg c.x; have := abs_nonneg c.y; have := abs_nonneg c.z
    linarith
  obtain ⟨k, n', k1, k2, k3, k4, k5⟩ := h4 c r L hc hr hL (scale_float (by linarith) (by linarith))
    (scale_float (by linarith) (by linarith))
    (by rw [show 5000 * (1 / 2 ^ 24 : ℚ) * L ^ 2 = 5000 * L ^ 2 / 2 ^ 24 by ring, div_le_iff₀ (by norm_num)]; linarith)
  exact ⟨k, n', k1, k2, k3, k4.trans_eq (by ring), fun j => (k5 j).trans_eq (by ring)⟩

/-- **C87** for `double`. -/
theorem C87_double (part : StdPartition) (coll : PlaneColl Double) (opts : BuildOptions)
    (nodes : List (Node Double (Plane Double))) (stats : Statistics)
    (hbuild : build part coll.toCollection opts [] = .ok (nodes, stats))
    (origin direction : Vec3 Double) (minHit maxHit : Double) {any : Bool} (o p : Vec3 ℚ) (m : ℚ)
    (ho : IsV origin o) (hdir : IsV direction p) (hmin : minHit.Is m) (hm : 0 ≤ m)
    (hp1 : 1 / 2 ^ 484 ≤ |p.x| + |p.y| + |p.z|) (hp2 : |p.x| + |p.y| + |p.z| ≤ 2 ^ 500) (rayhit out : RayHit Double)
    (h : traverse planeIx nodes (Ray.make origin direction minHit maxHit any) rayhit = .ok (true, out)) :
    ∃ center dx dy rotation d, coll.centers[out.primId]? = some center ∧ coll.dxs[out.primId]? = some dx ∧
      coll.dys[out.primId]? = some dy ∧ coll.rotations[out.primId]? = some rotation ∧
      IsV (Ray.make origin direction minHit maxHit any).direction d ∧ |Vec3.dot d d - 1| ≤ 11 / 2 ^ 53 ∧
      ∀ c a b R ε L, IsV center c → dx.Is a → dy.Is b → IsM rotation R → NearOrtho ε R → ε ≤ 1 / 1000 →
        |o.x - c.x| + |o.y - c.y| + |o.z - c.z| + |a| + |b| ≤ L → 1 / 2 ^ 484 ≤ L → L ≤ 2 ^ 500 →
        ∃ h, out.hitDistance.Is h ∧ 0 ≤ h ∧
          (|(R.trans.mulVec (along o d h - c)).x| + (185 / 2 ^ 53 + 11 * ε) * L < a / 2 →
          |(R.trans.mulVec (along o d h - c)).y| + (185 / 2 ^ 53 + 11 * ε) * L < b / 2 →
          ∃ n σ, IsV out.normal n ∧ |Vec3.dot n n - 1| ≤ 11 / 2 ^ 53 ∧ (σ = 1 ∨ σ = -1) ∧
            (∀ k, |n.get k - σ * (perp R).get k| ≤ 80 / 2 ^ 53 + ε) ∧
            -(6 / 2 ^ 53 * L) ≤ σ * Vec3.dot (perp R) (o - c) ∧ σ * Vec3.dot (perp R) d ≤ 8 / 2 ^ 53) := by
  have hsc := scale_double hp1 hp2
  obtain ⟨center, dx, dy, rotation, d, h1, h2, h3, h4, h5, h6⟩ := C87_plane_normal _ _ _ rounds_double faithful_double
    Format.binary64_odd part coll opts nodes stats hbuild origin direction minHit maxHit o p m ho hdir hmin hm hsc
    (scale_double (by decide +kernel) (by decide +kernel)) (scale_double (by decide +kernel) (by decide +kernel)) rayhit out h
  obtain ⟨d', n, g1, g2, -⟩ := C68_direction _ _ _ rounds_double origin direction minHit maxHit any p hdir hsc
  obtain rfl := g1.unique h5
  refine ⟨center, dx, dy, rotation, _, h1, h2, h3, h4, h5, g2.trans_eq (by ring),
    fun c a b R ε L hc ha hb hR hε hε' hL hL1 hL2 => ?_⟩
  obtain ⟨k, k1, k2, k3⟩ := h6 c a b R ε L hc ha hb hR hε hε' hL (scale_double hL1 hL2)
  refine ⟨k, k1, k2, fun ix iy => ?_⟩
  obtain ⟨n', σ, n1, n2, n3, n4, n5, n6⟩ := k3 (lt_of_eq_of_lt (by ring) ix) (lt_of_eq_of_lt (by ring) iy)
  exact ⟨n', σ, n1, n2.trans_eq (by ring), n3, fun j => (n4 j).trans_eq (by ring), (by ring : _ = _).trans_le n5, n6.trans_eq (by ring)⟩

/-- **C87** for `float`. -/
theorem C87_float (part : StdPartition) (coll : PlaneColl Single) (opts : BuildOptions)
    (nodes : List (Node Single (Plane Single))) (stats : Statistics)
    (hbuild : build part coll.toCollection opts [] = .ok (nodes, stats))
    (origin direction : Vec3 Single) (minHit maxHit : Single) {any : Bool} (o p : Vec3 ℚ) (m : ℚ)
    (ho : IsV origin o) (hdir : IsV direction p) (hmin : minHit.Is m) (hm : 0 ≤ m)
    (hp1 : 1 / 2 ^ 51 ≤ |p.x| + |p.y| + |p.z|) (hp2 : |p.x| + |p.y| + |p.z| ≤ 2 ^ 60) (rayhit out : RayHit Single)
    (h : traverse planeIx nodes (Ray.make origin direction minHit maxHit any) rayhit = .ok (true, out)) :
    ∃ center dx dy rotation d, coll.centers[out.primId]? = some center ∧ coll.dxs[out.primId]? = some dx ∧
      coll.dys[out.primId]? = some dy ∧ coll.rotations[out.primId]? = some rotation ∧
      IsV (Ray.make origin direction minHit maxHit any).direction d ∧ |Vec3.dot d d - 1| ≤ 11 / 2 ^ 24 ∧
      ∀ c a b R ε L, IsV center c → dx.Is a → dy.Is b → IsM rotation R → NearOrtho ε R → ε ≤ 1 / 1000 →
        |o.x - c.x| + |o.y - c.y| + |o.z - c.z| + |a| + |b| ≤ L → 1 / 2 ^ 51 ≤ L → L ≤ 2 ^ 60 →
        ∃ h, out.hitDistance.Is h ∧ 0 ≤ h ∧
          (|(R.trans.mulVec (along o d h - c)).x| + (185 / 2 ^ 24 + 11 * ε) * L < a / 2 →
          |(R.trans.mulVec (along o d h - c)).y| + (185 / 2 ^ 24 + 11 * ε) * L < b / 2 →
          ∃ n σ, IsV out.normal n ∧ |Vec3.dot n n - 1| ≤ 11 / 2 ^ 24 ∧ (σ = 1 ∨ σ = -1) ∧
            (∀ k, |n.get k - σ * (perp R).get k| ≤ 80 / 2 ^ 24 + ε) ∧
            -(6 / 2 ^ 24 * L) ≤ σ * Vec3.dot (perp R) (o - c) ∧ σ * Vec3.dot (perp R) d ≤ 8 / 2 ^ 24) := by
  have hsc := scale_float hp1 hp2
  obtain ⟨center, dx, dy, rotation, d, h1, h2, h3, h4, h5, h6⟩ := C87_plane_normal _ _ _ rounds_float faithful_float
    Format.binary32_odd part coll opts nodes stats hbuild origin direction minHit maxHit o p m ho hdir hmin hm hsc
    (scale_float (by decide +kernel) (by decide +kernel)) (scale_float (by decide +kernel) (by decide +kernel)) rayhit out h
  obtain ⟨d', n, g1, g2, -⟩ := C68_direction _ _ _ rounds_float origin direction minHit maxHit any p hdir hsc
  obtain rfl := g1.unique h5
  refine ⟨center, dx, dy, rotation, _, h1, h2, h3, h4, h5, g2.trans_eq (by ring),
    fun c a b R ε L hc ha hb hR hε hε' hL hL1 hL2 => ?_⟩
  obtain ⟨k, k1, k2, k3⟩ := h6 c a b R ε L hc ha hb hR hε hε' hL (scale_float hL1 hL2)
  refine ⟨k, k1, k2, fun ix iy => ?_⟩
  obtain ⟨n', σ, n1, n2, n3, n4, n5, n6⟩ := k3 (lt_of_eq_of_lt (by ring) ix) (lt_of_eq_of_lt (by ring) iy)
  exact ⟨n', σ, n1, n2.trans_eq (by ring), n3, fun j => (n4 j).trans_eq (by ring), (by ring : _ = _).trans_le n5, n6.trans_eq (by ring)⟩

/-- **C88**, for any format over the rationals that rounds: `distance_to_surface(sphere, p)` is the smallest distance of `p` to
a point of the sphere, up to an error of `25 u L`, where `L` is any bound for the size of the sphere and the distance of its
center. -/
theorem C88_sphere_distance (u η hi L : ℚ) {F : Fmt ℚ} (hF : F.Rounds u η hi) (hs : Scale u η hi L) (s : Sphere (XF F))
    (point : Vec3 (XF F)) (c p : Vec3 ℚ) (r : ℚ) (hc : IsV s.center c) (hr : s.radius.Is r) (hr0 : 0 ≤ r) (hp : IsV point p)
    (hL : |c.x - p.x| + |c.y - p.y| + |c.z - p.z| + r ≤ L) :
    ∃ v y, (sphereDistance s point).Is v ∧ IsLeast {x | ∃ q, OnSphere c.toReal r q ∧ x = dist3 p.toReal q} y ∧
      |(v : ℝ) - y| ≤ 25 * u * L := by
  obtain ⟨v, n, h1, h2, h3, h4⟩ := sphere_distance_near hF hs hc hr hp (by rw [abs_of_nonneg hr0]; exact hL)
  refine ⟨v, |dist3 c.toReal p.toReal - r|, h1, sphere_least _ _ (by exact_mod_cast hr0), ?_⟩
  exact sphere_distance_real hs hr0 h2 h3 h4 hL

/-- **C88** for `double`. -/
theorem C88_double (L : ℚ) (hL1 : 1 / 2 ^ 484 ≤ L) (hL2 : L ≤ 2 ^ 500) (s : Sphere Double)
    (point : Vec3 Double) (c p : Vec3 ℚ) (r : ℚ) (hc : IsV s.center c) (hr : s.radius.Is r) (hr0 : 0 ≤ r) (hp : IsV point p)
    (hL : |c.x - p.x| + |c.y - p.y| + |c.z - p.z| + r ≤ L) :
    ∃ v y, (sphereDistance s point).Is v ∧ IsLeast {x | ∃ q, OnSphere c.toReal r q ∧ x = dist3 p.toReal q} y ∧
      |(v : ℝ) - y| ≤ 25 / 2 ^ 53 * L := by
  obtain ⟨v, y, h1, h2, h3⟩ := C88_sphere_distance _ _ _ L rounds_double (scale_double hL1 hL2) s point c p r hc hr hr0 hp hL
  exact ⟨v, y, h1, h2, h3.trans_eq (by push_cast; ring)⟩

/-- **C88** for `float`. -/
theorem C88_float (L : ℚ) (hL1 : 1 / 2 ^ 51 ≤ L) (hL2 : L ≤ 2 ^ 60) (s : Sphere Single)
    (point : Vec3 Single) (c p : Vec3 ℚ) (r : ℚ) (hc : IsV s.center c) (hr : s.radius.Is r) (hr0 : 0 ≤ r) (hp : IsV point p)
    (hL : |c.x - p.x| + |c.y - p.y| + |c.z - p.z| + r ≤ L) :
    ∃ v y, (sphereDistance s point).Is v ∧ IsLeast {x | ∃ q, OnSphere c.toReal r q ∧ x = dist3 p.toReal q} y ∧
      |(v : ℝ) - y| ≤ 25 / 2 ^ 24 * L := by
  obtain ⟨v, y, h1, h2, h3⟩ := C88_sphere_distance _ _ _ L rounds_float (scale_float hL1 hL2) s point c p r hc hr hr0 hp hL
  exact ⟨v, y, h1, h2, h3.trans_eq (by push_cast; ring)⟩

/-! ### Examples -/

/-- the slanted ray of `sampleRaySlanted` hits sphere 0; the normal it reports points outward, to the lower side -/
example : evalOk (do
      let (nodes, _) ← build stablePartition sampleSpheres.toCollection smallOptions []
      traverse (sphereIx sampleSpheres) nodes sampleRaySlanted RayHit.fresh)
    (fun r => r.1 && r.2.primId == 0 && lt r.2.normal.y (dbl (-1/2))) = true := by decide +kernel

/-- C86 for this ray: the normal is the outward normal up to `10^-10`. -/
example (part : StdPartition) (opts : BuildOptions) (nodes : List (Node Double (Sphere Double))) (stats : Statistics)
    (hbuild : build part sampleSpheres.toCollection opts [] = .ok (nodes, stats)) (out : RayHit Double)
    (h : traverse (sphereIx sampleSpheres) nodes sampleRaySlanted RayHit.fresh = .ok (true, out)) (hid : out.primId = 0) :
    ∃ d h n, IsV sampleRaySlanted.direction d ∧ out.hitDistance.Is h ∧ IsV out.normal n ∧
      ∀ k, |n.get k - (along ⟨1/4, -5, 1/8⟩ d h).get k| ≤ 1 / 10 ^ 10 := by
  obtain ⟨c, r, d, h1, h2, h3, -, h4⟩ := C86_double part sampleSpheres opts nodes stats hbuild _ _ (dbl 0) _ ⟨1/4, -5, 1/8⟩
    ⟨1, 9, 1/4⟩ 0 (dvec_is (sx := false) (sy := true) (sz := false) (by decide +kernel))
    (dvec_is (sx := false) (sy := false) (sz := false) (by decide +kernel))
    ⟨false, by decide +kernel⟩ le_rfl (by decide +kernel) (by decide +kernel) RayHit.fresh out h
  rw [hid] at h1 h2
  cases h1
  cases h2
  obtain ⟨k, n, k1, -, k3, -, k4⟩ := h4 ⟨0, 0, 0⟩ 1 7 (dvec_is (sx := false) (sy := false) (sz := false) (by decide +kernel))
    ⟨false, by decide +kernel⟩ (by decide +kernel) (by decide +kernel) (by decide +kernel) (by decide +kernel)
  refine ⟨d, k, n, h3, k1, k3, fun j => ?_⟩
  have := k4 j
  have e : (⟨0, 0, 0⟩ : Vec3 ℚ).get j = 0 := by
    match j with
    | 0 => rfl
    | 1 => rfl
    | 2 => rfl
  rw [e, sub_zero, div_one] at this
  exact this.trans (by norm_num)

/-- a vertical ray from above onto the second rectangle of `samplePlanes` -/
def samplePlaneDown : Ray Double := Ray.make (dvec 1 (1/2) 9) (dvec 0 0 (-1)) (dbl 0) (dbl 100) false

example : evalOk (do
      let (nodes, _) ← build stablePartition samplePlanes.toCollection smallOptions []
      traverse planeIx nodes samplePlaneDown RayHit.fresh)
    (fun r => r.1 && r.2.primId == 1 && r.2.normal == dvec 0 0 1) = true := by decide +kernel

/-- C87 for this ray: the hit is in the interior, so that the normal is the upward one up to rounding. -/
example (part : StdPartition) (opts : BuildOptions) (nodes : List (Node Double (Plane Double))) (stats : Statistics)
    (hbuild : build part samplePlanes.toCollection opts [] = .ok (nodes, stats)) (out : RayHit Double)
    (h : traverse planeIx nodes samplePlaneDown RayHit.fresh = .ok (true, out)) (hid : out.primId = 1) :
    ∃ n : Vec3 ℚ, IsV out.normal n ∧ |n.z - 1| ≤ 80 / 2 ^ 53 := by
  obtain ⟨c, dx, dy, R, d, h1, h2, h3, h4, h5, -, h6⟩ := C87_double part samplePlanes opts nodes stats hbuild _ _ (dbl 0) _
    ⟨1, 1/2, 9⟩ ⟨0, 0, -1⟩ 0 (dvec_is (sx := false) (sy := false) (sz := false) (by decide +kernel))
    (dvec_is (sx := false) (sy := false) (sz := true) (by decide +kernel))
    ⟨false, by decide +kernel⟩ le_rfl (by decide +kernel) (by decide +kernel) RayHit.fresh out h
  rw [hid] at h1 h2 h3 h4
  cases h1
  cases h2
  cases h3
  cases h4
  have hd : IsV (Ray.make (dvec 1 (1/2) 9) (dvec 0 0 (-1)) (dbl 0) (dbl 100) false).direction (⟨0, 0, -1⟩ : Vec3 ℚ) := by
    have e : (Ray.make (dvec 1 (1/2) 9) (dvec 0 0 (-1)) (dbl 0) (dbl 100) false).direction =
        ⟨.fin 0 false, .fin 0 false, .fin (-1) true⟩ := by decide +kernel
    rw [e]
    exact ⟨⟨_, rfl⟩, ⟨_, rfl⟩, ⟨_, rfl⟩⟩
  obtain rfl := h5.unique hd
  have hid' : IsM idMat (⟨⟨1, 0, 0⟩, ⟨0, 1, 0⟩, ⟨0, 0, 1⟩⟩ : Mat3 ℚ) :=
    ⟨dvec_is (sx := false) (sy := false) (sz := false) (by decide +kernel),
      dvec_is (sx := false) (sy := false) (sz := false) (by decide +kernel),
      dvec_is (sx := false) (sy := false) (sz := false) (by decide +kernel)⟩
  obtain ⟨k, k1, k2, k3⟩ := h6 ⟨1, 0, 5⟩ 8 3 ⟨⟨1, 0, 0⟩, ⟨0, 1, 0⟩, ⟨0, 0, 1⟩⟩ 0 20
    (dvec_is (sx := false) (sy := false) (sz := false) (by decide +kernel))
    ⟨false, by decide +kernel⟩ ⟨false, by decide +kernel⟩ hid'
    (by refine ⟨⟨?_, ?_, ?_, ?_, ?_, ?_⟩, ⟨?_, ?_, ?_, ?_, ?_, ?_⟩⟩ <;> decide +kernel) (by norm_num) (by decide +kernel)
    (by decide +kernel) (by decide +kernel)
  obtain ⟨n, σ, n1, -, n3, n4, n5, -⟩ := k3 (by norm_num [Mat3.mulVec, Mat3.trans, Vec3.dot, along, Vec3.smul])
    (by norm_num [Mat3.mulVec, Mat3.trans, Vec3.dot, along, Vec3.smul])
  refine ⟨n, n1, ?_⟩
  have h7 := n4 2
  simp only [perp, Vec3.get_two] at h7
  rcases n3 with rfl | rfl
  · linarith
  · exfalso
    norm_num [perp, Vec3.dot] at n5

/-- C88: the distance of the point (1,2,3) to the unit sphere at the origin, up to `10^-13` -/
example : ∃ v y, (sphereDistance (T := Double) ⟨dvec 0 0 0, dbl 1, 0⟩ (dvec 1 2 3)).Is v ∧
    IsLeast {x | ∃ q, OnSphere (⟨0, 0, 0⟩ : Vec3 ℚ).toReal (1 : ℚ) q ∧ x = dist3 (⟨1, 2, 3⟩ : Vec3 ℚ).toReal q} y ∧
    |(v : ℝ) - y| ≤ 1 / 10 ^ 13 := by
  obtain ⟨v, y, h1, h2, h3⟩ := C88_double 7 (by decide +kernel) (by decide +kernel) ⟨dvec 0 0 0, dbl 1, 0⟩ (dvec 1 2 3) ⟨0, 0, 0⟩
    ⟨1, 2, 3⟩ 1 (dvec_is (sx := false) (sy := false) (sz := false) (by decide +kernel)) ⟨false, by decide +kernel⟩ (by norm_num)
    (dvec_is (sx := false) (sy := false) (sz := false) (by decide +kernel)) (by decide +kernel)
  exact ⟨v, y, h1, h2, h3.trans (by norm_num)⟩

end Blazert
