/- C84, C85: queries with `any_hit`, in any arithmetic and with all roundings. -/
import Verif.Props.SceneRound
import Verif.Proofs.AnyRound

set_option autoImplicit false

namespace Blazert
open Scalar

/-! ### C84: what an any-hit query tests -/

section
variable {T : Type} [Scalar T] {P I : Type}

/-- **C84**.  In any arithmetic: an any-hit query on a built BVH that comes to an end tests some of the primitives `vs` one
after the other, each at most once, and its answer is the result of these tests and of nothing else.  Either the last of these
tests is the first to succeed; or all of them fail, and then every primitive that was left out lies below a node whose box
the box test rejected with the upper limit of the ray. -/
theorem C84_any_hit_tests (part : StdPartition) (p : Collection T P) (opts : BuildOptions) (nodes : List (Node T P))
    (stats : Statistics) (hbuild : build part p opts [] = .ok (nodes, stats)) (ix : Intersector T P I) (ray : Ray T)
    (hany : ray.anyHit = true) (hq : Quiet ix ray) (rayhit out : RayHit T) (hit : Bool)
    (h : traverse ix nodes ray rayhit = .ok (hit, out)) :
    ∃ ps vs rest, (List.range p.size).mapM p.prim = .ok ps ∧ (vs ++ rest).Perm ps ∧ Answers ix ray rayhit vs hit out ∧
      (StopsAtFirst ix ray vs ∨ (∀ q ∈ vs, Rejects ix ray q) ∧
        ∀ q ∈ rest, ∃ i nd, nodes[i]? = some nd ∧ Under nodes q i ∧ intersectNode ray.minHit ray.maxHit nd ray = false) := by
  obtain ⟨t, hb, hr, vs, rest, h1, h2, h3⟩ := traverse_anyTests hbuild hany hq h
  obtain ⟨ps, hps, hperm⟩ := hb.prims_perm
  refine ⟨ps, vs, rest, hps, h1.trans hperm, h2, h3.imp id fun ⟨h3, h4⟩ => ⟨h3, fun q hq => ?_⟩⟩
  obtain ⟨u, hu, hqu, hbox⟩ := h4 q hq
  obtain ⟨i, nd, hi, hnd, e⟩ := hr.subtree hu
  exact ⟨i, nd, hnd, hi.under hqu, by rw [intersectNode_eq_hitBox, e, hbox]⟩

/-- **C84**: if none of its tests succeeds, an any-hit query gives the answer of the query for the closest hit.  Otherwise its
answer is that of the test of a single primitive, which succeeds. -/
theorem C84_agree (part : StdPartition) (p : Collection T P) (opts : BuildOptions) (nodes : List (Node T P))
    (stats : Statistics) (hbuild : build part p opts [] = .ok (nodes, stats)) (ix : Intersector T P I) (ray : Ray T)
    (hany : ray.anyHit = true) (hq : Quiet ix ray) (hix : ∀ s q, ix.isect s q { ray with anyHit := false } = ix.isect s q ray)
    (hprep : ix.prepare { ray with anyHit := false } = ix.prepare ray) (rayhit out : RayHit T) (hit : Bool)
    (h : traverse ix nodes ray rayhit = .ok (hit, out)) :
    (∃ i < p.size, ∃ q, p.prim i = .ok q ∧ (ix.isect (ix.prepare ray) q ray).2 = true ∧
      Answers ix ray rayhit [q] hit out) ∨ traverse ix nodes { ray with anyHit := false } rayhit = .ok (hit, out) :=
  traverse_agree hbuild hany hq hix hprep h

/-- The intersectors of blazert meet the assumptions of C84 (see C66 for the first of them). -/
theorem C84_intersectors (ray : Ray T) :
    (∀ c : SphereColl T, (∀ s q, (sphereIx c).isect s q { ray with anyHit := false } = (sphereIx c).isect s q ray) ∧
      (sphereIx c).prepare { ray with anyHit := false } = (sphereIx c).prepare ray) ∧
    ((∀ s q, planeIx.isect s q { ray with anyHit := false } = planeIx.isect s q ray) ∧
      planeIx.prepare { ray with anyHit := false } = planeIx.prepare ray) ∧
    (∀ m : MeshColl T, (∀ s q, (triIx m).isect s q { ray with anyHit := false } = (triIx m).isect s q ray) ∧
      (triIx m).prepare { ray with anyHit := false } = (triIx m).prepare ray) ∧
    ((∀ s q, cylIx.isect s q { ray with anyHit := false } = cylIx.isect s q ray) ∧
      cylIx.prepare { ray with anyHit := false } = cylIx.prepare ray) :=
  ⟨fun _ => ⟨fun _ _ => rfl, rfl⟩, ⟨fun _ _ => rfl, rfl⟩, fun _ => ⟨fun _ _ => rfl, rfl⟩, ⟨fun _ _ => rfl, rfl⟩⟩

end

/-! ### C85: with and without `any_hit` -/

/-- **C85**, false without assumptions, even with the default limits.  With a tiny triangle in front of a large one, the query
for any hit finds the large triangle (tested first), the query for the closest hit finds nothing.  If the order of the triangles
is changed, it is the other way round. -/
theorem C85_dust_differs :
    (∀ any, ∃ r, (do
      let mesh ← MeshColl.make dustVertices [⟨0, 1, 2⟩, ⟨3, 4, 5⟩]
      let (nodes, _) ← build stablePartition mesh.toCollection BuildOptions.default []
      traverse (triIx mesh) nodes (Ray.make (dvec 1 1 (-5)) (dvec 0 0 1) (nat 0) maxVal any) RayHit.fresh) = .ok r ∧ r.1 = any) ∧
    (∀ any, ∃ r, (do
      let mesh ← MeshColl.make dustVertices [⟨3, 4, 5⟩, ⟨0, 1, 2⟩]
      let (nodes, _) ← build stablePartition mesh.toCollection BuildOptions.default []
      traverse (triIx mesh) nodes (Ray.make (dvec 1 1 (-5)) (dvec 0 0 1) (nat 0) maxVal any) RayHit.fresh) = .ok r ∧ r.1 = !any) := by
  constructor
  · intro any
    cases any
    · exact exists_ok_of_eval (by decide +kernel)
    · exact exists_ok_of_eval (by decide +kernel)
  · intro any
    cases any
    · exact exists_ok_of_eval (by decide +kernel)
    · exact exists_ok_of_eval (by decide +kernel)

section
variable {K : Type} [Field K] [LinearOrder K] [IsStrictOrderedRing K] [FloorRing K] {F : Fmt K}

/-- the part of C85 about spheres, rectangles and meshes -/
theorem same_but_cylinders {u η lo lo' hi : K} (hF : F.Rounds u η hi) (hF' : F.Relative u lo hi) (hfa : F.Faithful u η)
    (hodd : F.Odd) {L ε ℓ B : K} (hs : Scale3 u η hi lo' L) (hε : ε ≤ 1 / 1000) (hℓ : lo' ≤ ℓ)
    {s : Scene (XF F)} {rs : List Nat} (hist : History s rs) (hcom : s.committed = true)
    {origin direction : Vec3 (XF F)} {minHit maxHit : XF F} {o p : Vec3 K} {m : K}
    (ho : IsV origin o) (hdir : IsV direction p) (hmin : minHit.Is m) (hm : 0 ≤ m) (hmL : 2 * L ^ 2 * m ≤ hi)
    (hscale : Scale u η hi (|p.x| + |p.y| + |p.z|)) (e1 : ∀ q, s.spheres = some q → SpheresWithin q.coll o L)
    (e2 : ∀ q, s.planes = some q → RectsWithin q.coll o L ε)
    (e3 : ∀ q, s.mesh = some q → FacesWithin q.coll o (Vec3.normalize direction) L ℓ)
    (e4 : PartSame (fun _ => cylIx) (Ray.make origin direction minHit maxHit false) (Ray.make origin direction minHit maxHit true) s.cylinders B)
    (hB : 4 * L ≤ B) (hB' : s.mesh.isSome → 2 * L ^ 3 ≤ B * ℓ) {rh0 rh1 out out' : RayHit (XF F)} {hit hit' : Bool}
    (hmax : ∀ x ∈ [maxHit, rh0.hitDistance, rh1.hitDistance], Exceeds x B)
    (h : s.intersect1 (Ray.make origin direction minHit maxHit false) rh0 = .ok (hit, out))
    (h' : s.intersect1 (Ray.make origin direction minHit maxHit true) rh1 = .ok (hit', out')) : hit = hit' := by
  obtain ⟨d, n, h1, h2, -⟩ := normalize_near hF hdir hscale
  have hu1 := hs.toScale.sizes.u1
  have hN : Vec3.dot d d ≤ 5 / 4 := by have := (abs_le.1 h2).2; linarith
  obtain ⟨-, f1, f2, f3, f4⟩ := hist.first
  rw [hcom] at f1 f2 f3 f4
  have hlim := hmax maxHit (by simp)
  refine scene_same (B := B) ?_ ?_ ?_ e4 (hmax _ (by simp)) (hmax _ (by simp)) h h'
  · refine PartSame.of_accept (ray := Ray.make origin direction minHit maxHit false) rfl rfl f1 (fun c => tri_quiet c _)
      (fun c => tri_quiet c _) (fun _ _ _ => rfl) (fun _ => rfl) (fun c s rh rh' h => (triPost_fields h).2)
      (Inv := fun _ s => s.minHit = minHit) (fun _ => rfl) (fun c s q hs => (triIntersect_minHit s q _).trans hs) hlim ?_
    intro x hx s i q hi hs' ha
    obtain ⟨g1, g2⟩ := e3 x hx
    obtain ⟨A, B', C, hq⟩ := mesh_within g1 hi
    obtain ⟨face, a, b, c, k1, k2, k3, k4, k5⟩ := MeshColl.prim_ok hi
    change (triIntersect s q _).2 = true at ha
    obtain ⟨x1, x2, x3, x4⟩ := tri_hit_bounded hF hF' hs hq ho h1 hN (hs' ▸ hmin) hm hmL ha hℓ (by
      intro D hD
      rw [k5] at hD
      exact g2 i face a b c D k1 k2 k3 k4 hD)
    refine ⟨x1, x2, ?_⟩
    have hℓ0 : 0 < ℓ := hs.lo_pos.trans_le hℓ
    exact le_of_mul_le_mul_right (x4.trans (hB' (by rw [hx]; rfl))) hℓ0
  · refine PartSame.of_accept (ray := Ray.make origin direction minHit maxHit false) rfl rfl f2 (fun c => sphere_quiet c _)
      (fun c => sphere_quiet c _) (fun _ _ _ => rfl) (fun _ => rfl) (fun c s rh rh' h => (spherePost_ok h).2)
      (Inv := fun _ => SphereKeeps (Ray.make origin direction minHit maxHit false)) (fun c => SphereKeeps.prepare _ c) (fun c s q => SphereKeeps.step s q) hlim ?_
    intro x hx s i q hi hs' ha
    obtain ⟨g1, g2, -⟩ := SphereColl.prim_eq hi
    obtain ⟨c, r, k1, k2, k3⟩ := e1 x hx i _ _ g1 g2
    obtain ⟨y, y1, -, y2⟩ := sphere_hit_bounded hF hs.toScale (Ray.make origin direction minHit maxHit false) (hs'.org ▸ ho) (hs'.dir ▸ h1) k1 k2 (hs'.min ▸ hmin) hm h2 k3 ha
    exact ⟨y, y1, y2.trans hB⟩
  · refine PartSame.of_accept (ray := Ray.make origin direction minHit maxHit false) rfl rfl f3 (fun c => plane_quiet _)
      (fun c => plane_quiet _) (fun _ _ _ => rfl) (fun _ => rfl) (fun c s rh rh' h => ?_)
      (Inv := fun _ => PlaneStart (Ray.make origin direction minHit maxHit false)) (fun c => ⟨rfl, rfl, rfl⟩) (fun c s q hs => Frame.start (planeIntersect_frame s q (Ray.make origin direction minHit maxHit false)) hs) hlim ?_
    · obtain rfl := Except.ok.inj h
      rfl
    intro x hx s i q hi hs' ha
    obtain ⟨-, g1, g2, g3, g4⟩ := PlaneColl.prim_ok hi
    obtain ⟨c, a, b, R, k1, k2, k3, k4, k5, k6⟩ := e2 x hx i _ _ _ _ g1 g2 g3 g4
    obtain ⟨y, y1, -, y2⟩ := plane_hit_bounded hF hfa hodd hs.toScale (i := s) (Ray.make origin direction minHit maxHit false) (hs'.1 ▸ ho) (hs'.2.1 ▸ h1)
      ⟨k1, k2, k3, k4, k5, k6⟩ hε (hs'.2.2 ▸ hmin) hm h2 ha
    exact ⟨y, y1, y2.trans hB⟩

/-- **C85**, general.  In any format that rounds: let `L` bound the distance of the geometry from the origin of the ray, and let
the computed determinants of the faces be zero or at least `ℓ`.  If the upper limit of the ray and the distance in the records
passed exceed `4 L` and `2 L³ / ℓ`, then the scene query with `any_hit` reports a hit if and only if the one without does. -/
theorem C85_same_answer (u η lo lo' hi : K) (hF : F.Rounds u η hi) (hF' : F.Relative u lo hi) (hfa : F.Faithful u η)
    (hodd : F.Odd) (L ε ℓ B : K) (hs : Scale3 u η hi lo' L) (hε : ε ≤ 1 / 1000) (hℓ : lo' ≤ ℓ)
    {s : Scene (XF F)} {rs : List Nat} (hist : History s rs) (hcom : s.committed = true)
    (origin direction : Vec3 (XF F)) (minHit maxHit : XF F) (o p : Vec3 K) (m : K)
    (ho : IsV origin o) (hdir : IsV direction p) (hmin : minHit.Is m) (hm : 0 ≤ m) (hmL : 2 * L ^ 2 * m ≤ hi)
    (hscale : Scale u η hi (|p.x| + |p.y| + |p.z|)) (hsize : SceneWithin s o (Vec3.normalize direction) L ε ℓ)
    (hB : 4 * L ≤ B) (hB' : s.mesh.isSome → 2 * L ^ 3 ≤ B * ℓ) (rh0 rh1 out out' : RayHit (XF F)) (hit hit' : Bool)
    (hmax : ∀ x ∈ [maxHit, rh0.hitDistance, rh1.hitDistance], Exceeds x B)
    (h : s.intersect1 (Ray.make origin direction minHit maxHit false) rh0 = .ok (hit, out))
    (h' : s.intersect1 (Ray.make origin direction minHit maxHit true) rh1 = .ok (hit', out')) : hit = hit' := by
  obtain ⟨e1, e2, e3, e4⟩ := hsize
  refine same_but_cylinders hF hF' hfa hodd hs hε hℓ hist hcom ho hdir hmin hm hmL hscale e1 e2 e3 ?_ hB hB' hmax h h'
  rw [e4]
  refine ⟨fun _ _ => ⟨?_, ?_⟩, ?_⟩
  · rintro ⟨r, q, r', h, -⟩; cases h
  · rintro ⟨r, q, r', h, -⟩; cases h
  · rintro r (⟨q, r', h, -⟩ | ⟨q, r', h, -⟩) <;> cases h

end

/-- **C85** for `double`. -/
theorem C85_double (L ε ℓ B : ℚ) (hL1 : 1 / 2 ^ 100 ≤ L) (hL2 : L ≤ 2 ^ 100) (hε : ε ≤ 1 / 1000) (hℓ : 1 / 2 ^ 700 ≤ ℓ)
    {s : Scene Double} {rs : List Nat} (hist : History s rs) (hcom : s.committed = true)
    (origin direction : Vec3 Double) (minHit maxHit : Double) (o p : Vec3 ℚ) (m : ℚ)
    (ho : IsV origin o) (hdir : IsV direction p) (hmin : minHit.Is m) (hm : 0 ≤ m) (hmL : 2 * L ^ 2 * m ≤ (2 - 1 / 2 ^ 52) * 2 ^ 1023)
    (hp1 : 1 / 2 ^ 484 ≤ |p.x| + |p.y| + |p.z|) (hp2 : |p.x| + |p.y| + |p.z| ≤ 2 ^ 500)
    (hsize : SceneWithin s o (Vec3.normalize direction) L ε ℓ)
    (hB : 4 * L ≤ B) (hB' : s.mesh.isSome → 2 * L ^ 3 ≤ B * ℓ) (rh0 rh1 out out' : RayHit Double) (hit hit' : Bool)
    (hmax : ∀ x ∈ [maxHit, rh0.hitDistance, rh1.hitDistance], Exceeds x B)
    (h : s.intersect1 (Ray.make origin direction minHit maxHit false) rh0 = .ok (hit, out))
    (h' : s.intersect1 (Ray.make origin direction minHit maxHit true) rh1 = .ok (hit', out')) : hit = hit' :=
  C85_same_answer _ _ _ _ _ rounds_double relative_double faithful_double Format.binary64_odd L ε ℓ B (scale3_double hL1 hL2) hε hℓ
    hist hcom origin direction minHit maxHit o p m ho hdir hmin hm hmL (scale_double hp1 hp2) hsize hB hB' rh0 rh1 out out' hit hit'
    hmax h h'

/-- **C85** for `float`. -/
theorem C85_float (L ε ℓ B : ℚ) (hL1 : 1 / 2 ^ 20 ≤ L) (hL2 : L ≤ 2 ^ 15) (hε : ε ≤ 1 / 1000) (hℓ : 1 / 2 ^ 80 ≤ ℓ)
    {s : Scene Single} {rs : List Nat} (hist : History s rs) (hcom : s.committed = true)
    (origin direction : Vec3 Single) (minHit maxHit : Single) (o p : Vec3 ℚ) (m : ℚ)
    (ho : IsV origin o) (hdir : IsV direction p) (hmin : minHit.Is m) (hm : 0 ≤ m) (hmL : 2 * L ^ 2 * m ≤ (2 - 1 / 2 ^ 23) * 2 ^ 127)
    (hp1 : 1 / 2 ^ 51 ≤ |p.x| + |p.y| + |p.z|) (hp2 : |p.x| + |p.y| + |p.z| ≤ 2 ^ 60)
    (hsize : SceneWithin s o (Vec3.normalize direction) L ε ℓ)
    (hB : 4 * L ≤ B) (hB' : s.mesh.isSome → 2 * L ^ 3 ≤ B * ℓ) (rh0 rh1 out out' : RayHit Single) (hit hit' : Bool)
    (hmax : ∀ x ∈ [maxHit, rh0.hitDistance, rh1.hitDistance], Exceeds x B)
    (h : s.intersect1 (Ray.make origin direction minHit maxHit false) rh0 = .ok (hit, out))
    (h' : s.intersect1 (Ray.make origin direction minHit maxHit true) rh1 = .ok (hit', out')) : hit = hit' :=
  C85_same_answer _ _ _ _ _ rounds_float relative_float faithful_float Format.binary32_odd L ε ℓ B (scale3_float hL1 hL2) hε hℓ
    hist hcom origin direction minHit maxHit o p m ho hdir hmin hm hmL (scale_float hp1 hp2) hsize hB hB' rh0 rh1 out out' hit hit'
    hmax h h'

/-- **C85** for `double`, default limits: with the limits and the record that `Ray` and `RayHit` have by default, scenes of
spheres, rectangles and meshes, with determinants that are zero or at least `2^-700`, give the same answer for any hit as for the
closest one. -/
theorem C85_default_double (L ε : ℚ) (hL1 : 1 / 2 ^ 100 ≤ L) (hL2 : L ≤ 2 ^ 100) (hε : ε ≤ 1 / 1000)
    {s : Scene Double} {rs : List Nat} (hist : History s rs) (hcom : s.committed = true)
    (origin direction : Vec3 Double) (o p : Vec3 ℚ) (ho : IsV origin o) (hdir : IsV direction p)
    (hp1 : 1 / 2 ^ 484 ≤ |p.x| + |p.y| + |p.z|) (hp2 : |p.x| + |p.y| + |p.z| ≤ 2 ^ 500)
    (hsize : SceneWithin s o (Vec3.normalize direction) L ε (1 / 2 ^ 700)) (out out' : RayHit Double) (hit hit' : Bool)
    (h : s.intersect1 (Ray.make origin direction (nat 0) maxVal false) RayHit.fresh = .ok (hit, out))
    (h' : s.intersect1 (Ray.make origin direction (nat 0) maxVal true) RayHit.fresh = .ok (hit', out')) : hit = hit' := by
  have hx : Exceeds (maxVal : Double) (2 ^ 1001) := .inr ⟨Format.binary64.maxVal, ⟨false, rfl⟩, by decide +kernel⟩
  refine C85_double L ε _ (2 ^ 1001) hL1 hL2 hε le_rfl hist hcom origin direction (nat 0) maxVal o p 0 ho hdir
    ⟨false, by decide +kernel⟩ le_rfl (by rw [mul_zero]; decide +kernel) hp1 hp2 hsize ?_ ?_ _ _ out out' hit hit' ?_ h h'
  · have e : (4 * 2 ^ 100 : ℚ) ≤ 2 ^ 1001 := by decide +kernel
    exact (mul_le_mul_of_nonneg_left hL2 (by norm_num)).trans e
  · intro _
    have h0 : (0 : ℚ) ≤ L := le_trans (by decide +kernel) hL1
    have e : 2 * (2 ^ 100 : ℚ) ^ 3 ≤ 2 ^ 1001 * (1 / 2 ^ 700) := by decide +kernel
    exact (mul_le_mul_of_nonneg_left (pow_le_pow_left₀ h0 hL2 3) (by norm_num)).trans e
  · simp only [List.mem_cons, List.not_mem_nil, or_false]
    rintro x (rfl | rfl | rfl)
    · exact hx
    · exact hx
    · exact hx

/-- **C85** for `float`, default limits; here determinants are to be zero or at least `2^-80`. -/
theorem C85_default_float (L ε : ℚ) (hL1 : 1 / 2 ^ 20 ≤ L) (hL2 : L ≤ 2 ^ 15) (hε : ε ≤ 1 / 1000)
    {s : Scene Single} {rs : List Nat} (hist : History s rs) (hcom : s.committed = true)
    (origin direction : Vec3 Single) (o p : Vec3 ℚ) (ho : IsV origin o) (hdir : IsV direction p)
    (hp1 : 1 / 2 ^ 51 ≤ |p.x| + |p.y| + |p.z|) (hp2 : |p.x| + |p.y| + |p.z| ≤ 2 ^ 60)
    (hsize : SceneWithin s o (Vec3.normalize direction) L ε (1 / 2 ^ 80)) (out out' : RayHit Single) (hit hit' : Bool)
    (h : s.intersect1 (Ray.make origin direction (nat 0) maxVal false) RayHit.fresh = .ok (hit, out))
    (h' : s.intersect1 (Ray.make origin direction (nat 0) maxVal true) RayHit.fresh = .ok (hit', out')) : hit = hit' := by
  have hx : Exceeds (maxVal : Single) (2 ^ 126) := .inr ⟨Format.binary32.maxVal, ⟨false, rfl⟩, by decide +kernel⟩
  refine C85_float L ε _ (2 ^ 126) hL1 hL2 hε le_rfl hist hcom origin direction (nat 0) maxVal o p 0 ho hdir
    ⟨false, by decide +kernel⟩ le_rfl (by rw [mul_zero]; decide +kernel) hp1 hp2 hsize ?_ ?_ _ _ out out' hit hit' ?_ h h'
  · have e : (4 * 2 ^ 15 : ℚ) ≤ 2 ^ 126 := by decide +kernel
    exact (mul_le_mul_of_nonneg_left hL2 (by norm_num)).trans e
  · intro _
    have h0 : (0 : ℚ) ≤ L := le_trans (by decide +kernel) hL1
    have e : 2 * (2 ^ 15 : ℚ) ^ 3 ≤ 2 ^ 126 * (1 / 2 ^ 80) := by decide +kernel
    exact (mul_le_mul_of_nonneg_left (pow_le_pow_left₀ h0 hL2 3) (by norm_num)).trans e
  · simp only [List.mem_cons, List.not_mem_nil, or_false]
    rintro x (rfl | rfl | rfl)
    · exact hx
    · exact hx
    · exact hx

/-! ### Examples -/

/-- Queries as in C84: an any-hit query on three spheres, which comes to an end and stops at the second sphere. -/
example : ∃ r, (do
    let (nodes, _) ← build stablePartition sampleSpheres.toCollection BuildOptions.default []
    traverse (sphereIx sampleSpheres) nodes { sampleRayY with anyHit := true } RayHit.fresh) = .ok r ∧
    r.1 = true ∧ r.2.primId = 1 :=
  exists_ok_of_eval (by decide +kernel)

theorem rect_facesWithin : FacesWithin rectMesh ⟨2, 1, -1⟩ (Vec3.normalize (dvec 0 0 1)) 30 (1 / 2 ^ 700) := by
  refine ⟨rect_size, ?_⟩
  intro i face a b c D hf ha hb hc hD
  have hi : i < 2 := (List.getElem?_eq_some_iff.1 hf).1
  have e : Vec3.dot (Vec3.cross (a - b) (c - a)) (Vec3.normalize (dvec 0 0 1)) = .fin (-42) true := by
    interval_cases i
    · cases hf; cases ha; cases hb; cases hc; decide +kernel
    · cases hf; cases ha; cases hb; cases hc; decide +kernel
  rw [e] at hD
  obtain ⟨s, hD⟩ := hD
  cases hD
  right
  decide +kernel

theorem sample_spheresWithin : SpheresWithin sampleSpheres (⟨2, 1, -1⟩ : Vec3 ℚ) 30 := by
  intro i center radius hc hr
  have hi : i < 3 := (List.getElem?_eq_some_iff.1 hc).1
  have f1 : IsV (dvec 0 0 0) ⟨0, 0, 0⟩ := dvec_is (sx := false) (sy := false) (sz := false) (by decide +kernel)
  have f2 : IsV (dvec 4 0 0) ⟨4, 0, 0⟩ := dvec_is (sx := false) (sy := false) (sz := false) (by decide +kernel)
  have f3 : IsV (dvec 8 0 0) ⟨8, 0, 0⟩ := dvec_is (sx := false) (sy := false) (sz := false) (by decide +kernel)
  have f4 : (dbl 1).Is 1 := ⟨false, by decide +kernel⟩
  interval_cases i
  · cases hc; cases hr; exact ⟨_, _, f1, f4, by decide +kernel⟩
  · cases hc; cases hr; exact ⟨_, _, f2, f4, by decide +kernel⟩
  · cases hc; cases hr; exact ⟨_, _, f3, f4, by decide +kernel⟩

/-- The hypotheses of C85 are met by the scene of a rectangle (two faces) and three spheres, and a ray through the rectangle: the
queries for any hit and for the closest hit give the same answer, a hit. -/
example : ∃ s rs hit out hit' out', History s rs ∧ s.committed = true ∧
    SceneWithin s (⟨2, 1, -1⟩ : Vec3 ℚ) (Vec3.normalize (dvec 0 0 1)) 30 (1 / 1000) (1 / 2 ^ 700) ∧
    s.intersect1 (Ray.make (dvec 2 1 (-1)) (dvec 0 0 1) (nat 0) maxVal false) RayHit.fresh = .ok (hit, out) ∧
    s.intersect1 (Ray.make (dvec 2 1 (-1)) (dvec 0 0 1) (nat 0) maxVal true) RayHit.fresh = .ok (hit', out') ∧
    hit = hit' ∧ hit = true := by
  obtain ⟨s, h1, h2, h3, h4, h5, h6, h7, h8⟩ := exists_ok_of_eval (x := runCalls stablePartition sampleBoth)
    (q := fun s => s.committed = true ∧ s.mesh.map Part.coll = some rectMesh ∧ s.spheres.map Part.coll = some sampleSpheres ∧
      s.planes.isNone = true ∧ s.cylinders.isNone = true ∧
      evalOk (s.intersect1 (Ray.make (dvec 2 1 (-1)) (dvec 0 0 1) (nat 0) maxVal false) RayHit.fresh) (fun r => r.1) = true ∧
      evalOk (s.intersect1 (Ray.make (dvec 2 1 (-1)) (dvec 0 0 1) (nat 0) maxVal true) RayHit.fresh) (fun _ => true) = true)
    (by decide +kernel)
  obtain ⟨rs, hs⟩ := runCalls_history h1
  obtain ⟨⟨hit, out⟩, hr, hh⟩ := exists_ok_of_eval
    (x := s.intersect1 (Ray.make (dvec 2 1 (-1)) (dvec 0 0 1) (nat 0) maxVal false) RayHit.fresh) (q := fun r => r.1 = true)
    (by simpa using h7)
  obtain ⟨⟨hit', out'⟩, hr', -⟩ := exists_ok_of_eval
    (x := s.intersect1 (Ray.make (dvec 2 1 (-1)) (dvec 0 0 1) (nat 0) maxVal true) RayHit.fresh) (q := fun _ => True)
    (by simpa using h8)
  have hsize : SceneWithin s (⟨2, 1, -1⟩ : Vec3 ℚ) (Vec3.normalize (dvec 0 0 1)) 30 (1 / 1000) (1 / 2 ^ 700) := by
    refine ⟨fun q hq => ?_, fun q hq => ?_, fun q hq => ?_, Option.isNone_iff_eq_none.1 h6⟩
    · rw [hq, Option.map_some, Option.some.injEq] at h4
      rw [h4]; exact sample_spheresWithin
    · rw [hq] at h5; cases h5
    · rw [hq, Option.map_some, Option.some.injEq] at h3
      rw [h3]; exact rect_facesWithin
  refine ⟨s, rs, hit, out, hit', out', hs, h2, hsize, hr, hr', ?_, hh⟩
  exact C85_default_double 30 (1 / 1000) (by decide +kernel) (by decide +kernel) le_rfl hs h2 _ _ ⟨2, 1, -1⟩ ⟨0, 0, 1⟩
    (dvec_is (sx := false) (sy := false) (sz := true) (by decide +kernel))
    (dvec_is (sx := false) (sy := false) (sz := false) (by decide +kernel)) (by decide +kernel) (by decide +kernel)
    hsize out out' hit hit' hr hr'

end Blazert
