/- C107: rays that stay clear of all geometry hit nothing, with all roundings. -/
import Verif.Props.SceneRound
import Verif.Props.EmbreeCylRound
import Verif.Spec.Free

set_option autoImplicit false

namespace Blazert
open Scalar

section
variable {K : Type} [Field K] [LinearOrder K] [IsStrictOrderedRing K] [FloorRing K] {F : Fmt K}

theorem NearSphere.beyond {u lo up : K} {coll : SphereColl (XF F)} {id : Nat} {x : XF F} {o d : Vec3 K} {T t : K}
    (h : NearSphere u lo up coll id x o d) (hx : x.Is t)
    (hf : ∀ (i : Nat) (center : Vec3 (XF F)) (radius : XF F), coll.centers[i]? = some center →
      coll.radii[i]? = some radius → SphereFree u lo up center radius o d T) : T < t := by
  obtain ⟨center, radius, h1, h2, h3⟩ := h
  obtain ⟨c, r, L, k1, k2, k3, k4, k5, k6⟩ := hf id center radius h1 h2
  obtain ⟨t', g1, g2, g3⟩ := h3 c r L k1 k2 k3 k4 k5
  obtain rfl := g1.unique hx
  by_contra hlt
  exact absurd g3 (not_le.2 (k6 _ g2 (not_lt.1 hlt)))

theorem NearRect.beyond {u lo up : K} {coll : PlaneColl (XF F)} {id : Nat} {x : XF F} {o d : Vec3 K} {T t : K}
    (h : NearRect u lo up coll id x o d) (hx : x.Is t)
    (hf : ∀ (i : Nat) (center : Vec3 (XF F)) (dx dy : XF F) (rotation : Mat3 (XF F)),
      coll.centers[i]? = some center → coll.dxs[i]? = some dx → coll.dys[i]? = some dy → coll.rotations[i]? = some rotation →
      RectFree u lo up center dx dy rotation o d T) : T < t := by
  obtain ⟨center, dx, dy, rotation, h1, h2, h3, h4, h5⟩ := h
  obtain ⟨c, a, b, R, ε, L, k1, k2, k3, k4, k5, k6, k7, k8, k9, k10⟩ := hf id center dx dy rotation h1 h2 h3 h4
  obtain ⟨t', g1, g2, y, g3, g4⟩ := h5 c a b R ε L k1 k2 k3 k4 k5 k6 k7 k8 k9
  obtain rfl := g1.unique hx
  by_contra hlt
  obtain ⟨k, hk⟩ := k10 _ g2 (not_lt.1 hlt) y g3
  exact absurd (g4 k) (not_le.2 hk)

theorem NearFace.beyond {u lo up top m : K} {coll : MeshColl (XF F)} {id : Nat} {x : XF F} {o d : Vec3 K} {T t : K}
    (h : NearFace u lo up top m coll id x o d) (hx : x.Is t)
    (hf : ∀ (i : Nat) (face : Vec3 Nat) (a b c : Vec3 (XF F)), coll.faces[i]? = some face →
      coll.vertices[face.x]? = some a → coll.vertices[face.y]? = some b → coll.vertices[face.z]? = some c →
      FaceFree u lo up top m a b c o d T) : T < t := by
  obtain ⟨face, a, b, c, h1, h2, h3, h4, h5⟩ := h
  obtain ⟨A, B, C, L, k1, k2, k3, k4, k5, k6, k7, k8⟩ := hf id face a b c h1 h2 h3 h4
  obtain ⟨⟨s, hs, g1⟩, g2⟩ := h5 A B C L k1 k2 k3 k4 k5 k6 k7
  rcases k8 with ⟨e, he, e', he', i1, i2⟩ | ⟨i1, i2⟩
  · exfalso
    rcases hs with rfl | rfl
    · have := g1 e' he'
      linarith
    · have := g1 e he
      linarith
  · obtain ⟨t', j1, j2, j3⟩ := g2 i1
    obtain rfl := j1.unique hx
    by_contra hlt
    exact absurd j3 (not_le.2 (i2 _ j2 (not_lt.1 hlt)))

theorem NearTube.beyond {u lo up μ : K} {coll : CylColl (XF F)} {id : Nat} {x : XF F} {direction : Vec3 (XF F)} {o d : Vec3 K} {T t : K}
    (h : NearTube u lo up μ coll id x direction o d) (hx : x.Is t)
    (hf : ∀ (i : Nat) (center : Vec3 (XF F)) (fa fb fh : XF F) (rotation : Mat3 (XF F)),
      coll.centers[i]? = some center → coll.as[i]? = some fa → coll.bs[i]? = some fb → coll.heights[i]? = some fh →
      coll.rotations[i]? = some rotation → TubeFree u lo up μ center fa fb fh rotation direction o d T) : T < t := by
  obtain ⟨center, fa, fb, fh, rotation, h1, h2, h3, h4, h5, h6⟩ := h
  obtain ⟨c, a, b, h, R, ε, L, k1, k2, k3, k4, k5, k6, k7, k8, k9, k10, k11, k12, k13, k14, k15, k16, k17⟩ :=
    hf id center fa fb fh rotation h1 h2 h3 h4 h5
  obtain ⟨t', g1, g2, g3⟩ := h6 c a b h R ε L k1 k2 k3 k4 k5 k6 k7 k8 k9 k10 k11 k12 k13 k14 k15 k16
  obtain rfl := g1.unique hx
  by_contra hlt
  exact k17 _ g2 (not_lt.1 hlt) g3

end

/-- **C107** for `double`.  If the ray stays away from all geometry of a committed scene (of any kind) by more than the rounding errors until the
parameter `T`, then a hit that is reported is beyond `T`; closest-hit and any-hit queries. -/
theorem C107_double {s : Scene Double} {rs : List Nat} (hist : History s rs) (hcom : s.committed = true)
    (origin direction : Vec3 Double) (minHit maxHit : Double) {any : Bool} (o p d : Vec3 ℚ) (m T : ℚ)
    (ho : IsV origin o) (hdir : IsV direction p) (hmin : minHit.Is m) (hm : 0 ≤ m)
    (hp1 : 1 / 2 ^ 484 ≤ |p.x| + |p.y| + |p.z|) (hp2 : |p.x| + |p.y| + |p.z| ≤ 2 ^ 500)
    (hd : IsV (Ray.make origin direction minHit maxHit any).direction d)
    (hfree : s.FreeUntil (1 / 2 ^ 53) (1 / 2 ^ 484) (2 ^ 500) (1 / 2 ^ 100) (2 ^ 100) ((2 - 1 / 2 ^ 52) * 2 ^ 1023) m (1 / 2 ^ 100) (2 ^ 100)
      (1 / 2 ^ 150) (Ray.make origin direction minHit maxHit any).direction o d T)
    (rh0 out : RayHit Double) (h : s.intersect1 (Ray.make origin direction minHit maxHit any) rh0 = .ok (true, out)) :
    ∃ t, out.hitDistance.Is t ∧ T < t ∧ ∀ M, maxHit.Is M → t < M := by
  obtain ⟨t, ht, -, htM⟩ := C79_double hist hcom _ m hmin hm rh0 out h
  obtain ⟨d', g1, -, g3⟩ := C83_double hist hcom origin direction minHit maxHit o p m ho hdir hmin hm hp1 hp2 rh0 out h
  obtain rfl := g1.unique hd
  refine ⟨t, ht, ?_, htM⟩
  rcases g3 with ⟨q, e, -, k⟩ | ⟨q, e, -, k⟩ | ⟨q, e, -, k⟩ | ⟨q, e, -, k⟩
  · exact k.beyond ht (hfree.spheres q e)
  · exact k.beyond ht (hfree.planes q e)
  · exact k.beyond ht (hfree.mesh q e)
  · exact k.beyond ht (hfree.cylinders q e)

/-- **C107** for `double`, no hit.  If the ray stays away from all geometry up to its upper limit, or for good, no hit is reported. -/
theorem C107_none_double {s : Scene Double} {rs : List Nat} (hist : History s rs) (hcom : s.committed = true)
    (origin direction : Vec3 Double) (minHit maxHit : Double) {any : Bool} (o p d : Vec3 ℚ) (m : ℚ)
    (ho : IsV origin o) (hdir : IsV direction p) (hmin : minHit.Is m) (hm : 0 ≤ m)
    (hp1 : 1 / 2 ^ 484 ≤ |p.x| + |p.y| + |p.z|) (hp2 : |p.x| + |p.y| + |p.z| ≤ 2 ^ 500)
    (hd : IsV (Ray.make origin direction minHit maxHit any).direction d)
    (hfree : ∀ T, (∀ M, maxHit.Is M → T ≤ M) →
      s.FreeUntil (1 / 2 ^ 53) (1 / 2 ^ 484) (2 ^ 500) (1 / 2 ^ 100) (2 ^ 100) ((2 - 1 / 2 ^ 52) * 2 ^ 1023) m (1 / 2 ^ 100) (2 ^ 100)
      (1 / 2 ^ 150) (Ray.make origin direction minHit maxHit any).direction o d T)
    (rh0 out : RayHit Double) (hit : Bool) (h : s.intersect1 (Ray.make origin direction minHit maxHit any) rh0 = .ok (hit, out)) :
    hit = false := by
  by_contra hne
  rw [Bool.not_eq_false] at hne
  subst hne
  obtain ⟨t, ht, -, htM⟩ := C79_double hist hcom _ m hmin hm rh0 out h
  obtain ⟨t', ht', hlt, -⟩ := C107_double hist hcom origin direction minHit maxHit o p d m t ho hdir hmin hm hp1 hp2 hd
    (hfree t fun M hM => (htM M hM).le) rh0 out h
  obtain rfl := ht'.unique ht
  exact lt_irrefl _ hlt

/-- **C107** for `float`.  If the ray stays away from all geometry of a committed scene (of any kind) by more than the rounding errors until the
parameter `T`, then a hit that is reported is beyond `T`; closest-hit and any-hit queries. -/
theorem C107_float {s : Scene Single} {rs : List Nat} (hist : History s rs) (hcom : s.committed = true)
    (origin direction : Vec3 Single) (minHit maxHit : Single) {any : Bool} (o p d : Vec3 ℚ) (m T : ℚ)
    (ho : IsV origin o) (hdir : IsV direction p) (hmin : minHit.Is m) (hm : 0 ≤ m)
    (hp1 : 1 / 2 ^ 51 ≤ |p.x| + |p.y| + |p.z|) (hp2 : |p.x| + |p.y| + |p.z| ≤ 2 ^ 60)
    (hd : IsV (Ray.make origin direction minHit maxHit any).direction d)
    (hfree : s.FreeUntil (1 / 2 ^ 24) (1 / 2 ^ 51) (2 ^ 60) (1 / 2 ^ 20) (2 ^ 15) ((2 - 1 / 2 ^ 23) * 2 ^ 127) m (1 / 2 ^ 10) (2 ^ 10)
      (1 / 2 ^ 20) (Ray.make origin direction minHit maxHit any).direction o d T)
    (rh0 out : RayHit Single) (h : s.intersect1 (Ray.make origin direction minHit maxHit any) rh0 = .ok (true, out)) :
    ∃ t, out.hitDistance.Is t ∧ T < t ∧ ∀ M, maxHit.Is M → t < M := by
  obtain ⟨t, ht, -, htM⟩ := C79_float hist hcom _ m hmin hm rh0 out h
  obtain ⟨d', g1, -, g3⟩ := C83_float hist hcom origin direction minHit maxHit o p m ho hdir hmin hm hp1 hp2 rh0 out h
  obtain rfl := g1.unique hd
  refine ⟨t, ht, ?_, htM⟩
  rcases g3 with ⟨q, e, -, k⟩ | ⟨q, e, -, k⟩ | ⟨q, e, -, k⟩ | ⟨q, e, -, k⟩
  · exact k.beyond ht (hfree.spheres q e)
  · exact k.beyond ht (hfree.planes q e)
  · exact k.beyond ht (hfree.mesh q e)
  · exact k.beyond ht (hfree.cylinders q e)

/-- **C107** for `float`, no hit.  If the ray stays away from all geometry up to its upper limit, or for good, no hit is reported. -/
theorem C107_none_float {s : Scene Single} {rs : List Nat} (hist : History s rs) (hcom : s.committed = true)
    (origin direction : Vec3 Single) (minHit maxHit : Single) {any : Bool} (o p d : Vec3 ℚ) (m : ℚ)
    (ho : IsV origin o) (hdir : IsV direction p) (hmin : minHit.Is m) (hm : 0 ≤ m)
    (hp1 : 1 / 2 ^ 51 ≤ |p.x| + |p.y| + |p.z|) (hp2 : |p.x| + |p.y| + |p.z| ≤ 2 ^ 60)
    (hd : IsV (Ray.make origin direction minHit maxHit any).direction d)
    (hfree : ∀ T, (∀ M, maxHit.Is M → T ≤ M) →
      s.FreeUntil (1 / 2 ^ 24) (1 / 2 ^ 51) (2 ^ 60) (1 / 2 ^ 20) (2 ^ 15) ((2 - 1 / 2 ^ 23) * 2 ^ 127) m (1 / 2 ^ 10) (2 ^ 10)
      (1 / 2 ^ 20) (Ray.make origin direction minHit maxHit any).direction o d T)
    (rh0 out : RayHit Single) (hit : Bool) (h : s.intersect1 (Ray.make origin direction minHit maxHit any) rh0 = .ok (hit, out)) :
    hit = false := by
  by_contra hne
  rw [Bool.not_eq_false] at hne
  subst hne
  obtain ⟨t, ht, -, htM⟩ := C79_float hist hcom _ m hmin hm rh0 out h
  obtain ⟨t', ht', hlt, -⟩ := C107_float hist hcom origin direction minHit maxHit o p d m t ho hdir hmin hm hp1 hp2 hd
    (hfree t fun M hM => (htM M hM).le) rh0 out h
  obtain rfl := ht'.unique ht
  exact lt_irrefl _ hlt

/-- **C107**, Embree (`float`).  In an Embree scene without meshes, in any state that calls of the API lead to, whichever callbacks Embree leaves
out: if the ray stays away from all attached geometry until the parameter `T`, a hit that is reported is beyond `T`.  (The upper limit of the
ray is not mentioned: hits on cylinders may be beyond it, C59.) -/
theorem C107_embree_float {l : Layout} {calls : List (EmbCall Single)} {s : EmbScene Single} (hrun : embRun l .init calls = .ok s)
    {rtc : Rtc Single} (htidy : rtc.Tidy) (origin direction : Vec3 Single) (minHit maxHit : Single) {any : Bool} (o p d : Vec3 ℚ) (m T : ℚ)
    (ho : IsV origin o) (hdir : IsV direction p) (hmin : minHit.Is m) (hm : 0 ≤ m)
    (hp1 : 1 / 2 ^ 51 ≤ |p.x| + |p.y| + |p.z|) (hp2 : |p.x| + |p.y| + |p.z| ≤ 2 ^ 60)
    (hd : IsV (Ray.make origin direction minHit maxHit any).direction d) (hmesh : ∀ i v f, ¬ s.HasMesh i v f)
    (hfree : ∀ i g, s.HasUser i g → g.FreeUntil (1 / 2 ^ 24) (1 / 2 ^ 51) (2 ^ 60) (1 / 2 ^ 10) (2 ^ 10) (1 / 2 ^ 20)
      (Ray.make origin direction minHit maxHit any).direction o d T) (rayhit out : RayHit Single)
    (h : s.Intersect1 rtc (Ray.make origin direction minHit maxHit any) rayhit (.ok (true, out))) :
    ∃ t, out.hitDistance.Is t ∧ T < t := by
  obtain ⟨d', n, g1, g2, -⟩ := C68_direction _ _ _ rounds_float origin direction minHit maxHit any p hdir (scale_float hp1 hp2)
  obtain rfl := g1.unique hd
  obtain ⟨i, ⟨g, rh, t, n, hg, hl, hne, hrec, e1, e2, e3⟩ | ⟨v, f, hv⟩⟩ := intersect1_source hrun htidy h
  swap
  · exact absurd hv (hmesh i v f)
  rw [e1]
  have ho' : IsV rh.ray.org o := by rw [hl.org]; exact ho
  have hd' : IsV rh.ray.dir d' := by rw [hl.dir]; exact g1
  have hm' : rh.ray.tnear.Is m := by rw [hl.near]; exact hmin
  have hf := hfree i g hg
  cases g with
  | sphere q =>
    obtain ⟨c, r, L, k1, k2, k3, k4, k5, k6⟩ := hf
    obtain ⟨k, τ, y, j1, -, -, j2, -, -, -, -, j3⟩ := EmbSphere.near rounds_float (scale_float k4 k5) ho' hd' hm' hm g2 k1 k2 k3 hne hrec
    refine ⟨k, j1, ?_⟩
    by_contra hlt
    exact absurd (j3.trans_eq (by ring)) (not_le.2 (k6 _ j2 (not_lt.1 hlt)))
  | plane q =>
    obtain ⟨c, a, b, R, ε, L, k1, k2, k3, k4, k5, k6, k7, k8, k9, k10⟩ := hf
    obtain ⟨k, j1, j2, ⟨y, j3, j4⟩, -⟩ := EmbPlane.near rounds_float faithful_float Format.binary32_odd (scale_float k8 k9)
      (scale_float (by norm_num) (by norm_num)) (scale_float (by norm_num) (by norm_num)) ho' hd' hm' hm g2 ⟨k1, k2, k3, k4, k5, k7⟩ k6 hne hrec
    refine ⟨k, j1, ?_⟩
    by_contra hlt
    obtain ⟨x, hx⟩ := k10 _ j2 (not_lt.1 hlt) y j3
    exact absurd ((j4 x).trans_eq (by ring)) (not_le.2 hx)
  | cylinder q =>
    obtain ⟨c, a, b, h, R, ε, L, k1, k2, k3, k4, k5, k6, k7, k8, k9, k10, k11, k12, k13, k14, k15, k16, k17⟩ := hf
    have o0 : 0 ≤ |o.x - c.x| + |o.y - c.y| + |o.z - c.z| := by positivity
    obtain ⟨k, j1, j2, -, j3⟩ := EmbCyl.near rounds_float faithful_float Format.binary32_odd Format.binary32_ordered Format.binary32_monotone
      ho' hd' g2 ⟨k1, k2, k3, k4, k5, k6, k8, k9, k10, k11, tubeScale_float (by linarith) k12, by linarith, by linarith,
        by rw [hl.dir]; exact k15, k16.imp (fun hx => le_trans (le_of_eq (by ring)) hx) (fun hx => lt_of_le_of_lt (le_of_eq (by ring)) hx)⟩ k7 hne hrec
    refine ⟨k, j1, ?_⟩
    by_contra hlt
    exact k17 _ j2 (not_lt.1 hlt) j3

/-- **C107**, Embree, no hit: if the ray stays away from all attached geometry for good, no hit is reported. -/
theorem C107_embree_none_float {l : Layout} {calls : List (EmbCall Single)} {s : EmbScene Single} (hrun : embRun l .init calls = .ok s)
    {rtc : Rtc Single} (htidy : rtc.Tidy) (origin direction : Vec3 Single) (minHit maxHit : Single) {any : Bool} (o p d : Vec3 ℚ) (m : ℚ)
    (ho : IsV origin o) (hdir : IsV direction p) (hmin : minHit.Is m) (hm : 0 ≤ m)
    (hp1 : 1 / 2 ^ 51 ≤ |p.x| + |p.y| + |p.z|) (hp2 : |p.x| + |p.y| + |p.z| ≤ 2 ^ 60)
    (hd : IsV (Ray.make origin direction minHit maxHit any).direction d) (hmesh : ∀ i v f, ¬ s.HasMesh i v f)
    (hfree : ∀ T i g, s.HasUser i g → g.FreeUntil (1 / 2 ^ 24) (1 / 2 ^ 51) (2 ^ 60) (1 / 2 ^ 10) (2 ^ 10) (1 / 2 ^ 20)
      (Ray.make origin direction minHit maxHit any).direction o d T) (rayhit out : RayHit Single) (hit : Bool)
    (h : s.Intersect1 rtc (Ray.make origin direction minHit maxHit any) rayhit (.ok (hit, out))) : hit = false := by
  by_contra hne
  rw [Bool.not_eq_false] at hne
  subst hne
  obtain ⟨t, ht, -⟩ := C107_embree_float hrun htidy origin direction minHit maxHit o p d m 0 ho hdir hmin hm hp1 hp2 hd hmesh (hfree 0) rayhit out h
  obtain ⟨t', ht', hlt⟩ := C107_embree_float hrun htidy origin direction minHit maxHit o p d m t ho hdir hmin hm hp1 hp2 hd hmesh (hfree t)
    rayhit out h
  obtain rfl := ht'.unique ht
  exact lt_irrefl _ hlt

/-! ### Examples -/

/-- a unit sphere, below it a square, below that a triangle, and below that a cylinder -/
def sampleColumn : List (Call Double) :=
  [.addSpheres [dvec 0 0 0] [dbl 1], .addPlanes [dvec 0 0 (-5)] [dbl 2] [dbl 2] [idMat],
    .addMesh [dvec (-1) (-1) (-8), dvec 1 (-1) (-8), dvec 0 1 (-8)] [⟨0, 1, 2⟩],
    .addCylinders [dvec 0 0 (-12)] [dbl 1] [dbl 1] [dbl 1] [idMat], .commit]

/-- The ray from `(-10,3,1/3)` along the `x` axis passes all of them by, at a distance of 2 or more: it is free of them for good, and hits
nothing. -/
example : ∃ s rs hit out, History s rs ∧ s.committed = true ∧
    s.intersect1 (Ray.make (dvec (-10) 3 (1/2)) (dvec 1 0 0) (dbl 0) (.inf false) false) RayHit.fresh = .ok (hit, out) ∧ hit = false := by
  obtain ⟨s, h1, h2, h3, h4, h5, h6, h7⟩ := exists_ok_of_eval (x := runCalls stablePartition sampleColumn)
    (q := fun s => s.committed = true ∧
      s.spheres.all (fun q => decide (q.coll.centers = [dvec 0 0 0] ∧ q.coll.radii = [dbl 1])) = true ∧
      s.planes.all (fun q => decide (q.coll.centers = [dvec 0 0 (-5)] ∧ q.coll.dxs = [dbl 2] ∧ q.coll.dys = [dbl 2] ∧
        q.coll.rotations.map (fun r => (r.r0, r.r1, r.r2)) = [(dvec 1 0 0, dvec 0 1 0, dvec 0 0 1)])) = true ∧
      s.mesh.all (fun q => decide (q.coll.vertices = [dvec (-1) (-1) (-8), dvec 1 (-1) (-8), dvec 0 1 (-8)] ∧ q.coll.faces = [⟨0, 1, 2⟩])) = true ∧
      s.cylinders.all (fun q => decide (q.coll.centers = [dvec 0 0 (-12)] ∧ q.coll.as = [dbl 1] ∧ q.coll.bs = [dbl 1] ∧ q.coll.heights = [dbl 1] ∧
        q.coll.rotations.map (fun r => (r.r0, r.r1, r.r2)) = [(dvec 1 0 0, dvec 0 1 0, dvec 0 0 1)])) = true ∧
      evalOk (s.intersect1 (Ray.make (dvec (-10) 3 (1/2)) (dvec 1 0 0) (dbl 0) (.inf false) false) RayHit.fresh) (fun _ => true) = true)
    (by decide +kernel)
  obtain ⟨rs, hs⟩ := runCalls_history h1
  obtain ⟨⟨hit, out⟩, hr, -⟩ := exists_ok_of_eval
    (x := s.intersect1 (Ray.make (dvec (-10) 3 (1/2)) (dvec 1 0 0) (dbl 0) (.inf false) false) RayHit.fresh) (q := fun _ => True) (by simpa using h7)
  have f0 : (dbl 0).Is 0 := ⟨false, by decide +kernel⟩
  have f1 : (dbl 1).Is 1 := ⟨false, by decide +kernel⟩
  have f2 : (dbl 2).Is 2 := ⟨false, by decide +kernel⟩
  have g1 : (dbl (-1)).Is (-1) := ⟨true, by decide +kernel⟩
  have g5 : (dbl (-5)).Is (-5) := ⟨true, by decide +kernel⟩
  have g8 : (dbl (-8)).Is (-8) := ⟨true, by decide +kernel⟩
  have g12 : (dbl (-12)).Is (-12) := ⟨true, by decide +kernel⟩
  have fo : IsV (dvec (-10) 3 (1/2)) ⟨-10, 3, 1/2⟩ := ⟨⟨true, by decide +kernel⟩, ⟨false, by decide +kernel⟩, ⟨false, by decide +kernel⟩⟩
  have hid : ∀ r : Mat3 Double, (r.r0, r.r1, r.r2) = (dvec 1 0 0, dvec 0 1 0, dvec 0 0 1) → r = idMat := by
    rintro ⟨a, b, c⟩ h
    simp only [Prod.mk.injEq] at h
    rw [h.1, h.2.1, h.2.2]
    rfl
  have hI : IsM idMat ⟨⟨1, 0, 0⟩, ⟨0, 1, 0⟩, ⟨0, 0, 1⟩⟩ := ⟨⟨f1, f0, f0⟩, ⟨f0, f1, f0⟩, ⟨f0, f0, f1⟩⟩
  have hortho : NearOrtho (0 : ℚ) ⟨⟨1, 0, 0⟩, ⟨0, 1, 0⟩, ⟨0, 0, 1⟩⟩ := by constructor <;> constructor <;> decide +kernel
  refine ⟨s, rs, hit, out, hs, h2, hr, ?_⟩
  refine C107_none_double hs h2 (dvec (-10) 3 (1/2)) (dvec 1 0 0) (dbl 0) (.inf false) ⟨-10, 3, 1/2⟩ ⟨1, 0, 0⟩ ⟨1, 0, 0⟩ 0 fo ⟨f1, f0, f0⟩ f0 le_rfl
    (by decide +kernel) (by decide +kernel) ⟨⟨false, by decide +kernel⟩, ⟨false, by decide +kernel⟩, ⟨false, by decide +kernel⟩⟩
    (fun T _ => ⟨fun q hq i center radius hc hr => ?_, fun q hq i center dx dy rotation hc hx hy hr => ?_, fun q hq i face a b c hf ha hb hc => ?_,
      fun q hq i center fa fb fh rotation hc ha hb hh hr => ?_⟩) RayHit.fresh out hit hr
  · rw [hq, Option.all_some, decide_eq_true_iff] at h3
    rw [h3.1] at hc
    rw [h3.2] at hr
    have hlt : i < 1 := (List.getElem?_eq_some_iff.1 hc).1
    interval_cases i
    cases hc; cases hr
    refine ⟨⟨0, 0, 0⟩, 1, 15, ⟨f0, f0, f0⟩, f1, by decide +kernel, by decide +kernel, by decide +kernel, fun t _ _ => ?_⟩
    have e : power (⟨0, 0, 0⟩ : Vec3 ℚ) 1 (along ⟨-10, 3, 1/2⟩ ⟨1, 0, 0⟩ t) = (t - 10) ^ 2 + 33 / 4 := by
      simp only [power, along, Vec3.dot, Vec3.sub_x, Vec3.sub_y, Vec3.sub_z, Vec3.add_x, Vec3.add_y, Vec3.add_z, Vec3.smul_x, Vec3.smul_y, Vec3.smul_z]
      ring
    rw [e, abs_of_pos (by positivity)]
    have := sq_nonneg (t - 10)
    have : (2000 * (1 / 2 ^ 53) * 15 ^ 2 : ℚ) < 33 / 4 := by decide +kernel
    linarith
  · rw [hq, Option.all_some, decide_eq_true_iff] at h4
    obtain ⟨k1, k2, k3, k4⟩ := h4
    rw [k1] at hc
    rw [k2] at hx
    rw [k3] at hy
    have hlt : i < 1 := (List.getElem?_eq_some_iff.1 hc).1
    interval_cases i
    cases hc; cases hx; cases hy
    have k5 := congrArg (·[0]?) k4
    simp only [List.getElem?_map, hr, Option.map_some, List.getElem?_cons_zero, Option.some.injEq] at k5
    obtain rfl := hid rotation k5
    refine ⟨⟨0, 0, -5⟩, 2, 2, _, 0, 23, ⟨f0, f0, g5⟩, f2, f2, hI, hortho, by decide +kernel, by decide +kernel, by decide +kernel, by decide +kernel,
      fun t _ _ y hy => ⟨1, ?_⟩⟩
    obtain ⟨a, b, -, -, -, b2, rfl⟩ := hy
    have e : (along (⟨-10, 3, 1/2⟩ : Vec3 ℚ) ⟨1, 0, 0⟩ t).get 1 -
        ((⟨0, 0, -5⟩ : Vec3 ℚ) + Mat3.mulVec ⟨⟨1, 0, 0⟩, ⟨0, 1, 0⟩, ⟨0, 0, 1⟩⟩ ⟨a, b, 0⟩).get 1 = 3 - b := by
      simp only [along, Vec3.get, Mat3.mulVec, Vec3.dot, Vec3.add_x, Vec3.add_y, Vec3.add_z, Vec3.smul_x, Vec3.smul_y, Vec3.smul_z]
      ring
    rw [e, abs_of_pos (by linarith)]
    have : (600 * (1 / 2 ^ 53) * 23 + 40 * 0 * 23 : ℚ) < 2 := by decide +kernel
    linarith
  · rw [hq, Option.all_some, decide_eq_true_iff] at h5
    rw [h5.1] at ha hb hc
    rw [h5.2] at hf
    have hlt : i < 1 := (List.getElem?_eq_some_iff.1 hf).1
    interval_cases i
    cases hf; cases ha; cases hb; cases hc
    exact ⟨⟨-1, -1, -8⟩, ⟨1, -1, -8⟩, ⟨0, 1, -8⟩, 100, ⟨g1, g1, g8⟩, ⟨f1, g1, g8⟩, ⟨f0, f1, g8⟩, by decide +kernel, by decide +kernel, by decide +kernel,
      by decide +kernel, .inl (by decide +kernel)⟩
  · rw [hq, Option.all_some, decide_eq_true_iff] at h6
    obtain ⟨k1, k2, k3, k4, k6⟩ := h6
    rw [k1] at hc
    rw [k2] at ha
    rw [k3] at hb
    rw [k4] at hh
    have hlt : i < 1 := (List.getElem?_eq_some_iff.1 hc).1
    interval_cases i
    cases hc; cases ha; cases hb; cases hh
    have k5 := congrArg (·[0]?) k6
    simp only [List.getElem?_map, hr, Option.map_some, List.getElem?_cons_zero, Option.some.injEq] at k5
    obtain rfl := hid rotation k5
    refine ⟨⟨0, 0, -12⟩, 1, 1, 1, _, 0, 30, ⟨f0, f0, g12⟩, f1, f1, f1, hI, hortho, by decide +kernel, by decide +kernel, by decide +kernel, by decide +kernel,
      by decide +kernel, by decide +kernel, by decide +kernel, by decide +kernel, fun e he => ?_, .inr (by decide +kernel), fun t _ _ => ?_⟩
    · obtain rfl := he.unique (b := ⟨1, 0, 0⟩) ⟨⟨false, by decide +kernel⟩, ⟨false, by decide +kernel⟩, ⟨false, by decide +kernel⟩⟩
      exact ⟨.inl rfl, .inr (.inl (by decide +kernel))⟩
    · have e : (Mat3.mulVec (Mat3.trans ⟨⟨1, 0, 0⟩, ⟨0, 1, 0⟩, ⟨0, 0, 1⟩⟩) (along ⟨-10, 3, 1/2⟩ ⟨1, 0, 0⟩ t - ⟨0, 0, -12⟩) : Vec3 ℚ).z = 25 / 2 := by
        simp only [along, Mat3.mulVec, Mat3.trans, Vec3.dot, Vec3.sub_x, Vec3.sub_y, Vec3.sub_z, Vec3.add_x, Vec3.add_y, Vec3.add_z, Vec3.smul_x,
          Vec3.smul_y, Vec3.smul_z]
        ring
      have hδ : ((300 * (1 / 2 ^ 53) + 20 * 0) * 30 : ℚ) < 1 := by decide +kernel
      rintro (⟨-, hz⟩ | ⟨hz, -⟩)
      · rw [e, abs_of_pos (by norm_num)] at hz
        linarith
      · rw [e, abs_of_pos (a := (25 / 2 : ℚ)) (by norm_num), abs_of_pos (by norm_num)] at hz
        linarith

end Blazert
