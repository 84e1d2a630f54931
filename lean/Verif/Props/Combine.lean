/- C78, C79, C80: how a scene query combines its geometries, and what follows for scenes with rounding. -/
import Verif.Proofs.Combine
import Verif.Proofs.Limits
import Verif.Proofs.SceneBuild
import Verif.Props.TriRound
import Verif.Samples

set_option autoImplicit false

namespace Blazert
open Scalar

/-! ### C78: the closest of the answers of the geometries -/

section
variable {T : Type} [Scalar T]

/-- **C78**.  In any arithmetic whose `<` is irreflexive and transitive, for every scene and ray: a scene query that comes to
an end reports a hit only if one of the geometries, queried on its own, answers with exactly this record, and then no other
geometry answers with a smaller distance.  If it reports nothing, the record passed is unchanged, and no geometry answers with
a distance smaller than the one in the record passed. -/
theorem C78_closest_answer (hl : LawfulLt T) (s : Scene T) (ray : Ray T) (rh0 out : RayHit T) (hit : Bool)
    (h : s.intersect1 ray rh0 = .ok (hit, out)) :
    (hit = true → s.Answers ray out ∧ ∀ r, s.Answers ray r → lt r.hitDistance out.hitDistance = false) ∧
    (hit = false → out = rh0 ∧ ∀ r, s.Answers ray r → lt r.hitDistance rh0.hitDistance = false) := by
  obtain ⟨temp, k⟩ := intersect1_sofar hl h
  refine ⟨fun e => ⟨k.hit e, k.best⟩, fun e => ?_⟩
  have e' := k.miss e
  simp only at e'
  exact ⟨e', fun r hr => e' ▸ k.best r hr⟩

/-- **C78**: and it comes to an end (without undefined behaviour) exactly if all geometries can be queried on their own. -/
theorem C78_defined (s : Scene T) (ray : Ray T) (rh0 : RayHit T) : (∃ r, s.intersect1 ray rh0 = .ok r) ↔ s.Defined ray :=
  intersect1_defined s ray rh0

/-- **C78**: if a geometry answers with a distance below the one in the record passed, the scene query reports a hit. -/
theorem C78_hit_found (hl : LawfulLt T) (s : Scene T) (ray : Ray T) (rh0 out r : RayHit T) (hit : Bool)
    (h : s.intersect1 ray rh0 = .ok (hit, out)) (hr : s.Answers ray r) (hlt : lt r.hitDistance rh0.hitDistance = true) :
    hit = true := by
  cases hit with
  | true => rfl
  | false =>
    have := ((C78_closest_answer hl s ray rh0 out false h).2 rfl).2 r hr
    rw [this] at hlt
    cases hlt

end

/-! ### C79: reported distances are numbers that are not negative, below the maximum -/

section
variable {K : Type} [Field K] [LinearOrder K] [IsStrictOrderedRing K] [FloorRing K] {F : Fmt K}

/-- **C79**, general.  In any format whose rounding does not change signs, for every committed scene, with geometry of any
kind and any values (infinities and NaN included), and for any ray whose lower limit is not negative: a reported distance is a
number, not negative, and below the ray's upper limit. -/
theorem C79_limits (hF : F.Signed) {s : Scene (XF F)} {rs : List Nat} (hist : History s rs) (hc : s.committed = true)
    (ray : Ray (XF F)) (m : K) (hm : ray.minHit.Is m) (hm0 : 0 ≤ m) (rh0 out : RayHit (XF F))
    (h : s.intersect1 ray rh0 = .ok (true, out)) :
    ∃ t, out.hitDistance.Is t ∧ 0 ≤ t ∧ ∀ M, ray.maxHit.Is M → t < M := by
  have hmin : NotNegative ray.minHit := by obtain ⟨b, e⟩ := hm; rw [e]; exact hm0
  have key : NotNegative out.hitDistance ∧ lt out.hitDistance ray.maxHit = true := by
    rcases intersect1_reportedBy (XF.irreflLt F) hist.ok hc ray rh0 out h with ⟨q, -, p, s0, s', t, r, -, k1, k2, k3, k4, -⟩ |
      ⟨q, -, p, s0, s', t, r, -, k1, k2, k3, k4, -⟩ | ⟨q, -, p, s0, s', t, r, -, k1, k2, k3, k4, -⟩ |
      ⟨q, -, p, s0, s', t, r, -, k1, k2, k3, k4, -⟩
    · refine ⟨?_, k4⟩
      rw [← k3]
      have e : s0.minHit = ray.minHit := k1
      exact triIntersect_notNegative hF (e ▸ hmin) k2
    · refine ⟨?_, k4⟩
      rw [← k3]
      exact sphereIntersect_notNegative (ray := ray) hF k2
    · refine ⟨?_, k4⟩
      rw [← k3]
      exact Frame.notNegative hF (planeIntersect_frame s0 p ray) k2
    · refine ⟨?_, k4⟩
      rw [← k3]
      exact Frame.notNegative hF (cylIntersect_frame s0 p ray) k2
  obtain ⟨t, h1, h2⟩ := key.1.finite key.2
  exact ⟨t, h1, h2, fun M hM => (XF.Is.lt h1 hM).1 key.2⟩

/-- the distance reported for the scene is at most that of any geometry's answer -/
theorem scene_at_most (hF : F.Signed) {s : Scene (XF F)} {rs : List Nat} (hist : History s rs) (hc : s.committed = true)
    (ray : Ray (XF F)) (m : K) (hm : ray.minHit.Is m) (hm0 : 0 ≤ m) (rh0 out r : RayHit (XF F)) (hit : Bool)
    (h : s.intersect1 ray rh0 = .ok (hit, out)) (hr : s.Answers ray r) (x : K) (hx : r.hitDistance.Is x)
    (hrh0 : rh0.hitDistance = .inf false ∨ ∃ M, rh0.hitDistance.Is M ∧ x < M) :
    hit = true ∧ ∃ t, out.hitDistance.Is t ∧ 0 ≤ t ∧ t ≤ x := by
  have hl := XF.lawfulLt F
  have hit' : hit = true := by
    refine C78_hit_found hl s ray rh0 out r hit h hr ?_
    rcases hrh0 with e | ⟨M, hM, hlt⟩
    · exact (XF.Is.lt_iff hx).2 (.inl e)
    · exact (XF.Is.lt hx hM).2 hlt
  subst hit'
  obtain ⟨t, h1, h2, -⟩ := C79_limits hF hist hc ray m hm hm0 rh0 out h
  refine ⟨rfl, t, h1, h2, ?_⟩
  have := ((C78_closest_answer hl s ray rh0 out true h).1 rfl).2 r hr
  by_contra hc
  rw [(XF.Is.lt hx h1).2 (not_le.1 hc)] at this
  cases this

end

/-- **C79** for `double`. -/
theorem C79_double {s : Scene Double} {rs : List Nat} (hist : History s rs) (hc : s.committed = true)
    (ray : Ray Double) (m : ℚ) (hm : ray.minHit.Is m) (hm0 : 0 ≤ m) (rh0 out : RayHit Double)
    (h : s.intersect1 ray rh0 = .ok (true, out)) :
    ∃ t, out.hitDistance.Is t ∧ 0 ≤ t ∧ ∀ M, ray.maxHit.Is M → t < M :=
  C79_limits Format.binary64_signed hist hc ray m hm hm0 rh0 out h

/-- **C79** for `float`. -/
theorem C79_float {s : Scene Single} {rs : List Nat} (hist : History s rs) (hc : s.committed = true)
    (ray : Ray Single) (m : ℚ) (hm : ray.minHit.Is m) (hm0 : 0 ≤ m) (rh0 out : RayHit Single)
    (h : s.intersect1 ray rh0 = .ok (true, out)) :
    ∃ t, out.hitDistance.Is t ∧ 0 ≤ t ∧ ∀ M, ray.maxHit.Is M → t < M :=
  C79_limits Format.binary32_signed hist hc ray m hm hm0 rh0 out h

/-! ### C80: scenes with rounding -/

/-- **C80**, spheres, for `double`: C69 in a scene that may contain further geometry of any kind, committed any number of
times.  If the ray is clear of a sphere of the scene at its lower limit and well inside it at parameter `τ`, then the scene
query reports a hit, at a distance of at most `τ` (up to rounding). -/
theorem C80_sphere_double {s : Scene Double} {rs : List Nat} (hist : History s rs) (hcom : s.committed = true)
    (q : Part (SphereColl Double) Double (Sphere Double)) (hq : s.spheres = some q) (L : ℚ) (hL1 : 1 / 2 ^ 484 ≤ L) (hL2 : L ≤ 2 ^ 500)
    (origin direction : Vec3 Double) (minHit maxHit : Double) (o p : Vec3 ℚ) (m : ℚ)
    (ho : IsV origin o) (hdir : IsV direction p) (hmin : minHit.Is m) (hm : 0 ≤ m)
    (hneg : ∀ i, direction.get i ≠ .fin 0 true) (hunit : |Vec3.dot p p - 1| ≤ 16 / 2 ^ 53)
    (hharm : Harmless q.coll.toCollection (1 / 2 ^ 1022) ((2 - 1 / 2 ^ 52) * 2 ^ 1023) o p)
    (hsize : ∀ (i : Nat) (center : Vec3 Double) (radius : Double), q.coll.centers[i]? = some center →
      q.coll.radii[i]? = some radius →
      ∃ c r, IsV center c ∧ radius.Is r ∧ |o.x| + |o.y| + |o.z| + |c.x| + |c.y| + |c.z| + |r| ≤ L)
    (j : Nat) (center : Vec3 Double) (radius : Double) (hcj : q.coll.centers[j]? = some center)
    (hrj : q.coll.radii[j]? = some radius) (c : Vec3 ℚ) (r : ℚ) (hc : IsV center c) (hr : radius.Is r) (hr0 : 0 < r)
    (d : Vec3 ℚ) (hd : IsV (Ray.make origin direction minHit maxHit false).direction d) (τ : ℚ) (hτ : m < τ)
    (hout : 400 / 2 ^ 53 * L ^ 2 ≤ power c r (along o d m)) (hin : power c r (along o d τ) ≤ -(400 / 2 ^ 53 * L ^ 2))
    (rh0 out : RayHit Double) (hit : Bool)
    (hmax : ∀ x ∈ [maxHit, rh0.hitDistance], x = .inf false ∨ ∃ M, x.Is M ∧ τ + 106 * q.coll.centers.length / 2 ^ 53 * L < M)
    (h : s.intersect1 (Ray.make origin direction minHit maxHit false) rh0 = .ok (hit, out)) :
    hit = true ∧ ∃ t, out.hitDistance.Is t ∧ 0 ≤ t ∧ t ≤ τ + 106 * q.coll.centers.length / 2 ^ 53 * L := by
  have hf := hist.first.spheres
  rw [hcom, hq] at hf
  obtain ⟨part, nodes, stats, hb, htr⟩ := hf.query (I := SphereI Double)
  obtain ⟨⟨centers, radii, hmake⟩, -, -⟩ := hist.ok.spheres q hq
  have hlen : q.coll.centers.length = centers.length := (SphereColl.make_size hmake).1
  obtain ⟨⟨hit', r'⟩, hr'⟩ := ((intersect1_defined s _ rh0).1 ⟨_, h⟩).spheres q hq
  rw [htr] at hr'
  rw [hlen] at hmax ⊢
  obtain ⟨rfl, x, hx, hle⟩ := C69_double L hL1 hL2 part centers radii q.coll hmake s.options nodes stats hb origin direction
    minHit maxHit o p m ho hdir hmin hm hneg hunit hharm hsize j center radius hcj hrj c r hc hr hr0 d hd τ hτ hout hin
    (hmax maxHit (by simp)) RayHit.fresh r' hit' hr'
  obtain ⟨g1, t, g2, g3, g4⟩ := scene_at_most Format.binary64_signed hist hcom (Ray.make origin direction minHit maxHit false) m hmin hm
    rh0 out { r' with geomId := q.geomId } hit h (.inr (.inl ⟨q, r', hq, by rw [htr]; exact hr', rfl⟩)) x hx
    ((hmax rh0.hitDistance (by simp)).imp id fun ⟨M, hM, hlt⟩ => ⟨M, hM, hle.trans_lt hlt⟩)
  exact ⟨g1, t, g2, g3, g4.trans hle⟩

/-- **C80**, meshes, for `double`: C74 in a scene that may contain further geometry of any kind, committed any number of
times.  If the ray meets a face of the mesh, not too close to its edges unless the scene is small, nor too flat, nor right at
the lower limit, then the scene query reports a hit, at a distance that is at most that of the face (up to rounding). -/
theorem C80_mesh_double {s : Scene Double} {rs : List Nat} (hist : History s rs) (hcom : s.committed = true)
    (q : Part (MeshColl Double) Double (Triangle Double)) (hq : s.mesh = some q) (L : ℚ) (hL1 : 1 / 2 ^ 100 ≤ L) (hL2 : L ≤ 2 ^ 100)
    (origin direction : Vec3 Double) (minHit maxHit : Double) (o p : Vec3 ℚ) (m : ℚ)
    (ho : IsV origin o) (hdir : IsV direction p) (hmin : minHit.Is m) (hm : 0 ≤ m) (hmL : 2 * L ^ 2 * m ≤ ((2 - 1 / 2 ^ 52) * 2 ^ 1023))
    (hneg : ∀ i, direction.get i ≠ .fin 0 true) (hunit : |Vec3.dot p p - 1| ≤ 16 * (1 / 2 ^ 53))
    (hharm : Harmless q.coll.toCollection (1 / 2 ^ 1022) ((2 - 1 / 2 ^ 52) * 2 ^ 1023) o p)
    (hsize : ∀ v ∈ q.coll.vertices, ∃ V, IsV v V ∧ 2 * oneNorm (V - o) ≤ L)
    (hdet : ∀ i tri D, q.coll.toCollection.prim i = .ok tri →
      (Vec3.dot (Vec3.cross tri.c tri.b) (Ray.make origin direction minHit maxHit false).direction).Is D → D = 0 ∨ (1 / 2 ^ 700) ≤ |D|)
    (j : Nat) (face : Vec3 Nat) (a b c : Vec3 Double) (hface : q.coll.faces[j]? = some face)
    (hva : q.coll.vertices[face.x]? = some a)
    (hvb : q.coll.vertices[face.y]? = some b) (hvc : q.coll.vertices[face.z]? = some c) (A B C : Vec3 ℚ) (ha : IsV a A) (hb : IsV b B)
    (hc : IsV c C) (τ β γ : ℚ) (hmeet : along o p τ = bary A B C β γ) (hβ : 0 ≤ β) (hγ : 0 ≤ γ) (hβγ : β + γ ≤ 1)
    (hedges : ∀ x ∈ [β, γ, 1 - β - γ], 50 * (1 / 2 ^ 53) * L ^ 2 ≤ x * |Vec3.dot (normalOf A B C) p| + 8 * (1 / 2 ^ 53))
    (hflat : 60 * (1 / 2 ^ 53) * L ^ 2 ≤ |Vec3.dot (normalOf A B C) p|)
    (hτ : 30 * (1 / 2 ^ 53) * L ^ 2 * (L + m) ≤ |Vec3.dot (normalOf A B C) p| * (τ - m))
    (rh0 out : RayHit Double) (hit : Bool)
    (hmax : ∀ x ∈ [maxHit, rh0.hitDistance], x = .inf false ∨ ∃ M, x.Is M ∧
      (τ + L) * (1 + 60 * (1 / 2 ^ 53) * L ^ 2 / |Vec3.dot (normalOf A B C) p|) * (1 + 4 * (1 / 2 ^ 53)) ^ q.coll.faces.length < M + L)
    (h : s.intersect1 (Ray.make origin direction minHit maxHit false) rh0 = .ok (hit, out)) :
    hit = true ∧ ∃ t, out.hitDistance.Is t ∧ 0 ≤ t ∧
      t + L ≤ (τ + L) * (1 + 60 * (1 / 2 ^ 53) * L ^ 2 / |Vec3.dot (normalOf A B C) p|) * (1 + 4 * (1 / 2 ^ 53)) ^ q.coll.faces.length := by
  have hf := hist.first.mesh
  rw [hcom, hq] at hf
  obtain ⟨part, nodes, stats, hbuild, htr⟩ := hf.query (I := TriI Double)
  obtain ⟨⟨vertices, faces, hmake⟩, -, -⟩ := hist.ok.mesh q hq
  obtain ⟨mv, mf, -, -, -⟩ := MeshColl.make_ok hmake
  obtain ⟨⟨hit', r'⟩, hr'⟩ := ((intersect1_defined s _ rh0).1 ⟨_, h⟩).mesh q hq
  rw [htr] at hr'
  rw [mf] at hmax hface ⊢
  rw [mv] at hva hvb hvc hsize
  obtain ⟨rfl, x, hx, -, hle⟩ := C74_double L hL1 hL2 part vertices faces q.coll hmake s.options nodes stats hbuild origin direction
    minHit maxHit o p m ho hdir hmin hm hmL hneg hunit hharm hsize hdet j face a b c hface hva hvb hvc A B C ha hb hc τ β γ hmeet hβ hγ hβγ
    hedges hflat hτ (hmax maxHit (by simp)) RayHit.fresh r' hit' hr'
  obtain ⟨g1, t, g2, g3, g4⟩ := scene_at_most Format.binary64_signed hist hcom (Ray.make origin direction minHit maxHit false) m hmin hm
    rh0 out { r' with geomId := q.geomId } hit h (.inl ⟨q, r', hq, by rw [htr]; exact hr', rfl⟩) x hx
    ((hmax rh0.hitDistance (by simp)).imp id fun ⟨M, hM, hlt⟩ => ⟨M, hM, by linarith⟩)
  exact ⟨g1, t, g2, g3, by linarith⟩

/-- **C80**, spheres, for `float`: C69 in a scene that may contain further geometry of any kind, committed any number of
times.  If the ray is clear of a sphere of the scene at its lower limit and well inside it at parameter `τ`, then the scene
query reports a hit, at a distance of at most `τ` (up to rounding). -/
theorem C80_sphere_float {s : Scene Single} {rs : List Nat} (hist : History s rs) (hcom : s.committed = true)
    (q : Part (SphereColl Single) Single (Sphere Single)) (hq : s.spheres = some q) (L : ℚ) (hL1 : 1 / 2 ^ 51 ≤ L) (hL2 : L ≤ 2 ^ 60)
    (origin direction : Vec3 Single) (minHit maxHit : Single) (o p : Vec3 ℚ) (m : ℚ)
    (ho : IsV origin o) (hdir : IsV direction p) (hmin : minHit.Is m) (hm : 0 ≤ m)
    (hneg : ∀ i, direction.get i ≠ .fin 0 true) (hunit : |Vec3.dot p p - 1| ≤ 16 / 2 ^ 24)
    (hharm : Harmless q.coll.toCollection (1 / 2 ^ 126) ((2 - 1 / 2 ^ 23) * 2 ^ 127) o p)
    (hsize : ∀ (i : Nat) (center : Vec3 Single) (radius : Single), q.coll.centers[i]? = some center →
      q.coll.radii[i]? = some radius →
      ∃ c r, IsV center c ∧ radius.Is r ∧ |o.x| + |o.y| + |o.z| + |c.x| + |c.y| + |c.z| + |r| ≤ L)
    (j : Nat) (center : Vec3 Single) (radius : Single) (hcj : q.coll.centers[j]? = some center)
    (hrj : q.coll.radii[j]? = some radius) (c : Vec3 ℚ) (r : ℚ) (hc : IsV center c) (hr : radius.Is r) (hr0 : 0 < r)
    (d : Vec3 ℚ) (hd : IsV (Ray.make origin direction minHit maxHit false).direction d) (τ : ℚ) (hτ : m < τ)
    (hout : 400 / 2 ^ 24 * L ^ 2 ≤ power c r (along o d m)) (hin : power c r (along o d τ) ≤ -(400 / 2 ^ 24 * L ^ 2))
    (rh0 out : RayHit Single) (hit : Bool)
    (hmax : ∀ x ∈ [maxHit, rh0.hitDistance], x = .inf false ∨ ∃ M, x.Is M ∧ τ + 106 * q.coll.centers.length / 2 ^ 24 * L < M)
    (h : s.intersect1 (Ray.make origin direction minHit maxHit false) rh0 = .ok (hit, out)) :
    hit = true ∧ ∃ t, out.hitDistance.Is t ∧ 0 ≤ t ∧ t ≤ τ + 106 * q.coll.centers.length / 2 ^ 24 * L := by
  have hf := hist.first.spheres
  rw [hcom, hq] at hf
  obtain ⟨part, nodes, stats, hb, htr⟩ := hf.query (I := SphereI Single)
  obtain ⟨⟨centers, radii, hmake⟩, -, -⟩ := hist.ok.spheres q hq
  have hlen : q.coll.centers.length = centers.length := (SphereColl.make_size hmake).1
  obtain ⟨⟨hit', r'⟩, hr'⟩ := ((intersect1_defined s _ rh0).1 ⟨_, h⟩).spheres q hq
  rw [htr] at hr'
  rw [hlen] at hmax ⊢
  obtain ⟨rfl, x, hx, hle⟩ := C69_float L hL1 hL2 part centers radii q.coll hmake s.options nodes stats hb origin direction
    minHit maxHit o p m ho hdir hmin hm hneg hunit hharm hsize j center radius hcj hrj c r hc hr hr0 d hd τ hτ hout hin
    (hmax maxHit (by simp)) RayHit.fresh r' hit' hr'
  obtain ⟨g1, t, g2, g3, g4⟩ := scene_at_most Format.binary32_signed hist hcom (Ray.make origin direction minHit maxHit false) m hmin hm
    rh0 out { r' with geomId := q.geomId } hit h (.inr (.inl ⟨q, r', hq, by rw [htr]; exact hr', rfl⟩)) x hx
    ((hmax rh0.hitDistance (by simp)).imp id fun ⟨M, hM, hlt⟩ => ⟨M, hM, hle.trans_lt hlt⟩)
  exact ⟨g1, t, g2, g3, g4.trans hle⟩

/-- **C80**, meshes, for `float`: C74 in a scene that may contain further geometry of any kind, committed any number of
times.  If the ray meets a face of the mesh, not too close to its edges unless the scene is small, nor too flat, nor right at
the lower limit, then the scene query reports a hit, at a distance that is at most that of the face (up to rounding). -/
theorem C80_mesh_float {s : Scene Single} {rs : List Nat} (hist : History s rs) (hcom : s.committed = true)
    (q : Part (MeshColl Single) Single (Triangle Single)) (hq : s.mesh = some q) (L : ℚ) (hL1 : 1 / 2 ^ 20 ≤ L) (hL2 : L ≤ 2 ^ 15)
    (origin direction : Vec3 Single) (minHit maxHit : Single) (o p : Vec3 ℚ) (m : ℚ)
    (ho : IsV origin o) (hdir : IsV direction p) (hmin : minHit.Is m) (hm : 0 ≤ m) (hmL : 2 * L ^ 2 * m ≤ ((2 - 1 / 2 ^ 23) * 2 ^ 127))
    (hneg : ∀ i, direction.get i ≠ .fin 0 true) (hunit : |Vec3.dot p p - 1| ≤ 16 * (1 / 2 ^ 24))
    (hharm : Harmless q.coll.toCollection (1 / 2 ^ 126) ((2 - 1 / 2 ^ 23) * 2 ^ 127) o p)
    (hsize : ∀ v ∈ q.coll.vertices, ∃ V, IsV v V ∧ 2 * oneNorm (V - o) ≤ L)
    (hdet : ∀ i tri D, q.coll.toCollection.prim i = .ok tri →
      (Vec3.dot (Vec3.cross tri.c tri.b) (Ray.make origin direction minHit maxHit false).direction).Is D → D = 0 ∨ (1 / 2 ^ 80) ≤ |D|)
    (j : Nat) (face : Vec3 Nat) (a b c : Vec3 Single) (hface : q.coll.faces[j]? = some face)
    (hva : q.coll.vertices[face.x]? = some a)
    (hvb : q.coll.vertices[face.y]? = some b) (hvc : q.coll.vertices[face.z]? = some c) (A B C : Vec3 ℚ) (ha : IsV a A) (hb : IsV b B)
    (hc : IsV c C) (τ β γ : ℚ) (hmeet : along o p τ = bary A B C β γ) (hβ : 0 ≤ β) (hγ : 0 ≤ γ) (hβγ : β + γ ≤ 1)
    (hedges : ∀ x ∈ [β, γ, 1 - β - γ], 50 * (1 / 2 ^ 24) * L ^ 2 ≤ x * |Vec3.dot (normalOf A B C) p| + 8 * (1 / 2 ^ 24))
    (hflat : 60 * (1 / 2 ^ 24) * L ^ 2 ≤ |Vec3.dot (normalOf A B C) p|)
    (hτ : 30 * (1 / 2 ^ 24) * L ^ 2 * (L + m) ≤ |Vec3.dot (normalOf A B C) p| * (τ - m))
    (rh0 out : RayHit Single) (hit : Bool)
    (hmax : ∀ x ∈ [maxHit, rh0.hitDistance], x = .inf false ∨ ∃ M, x.Is M ∧
      (τ + L) * (1 + 60 * (1 / 2 ^ 24) * L ^ 2 / |Vec3.dot (normalOf A B C) p|) * (1 + 4 * (1 / 2 ^ 24)) ^ q.coll.faces.length < M + L)
    (h : s.intersect1 (Ray.make origin direction minHit maxHit false) rh0 = .ok (hit, out)) :
    hit = true ∧ ∃ t, out.hitDistance.Is t ∧ 0 ≤ t ∧
      t + L ≤ (τ + L) * (1 + 60 * (1 / 2 ^ 24) * L ^ 2 / |Vec3.dot (normalOf A B C) p|) * (1 + 4 * (1 / 2 ^ 24)) ^ q.coll.faces.length := by
  have hf := hist.first.mesh
  rw [hcom, hq] at hf
  obtain ⟨part, nodes, stats, hbuild, htr⟩ := hf.query (I := TriI Single)
  obtain ⟨⟨vertices, faces, hmake⟩, -, -⟩ := hist.ok.mesh q hq
  obtain ⟨mv, mf, -, -, -⟩ := MeshColl.make_ok hmake
  obtain ⟨⟨hit', r'⟩, hr'⟩ := ((intersect1_defined s _ rh0).1 ⟨_, h⟩).mesh q hq
  rw [htr] at hr'
  rw [mf] at hmax hface ⊢
  rw [mv] at hva hvb hvc hsize
  obtain ⟨rfl, x, hx, -, hle⟩ := C74_float L hL1 hL2 part vertices faces q.coll hmake s.options nodes stats hbuild origin direction
    minHit maxHit o p m ho hdir hmin hm hmL hneg hunit hharm hsize hdet j face a b c hface hva hvb hvc A B C ha hb hc τ β γ hmeet hβ hγ hβγ
    hedges hflat hτ (hmax maxHit (by simp)) RayHit.fresh r' hit' hr'
  obtain ⟨g1, t, g2, g3, g4⟩ := scene_at_most Format.binary32_signed hist hcom (Ray.make origin direction minHit maxHit false) m hmin hm
    rh0 out { r' with geomId := q.geomId } hit h (.inl ⟨q, r', hq, by rw [htr]; exact hr', rfl⟩) x hx
    ((hmax rh0.hitDistance (by simp)).imp id fun ⟨M, hM, hlt⟩ => ⟨M, hM, by linarith⟩)
  exact ⟨g1, t, g2, g3, by linarith⟩

/-! ### Examples -/

/-- a rectangle in the plane `z = 0` and three unit spheres, committed twice -/
def sampleBoth : List (Call Double) :=
  [.addMesh rectVertices [⟨0, 1, 2⟩, ⟨2, 3, 0⟩], .addSpheres sampleSpheres.centers sampleSpheres.radii, .commit, .commit]

/-- There is a scene of this kind. -/
theorem sampleBoth_scene : ∃ s rs, History s rs ∧ s.committed = true ∧ s.mesh.map Part.coll = some rectMesh ∧
    s.spheres.map Part.coll = some sampleSpheres ∧ (∃ r, s.intersect1 sampleRayY RayHit.fresh = .ok r) := by
  obtain ⟨s, h1, h2, h3, h4, h5⟩ := exists_ok_of_eval (x := runCalls stablePartition sampleBoth)
    (q := fun s => s.committed = true ∧ s.mesh.map Part.coll = some rectMesh ∧ s.spheres.map Part.coll = some sampleSpheres ∧
      evalOk (s.intersect1 sampleRayY RayHit.fresh) (fun _ => true) = true) (by decide +kernel)
  obtain ⟨rs, hs⟩ := runCalls_history h1
  obtain ⟨r, hr, -⟩ := exists_ok_of_eval (x := s.intersect1 sampleRayY RayHit.fresh) (q := fun _ => True) (by simpa using h5)
  exact ⟨s, rs, hs, h2, h3, h4, r, hr⟩

/-- C80 for the second of the spheres of this scene. -/
example {s : Scene Double} {rs : List Nat} (hist : History s rs) (hcom : s.committed = true)
    (q : Part (SphereColl Double) Double (Sphere Double)) (hq : s.spheres = some q) (hcoll : q.coll = sampleSpheres)
    (out : RayHit Double) (hit : Bool) (h : s.intersect1 sampleRayY RayHit.fresh = .ok (hit, out)) :
    hit = true ∧ ∃ t, out.hitDistance.Is t ∧ 0 ≤ t ∧ t ≤ 5 + 1 / 10 ^ 10 := by
  have e : (5 : ℚ) + 106 * sampleSpheres.centers.length / 2 ^ 53 * 20 ≤ 5 + 1 / 10 ^ 10 := by decide +kernel
  obtain ⟨k1, t, k2, k3, k4⟩ := C80_sphere_double hist hcom q hq 20 (by decide +kernel) (by decide +kernel)
    (dvec 4 (-5) (1/2)) (dvec 0 1 0) (dbl 0) (dbl 100) ⟨4, -5, 1/2⟩ ⟨0, 1, 0⟩ 0
    (dvec_is (sx := false) (sy := true) (sz := false) (by decide +kernel))
    (dvec_is (sx := false) (sy := false) (sz := false) (by decide +kernel))
    ⟨false, by decide +kernel⟩ le_rfl (by decide +kernel) (by norm_num [Vec3.dot]) (hcoll ▸ sample_harmless)
    (hcoll ▸ sample_size) 1 (dvec 4 0 0) (dbl 1) (hcoll ▸ rfl) (hcoll ▸ rfl)
    ⟨4, 0, 0⟩ 1 (dvec_is (sx := false) (sy := false) (sz := false) (by decide +kernel)) ⟨false, by decide +kernel⟩ (by norm_num)
    ⟨0, 1, 0⟩ (by
      have e : (Ray.make (dvec 4 (-5) (1/2)) (dvec 0 1 0) (dbl 0) (dbl 100) false).direction =
        ⟨.fin 0 false, .fin 1 false, .fin 0 false⟩ := by decide +kernel
      rw [e]
      exact ⟨⟨_, rfl⟩, ⟨_, rfl⟩, ⟨_, rfl⟩⟩) 5 (by norm_num)
    (by decide +kernel) (by decide +kernel) RayHit.fresh out hit (by
      rw [hcoll]
      intro x hx
      right
      simp only [List.mem_cons, List.not_mem_nil, or_false] at hx
      rcases hx with rfl | rfl
      · exact ⟨100, ⟨false, by decide +kernel⟩, by decide +kernel⟩
      · exact ⟨Format.binary64.maxVal, ⟨false, by decide +kernel⟩, by decide +kernel⟩) h
  rw [hcoll] at k4
  exact ⟨k1, t, k2, k3, k4.trans e⟩

/-- C80 for the first face of the mesh of this scene. -/
example {s : Scene Double} {rs : List Nat} (hist : History s rs) (hcom : s.committed = true)
    (q : Part (MeshColl Double) Double (Triangle Double)) (hq : s.mesh = some q) (hcoll : q.coll = rectMesh)
    (out : RayHit Double) (hit : Bool)
    (h : s.intersect1 (Ray.make (dvec 2 1 (-1)) (dvec 0 0 1) (dbl 0) (dbl 100) false) RayHit.fresh = .ok (hit, out)) :
    hit = true ∧ ∃ t, out.hitDistance.Is t ∧ 0 ≤ t ∧ t ≤ 1 + 1 / 10 ^ 10 := by
  obtain ⟨h1, h2, h3, h4⟩ := rect_vertices_are
  have hv : rectMesh.vertices = rectVertices := by decide +kernel
  have hfc : rectMesh.faces = [⟨0, 1, 2⟩, ⟨2, 3, 0⟩] := by decide +kernel
  have e : (1 + 30 : ℚ) * (1 + 60 * (1 / 2 ^ 53) * 30 ^ 2 / |Vec3.dot (normalOf ⟨0, 0, 0⟩ ⟨7, 0, 0⟩ ⟨7, 6, 0⟩) ⟨0, 0, 1⟩|) *
      (1 + 4 * (1 / 2 ^ 53)) ^ rectMesh.faces.length ≤ 31 + 1 / 10 ^ 10 := by decide +kernel
  obtain ⟨k1, t, k2, k3, k4⟩ := C80_mesh_double hist hcom q hq 30 (by decide +kernel) (by decide +kernel) (dvec 2 1 (-1)) (dvec 0 0 1)
    (dbl 0) (dbl 100) ⟨2, 1, -1⟩ ⟨0, 0, 1⟩ 0
    (dvec_is (sx := false) (sy := false) (sz := true) (by decide +kernel))
    (dvec_is (sx := false) (sy := false) (sz := false) (by decide +kernel)) ⟨false, by decide +kernel⟩ le_rfl
    (by decide +kernel) (by decide +kernel) (by decide +kernel) (hcoll ▸ rect_harmless) (by rw [hcoll, hv]; exact rect_size)
    (hcoll ▸ rect_det) 0 ⟨0, 1, 2⟩ (dvec 0 0 0) (dvec 7 0 0)
    (dvec 7 6 0) (by rw [hcoll, hfc]; rfl) (by rw [hcoll, hv]; rfl) (by rw [hcoll, hv]; rfl) (by rw [hcoll, hv]; rfl)
    ⟨0, 0, 0⟩ ⟨7, 0, 0⟩ ⟨7, 6, 0⟩ h1 h2 h3 1 (5/42) (1/6) (by decide +kernel) (by norm_num) (by norm_num)
    (by norm_num) (by decide +kernel) (by decide +kernel) (by decide +kernel) RayHit.fresh out hit (by
      rw [hcoll]
      intro x hx
      right
      simp only [List.mem_cons, List.not_mem_nil, or_false] at hx
      rcases hx with rfl | rfl
      · exact ⟨100, ⟨false, by decide +kernel⟩, by decide +kernel⟩
      · exact ⟨Format.binary64.maxVal, ⟨false, by decide +kernel⟩, by decide +kernel⟩) h
  rw [hcoll] at k4
  have := k4.trans e
  exact ⟨k1, t, k2, k3, by linarith⟩

/-- C78 in a scene where both geometries answer: the rectangle at distance 8, the first sphere at distance 7, which is the
one reported. -/
example : ∃ s, runCalls stablePartition sampleBoth = .ok s ∧
    evalOk (s.intersect1 (Ray.make' (dvec (1/4) (1/8) 8) (dvec 0 0 (-1))) RayHit.fresh) (fun r => r.1 && r.2.geomId == 1 &&
      lt r.2.hitDistance (dbl 8)) = true ∧
    (∃ q, s.mesh = some q ∧ evalOk (traverse (triIx q.coll) q.nodes (Ray.make' (dvec (1/4) (1/8) 8) (dvec 0 0 (-1))) RayHit.fresh)
      (fun r => r.1 && eq r.2.hitDistance (dbl 8)) = true) := by
  obtain ⟨s, h1, h2, h3⟩ := exists_ok_of_eval (x := runCalls stablePartition sampleBoth)
    (q := fun s => evalOk (s.intersect1 (Ray.make' (dvec (1/4) (1/8) 8) (dvec 0 0 (-1))) RayHit.fresh) (fun r => r.1 && r.2.geomId == 1 &&
      lt r.2.hitDistance (dbl 8)) = true ∧ (s.mesh.elim false fun q => evalOk (traverse (triIx q.coll) q.nodes
        (Ray.make' (dvec (1/4) (1/8) 8) (dvec 0 0 (-1))) RayHit.fresh) (fun r => r.1 && eq r.2.hitDistance (dbl 8))) = true)
    (by decide +kernel)
  refine ⟨s, h1, h2, ?_⟩
  cases hm : s.mesh with
  | none => rw [hm] at h3; cases h3
  | some q => rw [hm] at h3; exact ⟨q, rfl, h3⟩

end Blazert
