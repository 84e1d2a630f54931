/- C80 for rectangles, and C83: hits reported by scenes are genuine, with rounding. -/
import Verif.Props.Combine
import Verif.Props.PlaneFound
import Verif.Props.CylRound
import Verif.Spec.SceneRound

set_option autoImplicit false

namespace Blazert
open Scalar

/-- **C80**, rectangles, for `double`: C82 in a scene that may contain further geometry of any kind, committed any number of
times. -/
theorem C80_plane_double {s : Scene Double} {rs : List Nat} (hist : History s rs) (hcom : s.committed = true)
    (q : Part (PlaneColl Double) Double (Plane Double)) (hq : s.planes = some q) (L ε : ℚ) (hL1 : 1 / 2 ^ 484 ≤ L) (hL2 : L ≤ 2 ^ 500)
    (hε : ε ≤ 1 / 1000) (origin direction : Vec3 Double) (minHit maxHit : Double) (o p : Vec3 ℚ) (m : ℚ)
    (ho : IsV origin o) (hdir : IsV direction p) (hmin : minHit.Is m) (hm : 0 ≤ m)
    (hneg : ∀ i, direction.get i ≠ .fin 0 true) (hunit : |Vec3.dot p p - 1| ≤ 16 / 2 ^ 53)
    (hharm : Harmless q.coll.toCollection (1 / 2 ^ 1022) ((2 - 1 / 2 ^ 52) * 2 ^ 1023) o p)
    (hsize : ∀ (i : Nat) (center : Vec3 Double) (dx dy : Double) (rotation : Mat3 Double), q.coll.centers[i]? = some center →
      q.coll.dxs[i]? = some dx → q.coll.dys[i]? = some dy → q.coll.rotations[i]? = some rotation →
      ∃ c a b R, IsV center c ∧ dx.Is a ∧ dy.Is b ∧ IsM rotation R ∧ NearOrtho ε R ∧
        |o.x| + |o.y| + |o.z| + |c.x| + |c.y| + |c.z| + |a| + |b| ≤ L)
    (j : Nat) (center : Vec3 Double) (dx dy : Double) (rotation : Mat3 Double) (hcj : q.coll.centers[j]? = some center)
    (hxj : q.coll.dxs[j]? = some dx) (hyj : q.coll.dys[j]? = some dy) (hrj : q.coll.rotations[j]? = some rotation)
    (c : Vec3 ℚ) (a b : ℚ) (R : Mat3 ℚ) (hc : IsV center c) (ha : dx.Is a) (hb : dy.Is b) (hR : IsM rotation R)
    (d : Vec3 ℚ) (hd : IsV (Ray.make origin direction minHit maxHit false).direction d) (τ M κ : ℚ)
    (hmeet : MeetsRect c a b R o d m τ M κ) (hM : 200 * (1 / 2 ^ 53 + ε) * L ≤ M * κ)
    (rh0 out : RayHit Double) (hit : Bool)
    (hmax : ∀ x ∈ [maxHit, rh0.hitDistance], x = .inf false ∨ ∃ X, x.Is X ∧
      τ + M + 152 * q.coll.centers.length * (1 / 2 ^ 53 + ε) * L < X)
    (h : s.intersect1 (Ray.make origin direction minHit maxHit false) rh0 = .ok (hit, out)) :
    hit = true ∧ ∃ t, out.hitDistance.Is t ∧ 0 ≤ t ∧
      t ≤ τ + M + 152 * q.coll.centers.length * (1 / 2 ^ 53 + ε) * L := by
  have hf := hist.first.planes
  rw [hcom, hq] at hf
  obtain ⟨part, nodes, stats, hbuild, htr⟩ := hf.query (I := PlaneI Double)
  obtain ⟨⟨centers, dxs, dys, rotations, hmake⟩, -, -⟩ := hist.ok.planes q hq
  have hlen : q.coll.centers.length = centers.length := (PlaneColl.make_size hmake).1
  obtain ⟨⟨hit', r'⟩, hr'⟩ := ((intersect1_defined s _ rh0).1 ⟨_, h⟩).planes q hq
  rw [htr] at hr'
  rw [hlen] at hmax ⊢
  obtain ⟨rfl, x, hx, hle⟩ := C82_double L ε hL1 hL2 hε part centers dxs dys rotations q.coll hmake s.options nodes stats hbuild
    origin direction minHit maxHit o p m ho hdir hmin hm hneg hunit hharm hsize j center dx dy rotation hcj hxj hyj hrj c a b R
    hc ha hb hR d hd τ M κ hmeet hM (hmax maxHit (by simp)) RayHit.fresh r' hit' hr'
  obtain ⟨g1, t, g2, g3, g4⟩ := scene_at_most Format.binary64_signed hist hcom (Ray.make origin direction minHit maxHit false) m hmin hm
    rh0 out { r' with geomId := q.geomId } hit h (.inr (.inr (.inl ⟨q, r', hq, by rw [htr]; exact hr', rfl⟩))) x hx
    ((hmax rh0.hitDistance (by simp)).imp id fun ⟨M, hM, hlt⟩ => ⟨M, hM, hle.trans_lt hlt⟩)
  exact ⟨g1, t, g2, g3, g4.trans hle⟩

/-- **C83** for `double`.  A hit reported by a committed scene is genuine up to rounding: `geom_id` is that of a geometry of the
scene, and the point at the reported distance along the stored direction (a unit vector up to rounding) is on the sphere,
rectangle, face or cylinder named by `prim_id`, up to rounding errors. -/
theorem C83_double {s : Scene Double} {rs : List Nat} (hist : History s rs) (hcom : s.committed = true)
    (origin direction : Vec3 Double) (minHit maxHit : Double) {any : Bool} (o p : Vec3 ℚ) (m : ℚ)
    (ho : IsV origin o) (hdir : IsV direction p) (hmin : minHit.Is m) (hm : 0 ≤ m)
    (hp1 : 1 / 2 ^ 484 ≤ |p.x| + |p.y| + |p.z|) (hp2 : |p.x| + |p.y| + |p.z| ≤ 2 ^ 500) (rh0 out : RayHit Double)
    (h : s.intersect1 (Ray.make origin direction minHit maxHit any) rh0 = .ok (true, out)) :
    ∃ d, IsV (Ray.make origin direction minHit maxHit any).direction d ∧ |Vec3.dot d d - 1| ≤ 11 * (1 / 2 ^ 53) ∧
      ((∃ q, s.spheres = some q ∧ out.geomId = q.geomId ∧
          NearSphere (1 / 2 ^ 53) (1 / 2 ^ 484) (2 ^ 500) q.coll out.primId out.hitDistance o d) ∨
       (∃ q, s.planes = some q ∧ out.geomId = q.geomId ∧
          NearRect (1 / 2 ^ 53) (1 / 2 ^ 484) (2 ^ 500) q.coll out.primId out.hitDistance o d) ∨
       (∃ q, s.mesh = some q ∧ out.geomId = q.geomId ∧
          NearFace (1 / 2 ^ 53) (1 / 2 ^ 100) (2 ^ 100) ((2 - 1 / 2 ^ 52) * 2 ^ 1023) m q.coll out.primId out.hitDistance o d) ∨
       (∃ q, s.cylinders = some q ∧ out.geomId = q.geomId ∧
          NearTube (1 / 2 ^ 53) (1 / 2 ^ 100) (2 ^ 100) (1 / 2 ^ 150) q.coll out.primId out.hitDistance
            (Ray.make origin direction minHit maxHit any).direction o d)) := by
  obtain ⟨d, n, g1, g2, -⟩ := C68_direction _ _ _ rounds_double origin direction minHit maxHit any p hdir (scale_double hp1 hp2)
  refine ⟨d, g1, g2, ?_⟩
  rcases ((C78_closest_answer (XF.lawfulLt _) s _ rh0 out true h).1 rfl).1 with ⟨q, r, k1, k2, rfl⟩ | ⟨q, r, k1, k2, rfl⟩ |
    ⟨q, r, k1, k2, rfl⟩ | ⟨q, r, k1, k2, rfl⟩
  · have hf := hist.first.mesh
    rw [hcom, k1] at hf
    obtain ⟨part, nodes, stats, hbuild, htr⟩ := hf.query (I := TriI Double)
    rw [htr] at k2
    obtain ⟨face, a, b, c, d', e1, e2, e3, e4, e5, e6⟩ := C73_double part q.coll s.options nodes stats hbuild origin direction minHit
      maxHit o p m ho hdir hmin hm hp1 hp2 _ _ k2
    obtain rfl := e5.unique g1
    exact .inr (.inr (.inl ⟨q, k1, rfl, face, a, b, c, e1, e2, e3, e4, e6⟩))
  · have hf := hist.first.spheres
    rw [hcom, k1] at hf
    obtain ⟨part, nodes, stats, hbuild, htr⟩ := hf.query (I := SphereI Double)
    rw [htr] at k2
    obtain ⟨center, radius, d', e1, e2, e3, -, e4⟩ := C68_double part q.coll s.options nodes stats hbuild origin direction minHit
      maxHit o p m ho hdir hmin hm hp1 hp2 _ _ k2
    obtain rfl := e3.unique g1
    refine .inl ⟨q, k1, rfl, center, radius, e1, e2, fun c r L hc hr hL hL1 hL2 => ?_⟩
    obtain ⟨x, x1, x2, x3⟩ := e4 c r L hc hr hL hL1 hL2
    exact ⟨x, x1, x2, x3.trans_eq (by ring)⟩
  · have hf := hist.first.planes
    rw [hcom, k1] at hf
    obtain ⟨part, nodes, stats, hbuild, htr⟩ := hf.query (I := PlaneI Double)
    rw [htr] at k2
    obtain ⟨center, dx, dy, R, d', e1, e2, e3, e4, e5, -, e6⟩ := C81_double part q.coll s.options nodes stats hbuild origin direction
      minHit maxHit o p m ho hdir hmin hm hp1 hp2 _ _ k2
    obtain rfl := e5.unique g1
    refine .inr (.inl ⟨q, k1, rfl, center, dx, dy, R, e1, e2, e3, e4, fun c a b R ε L hc ha hb hR hε hε' hL hL1 hL2 => ?_⟩)
    obtain ⟨x, x1, x2, y, x3, x4⟩ := e6 c a b R ε L hc ha hb hR hε hε' hL hL1 hL2
    exact ⟨x, x1, x2, y, x3, fun k => (x4 k).trans_eq (by ring)⟩
  · have hf := hist.first.cylinders
    rw [hcom, k1] at hf
    obtain ⟨part, nodes, stats, hbuild, htr⟩ := hf.query (I := PlaneI Double)
    rw [htr] at k2
    obtain ⟨center, fa, fb, fh, R, d', e1, e2, e3, e4, e5, e6, e7⟩ := C89_hit_on_cylinder _ _ _ rounds_double faithful_double
      Format.binary64_odd Format.binary64_ordered part q.coll s.options nodes stats hbuild origin direction minHit maxHit o p ho hdir
      (scale_double hp1 hp2) _ _ k2
    obtain rfl := e6.unique g1
    refine .inr (.inr (.inr ⟨q, k1, rfl, center, fa, fb, fh, R, e1, e2, e3, e4, e5,
      fun c a b h R ε L hc ha hb hh hR hε hε' haν hbν h0 hL hL2 asp1 asp2 hsl hcl => ?_⟩))
    have hν : (0 : ℚ) < 1 / 2 ^ 100 := by decide +kernel
    have hpos : 0 ≤ |o.x - c.x| + |o.y - c.y| + |o.z - c.z| := by positivity
    obtain ⟨k, x1, x2, -, x3⟩ := e7 c a b h R ε L _ _ hc ha hb hh hR hε hε' haν hbν h0 hL
      (tubeScale_double (by linarith only [hL, haν, hbν, h0, hpos, hν]) hL2) asp1 asp2 hsl hcl
    exact ⟨k, x1, x2, x3⟩

/-- **C80**, rectangles, for `float`: C82 in a scene that may contain further geometry of any kind, committed any number of
times. -/
theorem C80_plane_float {s : Scene Single} {rs : List Nat} (hist : History s rs) (hcom : s.committed = true)
    (q : Part (PlaneColl Single) Single (Plane Single)) (hq : s.planes = some q) (L ε : ℚ) (hL1 : 1 / 2 ^ 51 ≤ L) (hL2 : L ≤ 2 ^ 60)
    (hε : ε ≤ 1 / 1000) (origin direction : Vec3 Single) (minHit maxHit : Single) (o p : Vec3 ℚ) (m : ℚ)
    (ho : IsV origin o) (hdir : IsV direction p) (hmin : minHit.Is m) (hm : 0 ≤ m)
    (hneg : ∀ i, direction.get i ≠ .fin 0 true) (hunit : |Vec3.dot p p - 1| ≤ 16 / 2 ^ 24)
    (hharm : Harmless q.coll.toCollection (1 / 2 ^ 126) ((2 - 1 / 2 ^ 23) * 2 ^ 127) o p)
    (hsize : ∀ (i : Nat) (center : Vec3 Single) (dx dy : Single) (rotation : Mat3 Single), q.coll.centers[i]? = some center →
      q.coll.dxs[i]? = some dx → q.coll.dys[i]? = some dy → q.coll.rotations[i]? = some rotation →
      ∃ c a b R, IsV center c ∧ dx.Is a ∧ dy.Is b ∧ IsM rotation R ∧ NearOrtho ε R ∧
        |o.x| + |o.y| + |o.z| + |c.x| + |c.y| + |c.z| + |a| + |b| ≤ L)
    (j : Nat) (center : Vec3 Single) (dx dy : Single) (rotation : Mat3 Single) (hcj : q.coll.centers[j]? = some center)
    (hxj : q.coll.dxs[j]? = some dx) (hyj : q.coll.dys[j]? = some dy) (hrj : q.coll.rotations[j]? = some rotation)
    (c : Vec3 ℚ) (a b : ℚ) (R : Mat3 ℚ) (hc : IsV center c) (ha : dx.Is a) (hb : dy.Is b) (hR : IsM rotation R)
    (d : Vec3 ℚ) (hd : IsV (Ray.make origin direction minHit maxHit false).direction d) (τ M κ : ℚ)
    (hmeet : MeetsRect c a b R o d m τ M κ) (hM : 200 * (1 / 2 ^ 24 + ε) * L ≤ M * κ)
    (rh0 out : RayHit Single) (hit : Bool)
    (hmax : ∀ x ∈ [maxHit, rh0.hitDistance], x = .inf false ∨ ∃ X, x.Is X ∧
      τ + M + 152 * q.coll.centers.length * (1 / 2 ^ 24 + ε) * L < X)
    (h : s.intersect1 (Ray.make origin direction minHit maxHit false) rh0 = .ok (hit, out)) :
    hit = true ∧ ∃ t, out.hitDistance.Is t ∧ 0 ≤ t ∧
      t ≤ τ + M + 152 * q.coll.centers.length * (1 / 2 ^ 24 + ε) * L := by
  have hf := hist.first.planes
  rw [hcom, hq] at hf
  obtain ⟨part, nodes, stats, hbuild, htr⟩ := hf.query (I := PlaneI Single)
  obtain ⟨⟨centers, dxs, dys, rotations, hmake⟩, -, -⟩ := hist.ok.planes q hq
  have hlen : q.coll.centers.length = centers.length := (PlaneColl.make_size hmake).1
  obtain ⟨⟨hit', r'⟩, hr'⟩ := ((intersect1_defined s _ rh0).1 ⟨_, h⟩).planes q hq
  rw [htr] at hr'
  rw [hlen] at hmax ⊢
  obtain ⟨rfl, x, hx, hle⟩ := C82_float L ε hL1 hL2 hε part centers dxs dys rotations q.coll hmake s.options nodes stats hbuild
    origin direction minHit maxHit o p m ho hdir hmin hm hneg hunit hharm hsize j center dx dy rotation hcj hxj hyj hrj c a b R
    hc ha hb hR d hd τ M κ hmeet hM (hmax maxHit (by simp)) RayHit.fresh r' hit' hr'
  obtain ⟨g1, t, g2, g3, g4⟩ := scene_at_most Format.binary32_signed hist hcom (Ray.make origin direction minHit maxHit false) m hmin hm
    rh0 out { r' with geomId := q.geomId } hit h (.inr (.inr (.inl ⟨q, r', hq, by rw [htr]; exact hr', rfl⟩))) x hx
    ((hmax rh0.hitDistance (by simp)).imp id fun ⟨M, hM, hlt⟩ => ⟨M, hM, hle.trans_lt hlt⟩)
  exact ⟨g1, t, g2, g3, g4.trans hle⟩

/-- **C83** for `float`.  A hit reported by a committed scene is genuine up to rounding: `geom_id` is that of a geometry of the
scene, and the point at the reported distance along the stored direction (a unit vector up to rounding) is on the sphere,
rectangle, face or cylinder named by `prim_id`, up to rounding errors. -/
theorem C83_float {s : Scene Single} {rs : List Nat} (hist : History s rs) (hcom : s.committed = true)
    (origin direction : Vec3 Single) (minHit maxHit : Single) {any : Bool} (o p : Vec3 ℚ) (m : ℚ)
    (ho : IsV origin o) (hdir : IsV direction p) (hmin : minHit.Is m) (hm : 0 ≤ m)
    (hp1 : 1 / 2 ^ 51 ≤ |p.x| + |p.y| + |p.z|) (hp2 : |p.x| + |p.y| + |p.z| ≤ 2 ^ 60) (rh0 out : RayHit Single)
    (h : s.intersect1 (Ray.make origin direction minHit maxHit any) rh0 = .ok (true, out)) :
    ∃ d, IsV (Ray.make origin direction minHit maxHit any).direction d ∧ |Vec3.dot d d - 1| ≤ 11 * (1 / 2 ^ 24) ∧
      ((∃ q, s.spheres = some q ∧ out.geomId = q.geomId ∧
          NearSphere (1 / 2 ^ 24) (1 / 2 ^ 51) (2 ^ 60) q.coll out.primId out.hitDistance o d) ∨
       (∃ q, s.planes = some q ∧ out.geomId = q.geomId ∧
          NearRect (1 / 2 ^ 24) (1 / 2 ^ 51) (2 ^ 60) q.coll out.primId out.hitDistance o d) ∨
       (∃ q, s.mesh = some q ∧ out.geomId = q.geomId ∧
          NearFace (1 / 2 ^ 24) (1 / 2 ^ 20) (2 ^ 15) ((2 - 1 / 2 ^ 23) * 2 ^ 127) m q.coll out.primId out.hitDistance o d) ∨
       (∃ q, s.cylinders = some q ∧ out.geomId = q.geomId ∧
          NearTube (1 / 2 ^ 24) (1 / 2 ^ 10) (2 ^ 10) (1 / 2 ^ 20) q.coll out.primId out.hitDistance
            (Ray.make origin direction minHit maxHit any).direction o d)) := by
  obtain ⟨d, n, g1, g2, -⟩ := C68_direction _ _ _ rounds_float origin direction minHit maxHit any p hdir (scale_float hp1 hp2)
  refine ⟨d, g1, g2, ?_⟩
  rcases ((C78_closest_answer (XF.lawfulLt _) s _ rh0 out true h).1 rfl).1 with ⟨q, r, k1, k2, rfl⟩ | ⟨q, r, k1, k2, rfl⟩ |
    ⟨q, r, k1, k2, rfl⟩ | ⟨q, r, k1, k2, rfl⟩
  · have hf := hist.first.mesh
    rw [hcom, k1] at hf
    obtain ⟨part, nodes, stats, hbuild, htr⟩ := hf.query (I := TriI Single)
    rw [htr] at k2
    obtain ⟨face, a, b, c, d', e1, e2, e3, e4, e5, e6⟩ := C73_float part q.coll s.options nodes stats hbuild origin direction minHit
      maxHit o p m ho hdir hmin hm hp1 hp2 _ _ k2
    obtain rfl := e5.unique g1
    exact .inr (.inr (.inl ⟨q, k1, rfl, face, a, b, c, e1, e2, e3, e4, e6⟩))
  · have hf := hist.first.spheres
    rw [hcom, k1] at hf
    obtain ⟨part, nodes, stats, hbuild, htr⟩ := hf.query (I := SphereI Single)
    rw [htr] at k2
    obtain ⟨center, radius, d', e1, e2, e3, -, e4⟩ := C68_float part q.coll s.options nodes stats hbuild origin direction minHit
      maxHit o p m ho hdir hmin hm hp1 hp2 _ _ k2
    obtain rfl := e3.unique g1
    refine .inl ⟨q, k1, rfl, center, radius, e1, e2, fun c r L hc hr hL hL1 hL2 => ?_⟩
    obtain ⟨x, x1, x2, x3⟩ := e4 c r L hc hr hL hL1 hL2
    exact ⟨x, x1, x2, x3.trans_eq (by ring)⟩
  · have hf := hist.first.planes
    rw [hcom, k1] at hf
    obtain ⟨part, nodes, stats, hbuild, htr⟩ := hf.query (I := PlaneI Single)
    rw [htr] at k2
    obtain ⟨center, dx, dy, R, d', e1, e2, e3, e4, e5, -, e6⟩ := C81_float part q.coll s.options nodes stats hbuild origin direction
      minHit maxHit o p m ho hdir hmin hm hp1 hp2 _ _ k2
    obtain rfl := e5.unique g1
    refine .inr (.inl ⟨q, k1, rfl, center, dx, dy, R, e1, e2, e3, e4, fun c a b R ε L hc ha hb hR hε hε' hL hL1 hL2 => ?_⟩)
    obtain ⟨x, x1, x2, y, x3, x4⟩ := e6 c a b R ε L hc ha hb hR hε hε' hL hL1 hL2
    exact ⟨x, x1, x2, y, x3, fun k => (x4 k).trans_eq (by ring)⟩
  · have hf := hist.first.cylinders
    rw [hcom, k1] at hf
    obtain ⟨part, nodes, stats, hbuild, htr⟩ := hf.query (I := PlaneI Single)
    rw [htr] at k2
    obtain ⟨center, fa, fb, fh, R, d', e1, e2, e3, e4, e5, e6, e7⟩ := C89_hit_on_cylinder _ _ _ rounds_float faithful_float
      Format.binary32_odd Format.binary32_ordered part q.coll s.options nodes stats hbuild origin direction minHit maxHit o p ho hdir
      (scale_float hp1 hp2) _ _ k2
    obtain rfl := e6.unique g1
    refine .inr (.inr (.inr ⟨q, k1, rfl, center, fa, fb, fh, R, e1, e2, e3, e4, e5,
      fun c a b h R ε L hc ha hb hh hR hε hε' haν hbν h0 hL hL2 asp1 asp2 hsl hcl => ?_⟩))
    have hν : (0 : ℚ) < 1 / 2 ^ 10 := by decide +kernel
    have hpos : 0 ≤ |o.x - c.x| + |o.y - c.y| + |o.z - c.z| := by positivity
    obtain ⟨k, x1, x2, -, x3⟩ := e7 c a b h R ε L _ _ hc ha hb hh hR hε hε' haν hbν h0 hL
      (tubeScale_float (by linarith only [hL, haν, hbν, h0, hpos, hν]) hL2) asp1 asp2 hsl hcl
    exact ⟨k, x1, x2, x3⟩

/-! ### Examples -/

/-- two rectangles and three unit spheres, committed twice -/
def sampleThree : List (Call Double) :=
  [.addPlanes samplePlanes.centers samplePlanes.dxs samplePlanes.dys samplePlanes.rotations,
    .addSpheres sampleSpheres.centers sampleSpheres.radii, .commit, .commit]

/-- There is a scene of this kind, and in it the vertical ray hits the unit sphere at the origin, not the rectangle that passes
through it. -/
example : ∃ s rs, History s rs ∧ s.committed = true ∧
    (∃ r, s.intersect1 verticalRay RayHit.fresh = .ok (true, r) ∧ r.geomId = 1 ∧ r.primId = 0 ∧ lt r.hitDistance (dbl (9/2)) = true) := by
  obtain ⟨s, h1, h2, h5⟩ := exists_ok_of_eval (x := runCalls stablePartition sampleThree)
    (q := fun s => s.committed = true ∧
      evalOk (s.intersect1 verticalRay RayHit.fresh) (fun r => decide (r.1 = true ∧ r.2.geomId = 1 ∧ r.2.primId = 0 ∧
        lt r.2.hitDistance (dbl (9/2)) = true)) = true) (by decide +kernel)
  obtain ⟨rs, hs⟩ := runCalls_history h1
  obtain ⟨⟨hit, r⟩, hr, rfl, e2, e3, e4⟩ := exists_ok_of_eval (x := s.intersect1 verticalRay RayHit.fresh)
    (q := fun r => r.1 = true ∧ r.2.geomId = 1 ∧ r.2.primId = 0 ∧ lt r.2.hitDistance (dbl (9/2)) = true) h5
  exact ⟨s, rs, hs, h2, r, hr, e2, e3, e4⟩

/-- a tilted cylinder and two unit spheres, one of them behind it -/
def sampleTubeScene : List (Call Double) :=
  [.addSpheres [dvec 0 0 4, dvec 4 0 0] [dbl 1, dbl 1],
    .addCylinders [dvec 0 0 0] [dbl 1] [dbl 2] [dbl 3] [tilt], .commit]

/-- In a scene of this kind the slanted ray hits the tilted cylinder, not the sphere behind it. -/
example : ∃ s rs, History s rs ∧ s.committed = true ∧
    (∃ r, s.intersect1 sampleTubeRay RayHit.fresh = .ok (true, r) ∧ r.geomId = 1 ∧ r.primId = 0) := by
  obtain ⟨s, h1, h2, h5⟩ := exists_ok_of_eval (x := runCalls stablePartition sampleTubeScene)
    (q := fun s => s.committed = true ∧
      evalOk (s.intersect1 sampleTubeRay RayHit.fresh) (fun r => decide (r.1 = true ∧ r.2.geomId = 1 ∧ r.2.primId = 0)) = true)
    (by decide +kernel)
  obtain ⟨rs, hs⟩ := runCalls_history h1
  obtain ⟨⟨hit, r⟩, hr, rfl, e2, e3⟩ := exists_ok_of_eval (x := s.intersect1 sampleTubeRay RayHit.fresh)
    (q := fun r => r.1 = true ∧ r.2.geomId = 1 ∧ r.2.primId = 0) h5
  exact ⟨s, rs, hs, h2, r, hr, e2, e3⟩

end Blazert
