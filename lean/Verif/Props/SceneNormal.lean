/- C93: the normals and coordinates of the hits that scenes report, with rounding. -/
import Verif.Props.SceneRound
import Verif.Props.NormalRound
import Verif.Props.UvRound
import Verif.Props.MeshNormal
import Verif.Props.CylNormal
import Verif.Spec.SceneNormal
import Verif.Proofs.MemoryScene

set_option autoImplicit false

namespace Blazert
open Scalar

/-- A list is what precedes an element, the element and what follows it; the elements before and after are those at the other indices. -/
theorem list_around {α : Type} {l : List α} {i : Nat} {x : α} (h : l[i]? = some x) :
    ∃ pre post, l = pre ++ x :: post ∧ pre.length = i ∧ ∀ y ∈ pre ++ post, ∃ j, j ≠ i ∧ l[j]? = some y := by
  obtain ⟨hi, hx⟩ := List.getElem?_eq_some_iff.1 h
  have e : l = l.take i ++ x :: l.drop (i + 1) := by
    rw [← hx, List.getElem_cons_drop, List.take_append_drop]
  refine ⟨l.take i, l.drop (i + 1), e, by simp [hi.le], fun y hy => ?_⟩
  rcases List.mem_append.1 hy with hy | hy
  · obtain ⟨j, hj, rfl⟩ := List.mem_iff_getElem.1 hy
    have hj' : j < i := by simp at hj; omega
    exact ⟨j, by omega, by rw [List.getElem_take, List.getElem?_eq_getElem]⟩
  · obtain ⟨j, hj, rfl⟩ := List.mem_iff_getElem.1 hy
    simp only [List.length_drop] at hj
    exact ⟨i + 1 + j, by omega, by rw [List.getElem_drop, List.getElem?_eq_getElem]⟩

/-- **C93** for `double`.  The normal and, for meshes, the coordinates of a hit reported by a committed scene are right up to rounding: for
spheres the outward normal at the reported point, for rectangles the one facing the origin, for cylinders the outward normal of cap or tube
(with the exceptions of C92), for meshes the barycentric coordinates of the point and the normal interpolated with them, which for
faces that share no vertex with others is the normal of the face. -/
theorem C93_double {s : Scene Double} {rs : List Nat} (hist : History s rs) (hcom : s.committed = true)
    (origin direction : Vec3 Double) (minHit maxHit : Double) {any : Bool} (o p : Vec3 ℚ) (m : ℚ)
    (ho : IsV origin o) (hdir : IsV direction p) (hmin : minHit.Is m) (hm : 0 ≤ m)
    (hp1 : 1 / 2 ^ 484 ≤ |p.x| + |p.y| + |p.z|) (hp2 : |p.x| + |p.y| + |p.z| ≤ 2 ^ 500) (rh0 out : RayHit Double)
    (h : s.intersect1 (Ray.make origin direction minHit maxHit any) rh0 = .ok (true, out)) :
    ∃ d, IsV (Ray.make origin direction minHit maxHit any).direction d ∧ |Vec3.dot d d - 1| ≤ 11 * (1 / 2 ^ 53) ∧
      ((∃ q, s.spheres = some q ∧ out.geomId = q.geomId ∧
          ShadedSphere (1 / 2 ^ 53) (1 / 2 ^ 483) (2 ^ 498) q.coll out.primId out.hitDistance out.normal o d) ∨
       (∃ q, s.planes = some q ∧ out.geomId = q.geomId ∧
          ShadedRect (1 / 2 ^ 53) (1 / 2 ^ 484) (2 ^ 500) q.coll out.primId out.hitDistance out.normal o d) ∨
       (∃ q, s.mesh = some q ∧ out.geomId = q.geomId ∧
          LocatedFace (1 / 2 ^ 53) (1 / 2 ^ 100) (2 ^ 100) ((2 - 1 / 2 ^ 52) * 2 ^ 1023) m q.coll out.primId out.hitDistance out.uv o d ∧
          ShadedFace (1 / 2 ^ 53) (1 / 2 ^ 480) (2 ^ 490) q.coll out.primId out.uv out.normal ∧
          FlatFace (1 / 2 ^ 53) (1 / 2 ^ 100) (2 ^ 100) ((2 - 1 / 2 ^ 52) * 2 ^ 1023) m q.coll out.primId out.normal o d) ∨
       (∃ q, s.cylinders = some q ∧ out.geomId = q.geomId ∧
          ShadedTube (1 / 2 ^ 53) (1 / 2 ^ 100) (2 ^ 100) (1 / 2 ^ 150) q.coll out.primId out.hitDistance out.normal
            (Ray.make origin direction minHit maxHit any).direction o d)) := by
  obtain ⟨d, n, g1, g2, -⟩ := C68_direction _ _ _ rounds_double origin direction minHit maxHit any p hdir (scale_double hp1 hp2)
  refine ⟨d, g1, g2, ?_⟩
  obtain ⟨u, hu⟩ : ∃ u : ℚ, u = 1 / 2 ^ 53 := ⟨_, rfl⟩
  have hdiv : ∀ x : ℚ, x / 2 ^ 53 = x * u := fun x => by rw [hu]; ring
  rcases ((C78_closest_answer (XF.lawfulLt _) s _ rh0 out true h).1 rfl).1 with ⟨q, r, k1, k2, rfl⟩ | ⟨q, r, k1, k2, rfl⟩ |
    ⟨q, r, k1, k2, rfl⟩ | ⟨q, r, k1, k2, rfl⟩
  · have hf := hist.first.mesh
    rw [hcom, k1] at hf
    obtain ⟨part, nodes, stats, hbuild, htr⟩ := hf.query (I := TriI Double)
    obtain ⟨⟨vs, fs, hmake⟩, -, -⟩ := hist.ok.mesh q k1
    rw [htr] at k2
    obtain ⟨face, a, b, c, d', e1, e2, e3, e4, e5, e6⟩ := C90_double part q.coll s.options nodes stats hbuild origin direction minHit
      maxHit o p m ho hdir hmin hm hp1 hp2 _ _ k2
    obtain rfl := e5.unique g1
    refine .inr (.inr (.inl ⟨q, k1, rfl, ⟨face, a, b, c, e1, e2, e3, e4, e6⟩,
      C91_interpolated_double part q.coll s.options nodes stats hbuild _ _ r k2, face, a, b, c, e1, e2, e3, e4, ?_⟩))
    rintro ⟨i1, i2, i3, i4⟩
    obtain ⟨f1, f2⟩ := meshMake_fields hmake
    obtain ⟨pre, post, rfl, hpre, hother⟩ := list_around (f2 ▸ e1 : fs[r.primId]? = some face)
    obtain ⟨a', b', c', d'', x1, x2, x3, x4, x5⟩ := C91_isolated_double part vs pre post face q.coll hmake i1 i2 i3
      (fun g hg => by
        obtain ⟨j, hj, hgj⟩ := hother g hg
        exact i4 j g hj (f2 ▸ hgj))
      s.options nodes stats hbuild origin direction minHit maxHit o p m ho hdir hmin hm hp1 hp2 _ _ k2 hpre.symm
    obtain rfl := x4.unique g1
    rw [← f1, e2] at x1
    rw [← f1, e3] at x2
    rw [← f1, e4] at x3
    cases x1; cases x2; cases x3
    exact x5
  · have hf := hist.first.spheres
    rw [hcom, k1] at hf
    obtain ⟨part, nodes, stats, hbuild, htr⟩ := hf.query (I := SphereI Double)
    rw [htr] at k2
    obtain ⟨center, radius, d', e1, e2, e3, -, e4⟩ := C86_double part q.coll s.options nodes stats hbuild origin direction minHit
      maxHit o p m ho hdir hmin hm hp1 hp2 _ _ k2
    obtain rfl := e3.unique g1
    refine .inl ⟨q, k1, rfl, center, radius, e1, e2, fun c r L hc hr hL hL1 hL2 hLr => ?_⟩
    simp only [hdiv] at e4
    subst hu
    refine e4 c r L hc hr hL hL1 hL2 ?_
    refine (mul_le_mul_of_nonneg_left hLr (by norm_num : (0 : ℚ) ≤ 2 ^ 53)).trans' (le_of_eq ?_)
    ring
  · have hf := hist.first.planes
    rw [hcom, k1] at hf
    obtain ⟨part, nodes, stats, hbuild, htr⟩ := hf.query (I := PlaneI Double)
    rw [htr] at k2
    obtain ⟨center, dx, dy, R, d', e1, e2, e3, e4, e5, -, e6⟩ := C87_double part q.coll s.options nodes stats hbuild origin direction
      minHit maxHit o p m ho hdir hmin hm hp1 hp2 _ _ k2
    obtain rfl := e5.unique g1
    simp only [hdiv] at e6
    subst hu
    exact .inr (.inl ⟨q, k1, rfl, center, dx, dy, R, e1, e2, e3, e4, e6⟩)
  · have hf := hist.first.cylinders
    rw [hcom, k1] at hf
    obtain ⟨part, nodes, stats, hbuild, htr⟩ := hf.query (I := PlaneI Double)
    rw [htr] at k2
    obtain ⟨center, fa, fb, fh, R, d', e1, e2, e3, e4, e5, e6, e7⟩ := C92_double part q.coll s.options nodes stats hbuild origin direction
      minHit maxHit o p ho hdir hp1 hp2 _ _ k2
    obtain rfl := e6.unique g1
    simp only [hdiv] at e7
    subst hu
    exact .inr (.inr (.inr ⟨q, k1, rfl, center, fa, fb, fh, R, e1, e2, e3, e4, e5, e7⟩))

/-- **C93** for `float`.  The normal and, for meshes, the coordinates of a hit reported by a committed scene are right up to rounding: for
spheres the outward normal at the reported point, for rectangles the one facing the origin, for cylinders the outward normal of cap or tube
(with the exceptions of C92), for meshes the barycentric coordinates of the point and the normal interpolated with them, which for
faces that share no vertex with others is the normal of the face. -/
theorem C93_float {s : Scene Single} {rs : List Nat} (hist : History s rs) (hcom : s.committed = true)
    (origin direction : Vec3 Single) (minHit maxHit : Single) {any : Bool} (o p : Vec3 ℚ) (m : ℚ)
    (ho : IsV origin o) (hdir : IsV direction p) (hmin : minHit.Is m) (hm : 0 ≤ m)
    (hp1 : 1 / 2 ^ 51 ≤ |p.x| + |p.y| + |p.z|) (hp2 : |p.x| + |p.y| + |p.z| ≤ 2 ^ 60) (rh0 out : RayHit Single)
    (h : s.intersect1 (Ray.make origin direction minHit maxHit any) rh0 = .ok (true, out)) :
    ∃ d, IsV (Ray.make origin direction minHit maxHit any).direction d ∧ |Vec3.dot d d - 1| ≤ 11 * (1 / 2 ^ 24) ∧
      ((∃ q, s.spheres = some q ∧ out.geomId = q.geomId ∧
          ShadedSphere (1 / 2 ^ 24) (1 / 2 ^ 50) (2 ^ 58) q.coll out.primId out.hitDistance out.normal o d) ∨
       (∃ q, s.planes = some q ∧ out.geomId = q.geomId ∧
          ShadedRect (1 / 2 ^ 24) (1 / 2 ^ 51) (2 ^ 60) q.coll out.primId out.hitDistance out.normal o d) ∨
       (∃ q, s.mesh = some q ∧ out.geomId = q.geomId ∧
          LocatedFace (1 / 2 ^ 24) (1 / 2 ^ 20) (2 ^ 15) ((2 - 1 / 2 ^ 23) * 2 ^ 127) m q.coll out.primId out.hitDistance out.uv o d ∧
          ShadedFace (1 / 2 ^ 24) (1 / 2 ^ 50) (2 ^ 54) q.coll out.primId out.uv out.normal ∧
          FlatFace (1 / 2 ^ 24) (1 / 2 ^ 20) (2 ^ 15) ((2 - 1 / 2 ^ 23) * 2 ^ 127) m q.coll out.primId out.normal o d) ∨
       (∃ q, s.cylinders = some q ∧ out.geomId = q.geomId ∧
          ShadedTube (1 / 2 ^ 24) (1 / 2 ^ 10) (2 ^ 10) (1 / 2 ^ 20) q.coll out.primId out.hitDistance out.normal
            (Ray.make origin direction minHit maxHit any).direction o d)) := by
  obtain ⟨d, n, g1, g2, -⟩ := C68_direction _ _ _ rounds_float origin direction minHit maxHit any p hdir (scale_float hp1 hp2)
  refine ⟨d, g1, g2, ?_⟩
  obtain ⟨u, hu⟩ : ∃ u : ℚ, u = 1 / 2 ^ 24 := ⟨_, rfl⟩
  have hdiv : ∀ x : ℚ, x / 2 ^ 24 = x * u := fun x => by rw [hu]; ring
  rcases ((C78_closest_answer (XF.lawfulLt _) s _ rh0 out true h).1 rfl).1 with ⟨q, r, k1, k2, rfl⟩ | ⟨q, r, k1, k2, rfl⟩ |
    ⟨q, r, k1, k2, rfl⟩ | ⟨q, r, k1, k2, rfl⟩
  · have hf := hist.first.mesh
    rw [hcom, k1] at hf
    obtain ⟨part, nodes, stats, hbuild, htr⟩ := hf.query (I := TriI Single)
    obtain ⟨⟨vs, fs, hmake⟩, -, -⟩ := hist.ok.mesh q k1
    rw [htr] at k2
    obtain ⟨face, a, b, c, d', e1, e2, e3, e4, e5, e6⟩ := C90_float part q.coll s.options nodes stats hbuild origin direction minHit
      maxHit o p m ho hdir hmin hm hp1 hp2 _ _ k2
    obtain rfl := e5.unique g1
    refine .inr (.inr (.inl ⟨q, k1, rfl, ⟨face, a, b, c, e1, e2, e3, e4, e6⟩,
      C91_interpolated_float part q.coll s.options nodes stats hbuild _ _ r k2, face, a, b, c, e1, e2, e3, e4, ?_⟩))
    rintro ⟨i1, i2, i3, i4⟩
    obtain ⟨f1, f2⟩ := meshMake_fields hmake
    obtain ⟨pre, post, rfl, hpre, hother⟩ := list_around (f2 ▸ e1 : fs[r.primId]? = some face)
    obtain ⟨a', b', c', d'', x1, x2, x3, x4, x5⟩ := C91_isolated_float part vs pre post face q.coll hmake i1 i2 i3
      (fun g hg => by
        obtain ⟨j, hj, hgj⟩ := hother g hg
        exact i4 j g hj (f2 ▸ hgj))
      s.options nodes stats hbuild origin direction minHit maxHit o p m ho hdir hmin hm hp1 hp2 _ _ k2 hpre.symm
    obtain rfl := x4.unique g1
    rw [← f1, e2] at x1
    rw [← f1, e3] at x2
    rw [← f1, e4] at x3
    cases x1; cases x2; cases x3
    exact x5
  · have hf := hist.first.spheres
    rw [hcom, k1] at hf
    obtain ⟨part, nodes, stats, hbuild, htr⟩ := hf.query (I := SphereI Single)
    rw [htr] at k2
    obtain ⟨center, radius, d', e1, e2, e3, -, e4⟩ := C86_float part q.coll s.options nodes stats hbuild origin direction minHit
      maxHit o p m ho hdir hmin hm hp1 hp2 _ _ k2
    obtain rfl := e3.unique g1
    refine .inl ⟨q, k1, rfl, center, radius, e1, e2, fun c r L hc hr hL hL1 hL2 hLr => ?_⟩
    simp only [hdiv] at e4
    subst hu
    refine e4 c r L hc hr hL hL1 hL2 ?_
    refine (mul_le_mul_of_nonneg_left hLr (by norm_num : (0 : ℚ) ≤ 2 ^ 24)).trans' (le_of_eq ?_)
    ring
  · have hf := hist.first.planes
    rw [hcom, k1] at hf
    obtain ⟨part, nodes, stats, hbuild, htr⟩ := hf.query (I := PlaneI Single)
    rw [htr] at k2
    obtain ⟨center, dx, dy, R, d', e1, e2, e3, e4, e5, -, e6⟩ := C87_float part q.coll s.options nodes stats hbuild origin direction
      minHit maxHit o p m ho hdir hmin hm hp1 hp2 _ _ k2
    obtain rfl := e5.unique g1
    simp only [hdiv] at e6
    subst hu
    exact .inr (.inl ⟨q, k1, rfl, center, dx, dy, R, e1, e2, e3, e4, e6⟩)
  · have hf := hist.first.cylinders
    rw [hcom, k1] at hf
    obtain ⟨part, nodes, stats, hbuild, htr⟩ := hf.query (I := PlaneI Single)
    rw [htr] at k2
    obtain ⟨center, fa, fb, fh, R, d', e1, e2, e3, e4, e5, e6, e7⟩ := C92_float part q.coll s.options nodes stats hbuild origin direction
      minHit maxHit o p ho hdir hp1 hp2 _ _ k2
    obtain rfl := e6.unique g1
    simp only [hdiv] at e7
    subst hu
    exact .inr (.inr (.inr ⟨q, k1, rfl, center, fa, fb, fh, R, e1, e2, e3, e4, e5, e7⟩))

/-! ### Examples -/

/-- the two separate faces of `tiltMesh`, with a sphere behind the tilted one and a cylinder aside -/
def sampleShades : List (Call Double) :=
  [.addSpheres [dvec 4 1 9] [dbl 1], .addMesh tiltVertices [⟨0, 1, 2⟩, ⟨3, 4, 5⟩],
    .addCylinders [dvec (-9) 0 0] [dbl 1] [dbl 2] [dbl 3] [tilt], .commit]

/-- the ray that hits the tilted face, one that hits the sphere from behind and one that hits the cylinder -/
def shadeRay : Ray Double := Ray.make (dvec 4 1 (-1)) (dvec 0 0 1) (dbl 0) (dbl 100) false
def ballRay : Ray Double := Ray.make (dvec 4 (3/2) 20) (dvec 0 0 (-1)) (dbl 0) (dbl 100) false
def barRay : Ray Double := Ray.make (dvec (-35/4) (1/8) (-5)) (dvec (1/16) (1/32) 1) (dbl 0) (dbl 100) false

/-- `C93` applies to the three hits of these rays; the normals are those of the face (`(-6, -14, 42)` up to its length), of the sphere
(`(0, 1/2, √3/2)`) and of the lower cap or the tube. -/
example : ∃ s rs, History s rs ∧ s.committed = true ∧
    (∃ r, s.intersect1 shadeRay RayHit.fresh = .ok (true, r) ∧ r.geomId = 1 ∧ r.primId = 1 ∧ lt r.normal.y (dbl (-3/10)) = true ∧
      lt (dbl (-32/100)) r.normal.y = true) ∧
    (∃ r, s.intersect1 ballRay RayHit.fresh = .ok (true, r) ∧ r.geomId = 0 ∧ r.primId = 0 ∧ lt r.normal.z (dbl (867/1000)) = true ∧
      lt (dbl (866/1000)) r.normal.z = true) ∧
    (∃ r, s.intersect1 barRay RayHit.fresh = .ok (true, r) ∧ r.geomId = 2 ∧ r.primId = 0) ∧
    ∃ q, s.mesh = some q ∧ Isolated q.coll 1 ⟨3, 4, 5⟩ := by
  obtain ⟨s, h1, h2, h3, h4, h5, h6⟩ := exists_ok_of_eval (x := runCalls stablePartition sampleShades)
    (q := fun s => s.committed = true ∧
      evalOk (s.intersect1 shadeRay RayHit.fresh) (fun r => decide (r.1 = true ∧ r.2.geomId = 1 ∧ r.2.primId = 1 ∧
        lt r.2.normal.y (dbl (-3/10)) = true ∧ lt (dbl (-32/100)) r.2.normal.y = true)) = true ∧
      evalOk (s.intersect1 ballRay RayHit.fresh) (fun r => decide (r.1 = true ∧ r.2.geomId = 0 ∧ r.2.primId = 0 ∧
        lt r.2.normal.z (dbl (867/1000)) = true ∧ lt (dbl (866/1000)) r.2.normal.z = true)) = true ∧
      evalOk (s.intersect1 barRay RayHit.fresh) (fun r => decide (r.1 = true ∧ r.2.geomId = 2 ∧ r.2.primId = 0)) = true ∧
      s.mesh.map (fun q => q.coll.faces) = some [⟨0, 1, 2⟩, ⟨3, 4, 5⟩])
    (by decide +kernel)
  obtain ⟨rs, hs⟩ := runCalls_history h1
  obtain ⟨⟨_, r⟩, hr, rfl, e⟩ := exists_ok_of_eval (x := s.intersect1 shadeRay RayHit.fresh)
    (q := fun r => r.1 = true ∧ r.2.geomId = 1 ∧ r.2.primId = 1 ∧ lt r.2.normal.y (dbl (-3/10)) = true ∧
      lt (dbl (-32/100)) r.2.normal.y = true) h3
  obtain ⟨⟨_, r'⟩, hr', rfl, e'⟩ := exists_ok_of_eval (x := s.intersect1 ballRay RayHit.fresh)
    (q := fun r => r.1 = true ∧ r.2.geomId = 0 ∧ r.2.primId = 0 ∧ lt r.2.normal.z (dbl (867/1000)) = true ∧
      lt (dbl (866/1000)) r.2.normal.z = true) h4
  obtain ⟨⟨_, r''⟩, hr'', rfl, e''⟩ := exists_ok_of_eval (x := s.intersect1 barRay RayHit.fresh)
    (q := fun r => r.1 = true ∧ r.2.geomId = 2 ∧ r.2.primId = 0) h5
  obtain ⟨q, hq, hfaces⟩ := Option.map_eq_some_iff.1 h6
  refine ⟨s, rs, hs, h2, ⟨r, hr, e⟩, ⟨r', hr', e'⟩, ⟨r'', hr'', e''⟩, q, hq, by decide, by decide, by decide, ?_⟩
  rw [hfaces]
  intro j g hj hg
  match j with
  | 0 => cases hg; decide
  | 1 => exact absurd rfl hj
  | j + 2 => simp at hg

end Blazert
