/- C81: closest hits on rectangles, with rounding. -/
import Verif.Props.SphereRound
import Verif.Proofs.PlaneRound
import Verif.Proofs.Source
import Verif.Proofs.Combine

set_option autoImplicit false

namespace Blazert
open Scalar

section
variable {K : Type} [Field K] [LinearOrder K] [IsStrictOrderedRing K] [FloorRing K] {F : Fmt K}

/-- **C81**, general.  In any format that rounds, and whose finite results are accurate: a hit on a rectangle reported by a
query (with or without `any_hit`) is genuine up to rounding.  The point at the reported distance (along the stored direction) is near a
point of the rectangle named in the record: in each coordinate within `600 u L + 40 ε L`, where `L` is any bound for the
size of the rectangle and its distance, and `ε` the error of its matrix. -/
theorem C81_hit_on_rectangle (u η hi : K) (hF : F.Rounds u η hi) (hfa : F.Faithful u η) (hodd : F.Odd) (part : StdPartition)
    (coll : PlaneColl (XF F)) (opts : BuildOptions) (nodes : List (Node (XF F) (Plane (XF F)))) (stats : Statistics)
    (hbuild : build part coll.toCollection opts [] = .ok (nodes, stats))
    (origin direction : Vec3 (XF F)) (minHit maxHit : XF F) {any : Bool} (o p : Vec3 K) (m : K)
    (ho : IsV origin o) (hdir : IsV direction p) (hmin : minHit.Is m) (hm : 0 ≤ m)
    (hscale : Scale u η hi (|p.x| + |p.y| + |p.z|)) (rayhit out : RayHit (XF F))
    (h : traverse planeIx nodes (Ray.make origin direction minHit maxHit any) rayhit = .ok (true, out)) :
    ∃ center dx dy rotation d, coll.centers[out.primId]? = some center ∧ coll.dxs[out.primId]? = some dx ∧
      coll.dys[out.primId]? = some dy ∧ coll.rotations[out.primId]? = some rotation ∧
      IsV (Ray.make origin direction minHit maxHit any).direction d ∧
      ∀ c a b R ε L, IsV center c → dx.Is a → dy.Is b → IsM rotation R → NearOrtho ε R → ε ≤ 1 / 1000 →
        |o.x - c.x| + |o.y - c.y| + |o.z - c.z| + |a| + |b| ≤ L → Scale u η hi L →
        ∃ h, out.hitDistance.Is h ∧ 0 ≤ h ∧ ∃ y, InRect c a b R y ∧
          ∀ k, |(along o d h).get k - y.get k| ≤ 600 * u * L + 40 * ε * L := by
  obtain ⟨d, n, h1, h2, -⟩ := normalize_near hF hdir hscale
  have hquiet := plane_quiet (Ray.make origin direction minHit maxHit any)
  obtain ⟨ps, vs, rest, e1, e2, ⟨e3, e4, -⟩⟩ := traverse_tests hbuild hquiet h
  have e4 := e4 rfl
  set ray := Ray.make origin direction minHit maxHit any with hray
  obtain ⟨f1, f2⟩ := testAll_last hquiet (Inv := PlaneStart ray)
    (fun s q hs => Frame.start (planeIntersect_frame s q ray) hs) vs (planeIx.prepare ray) ⟨rfl, rfl, rfl⟩
  rw [← scan_eq_testAll] at f1 f2
  rcases f2 with f2 | ⟨q, hq, s', f3, f4⟩
  · rw [scanHit, f2, hquiet.start, XF.lt_irrefl] at e3
    cases e3
  have hqps : q ∈ ps := e2.subset (by simp [hq])
  obtain ⟨i, hi', hiq⟩ := mapM_mem_of_out e1 hqps
  obtain ⟨g0, g1, g2, g3, g4⟩ := PlaneColl.prim_ok hiq
  obtain ⟨k1, k2⟩ := Frame.post (planeIntersect_frame s' q ray) f4 (e4 : planePost _ _ = _)
  rw [k1, k2, g0]
  refine ⟨q.center, q.dx, q.dy, q.rotation, d, g1, g2, g3, g4, h1, fun c a b R ε L hc ha hb hR hε hε' hL hsc => ?_⟩
  obtain ⟨k, T, a1, a2, -, -, -, -, -, -, -, y, a3, a4⟩ := plane_hit_near hF hfa hodd hsc ray (i := s') (f3.1 ▸ ho) (f3.2.1 ▸ h1)
    ⟨hc, ha, hb, hR, hε, hL⟩ hε' (f3.2.2 ▸ hmin) hm h2 f4
  refine ⟨k, a1, a2, y, a3, fun j => (a4 j).trans_eq (by ring)⟩

end

theorem faithful_double : Format.binary64.Faithful (1 / 2 ^ 53) (1 / 2 ^ 1075) := by
  have e1 : Format.pow2 (-53) = 1 / 2 ^ 53 := by decide +kernel
  have e2 : Format.pow2 (-1075) = 1 / 2 ^ 1075 := by decide +kernel
  have h := Format.binary64_faithful
  rw [e1, e2] at h
  exact h

/-- **C81** for `double`. -/
theorem C81_double (part : StdPartition) (coll : PlaneColl Double) (opts : BuildOptions) (nodes : List (Node Double (Plane Double)))
    (stats : Statistics) (hbuild : build part coll.toCollection opts [] = .ok (nodes, stats))
    (origin direction : Vec3 Double) (minHit maxHit : Double) {any : Bool} (o p : Vec3 ℚ) (m : ℚ)
    (ho : IsV origin o) (hdir : IsV direction p) (hmin : minHit.Is m) (hm : 0 ≤ m)
    (hp1 : 1 / 2 ^ 484 ≤ |p.x| + |p.y| + |p.z|) (hp2 : |p.x| + |p.y| + |p.z| ≤ 2 ^ 500) (rayhit out : RayHit Double)
    (h : traverse planeIx nodes (Ray.make origin direction minHit maxHit any) rayhit = .ok (true, out)) :
    ∃ center dx dy rotation d, coll.centers[out.primId]? = some center ∧ coll.dxs[out.primId]? = some dx ∧
      coll.dys[out.primId]? = some dy ∧ coll.rotations[out.primId]? = some rotation ∧
      IsV (Ray.make origin direction minHit maxHit any).direction d ∧ |Vec3.dot d d - 1| ≤ 11 / 2 ^ 53 ∧
      ∀ c a b R ε L, IsV center c → dx.Is a → dy.Is b → IsM rotation R → NearOrtho ε R → ε ≤ 1 / 1000 →
        |o.x - c.x| + |o.y - c.y| + |o.z - c.z| + |a| + |b| ≤ L → 1 / 2 ^ 484 ≤ L → L ≤ 2 ^ 500 →
        ∃ h, out.hitDistance.Is h ∧ 0 ≤ h ∧ ∃ y, InRect c a b R y ∧
          ∀ k, |(along o d h).get k - y.get k| ≤ 600 / 2 ^ 53 * L + 40 * ε * L := by
  have hsc := scale_double hp1 hp2
  obtain ⟨center, dx, dy, rotation, d, h1, h2, h3, h4, h5, h6⟩ := C81_hit_on_rectangle _ _ _ rounds_double faithful_double
    Format.binary64_odd part coll opts nodes stats hbuild origin direction minHit maxHit o p m ho hdir hmin hm hsc rayhit out h
  obtain ⟨d', n, g1, g2, -⟩ := C68_direction _ _ _ rounds_double origin direction minHit maxHit any p hdir hsc
  obtain rfl := g1.unique h5
  refine ⟨center, dx, dy, rotation, _, h1, h2, h3, h4, h5, g2.trans_eq (by ring),
    fun c a b R ε L hc ha hb hR hε hε' hL hL1 hL2 => ?_⟩
  obtain ⟨k, k1, k2, y, k3, k4⟩ := h6 c a b R ε L hc ha hb hR hε hε' hL (scale_double hL1 hL2)
  exact ⟨k, k1, k2, y, k3, fun j => (k4 j).trans_eq (by ring)⟩

theorem faithful_float : Format.binary32.Faithful (1 / 2 ^ 24) (1 / 2 ^ 150) := by
  have e1 : Format.pow2 (-24) = 1 / 2 ^ 24 := by decide +kernel
  have e2 : Format.pow2 (-150) = 1 / 2 ^ 150 := by decide +kernel
  have h := Format.binary32_faithful
  rw [e1, e2] at h
  exact h

/-- **C81** for `float`. -/
theorem C81_float (part : StdPartition) (coll : PlaneColl Single) (opts : BuildOptions) (nodes : List (Node Single (Plane Single)))
    (stats : Statistics) (hbuild : build part coll.toCollection opts [] = .ok (nodes, stats))
    (origin direction : Vec3 Single) (minHit maxHit : Single) {any : Bool} (o p : Vec3 ℚ) (m : ℚ)
    (ho : IsV origin o) (hdir : IsV direction p) (hmin : minHit.Is m) (hm : 0 ≤ m)
    (hp1 : 1 / 2 ^ 51 ≤ |p.x| + |p.y| + |p.z|) (hp2 : |p.x| + |p.y| + |p.z| ≤ 2 ^ 60) (rayhit out : RayHit Single)
    (h : traverse planeIx nodes (Ray.make origin direction minHit maxHit any) rayhit = .ok (true, out)) :
    ∃ center dx dy rotation d, coll.centers[out.primId]? = some center ∧ coll.dxs[out.primId]? = some dx ∧
      coll.dys[out.primId]? = some dy ∧ coll.rotations[out.primId]? = some rotation ∧
      IsV (Ray.make origin direction minHit maxHit any).direction d ∧ |Vec3.dot d d - 1| ≤ 11 / 2 ^ 24 ∧
      ∀ c a b R ε L, IsV center c → dx.Is a → dy.Is b → IsM rotation R → NearOrtho ε R → ε ≤ 1 / 1000 →
        |o.x - c.x| + |o.y - c.y| + |o.z - c.z| + |a| + |b| ≤ L → 1 / 2 ^ 51 ≤ L → L ≤ 2 ^ 60 →
        ∃ h, out.hitDistance.Is h ∧ 0 ≤ h ∧ ∃ y, InRect c a b R y ∧
          ∀ k, |(along o d h).get k - y.get k| ≤ 600 / 2 ^ 24 * L + 40 * ε * L := by
  have hsc := scale_float hp1 hp2
  obtain ⟨center, dx, dy, rotation, d, h1, h2, h3, h4, h5, h6⟩ := C81_hit_on_rectangle _ _ _ rounds_float faithful_float
    Format.binary32_odd part coll opts nodes stats hbuild origin direction minHit maxHit o p m ho hdir hmin hm hsc rayhit out h
  obtain ⟨d', n, g1, g2, -⟩ := C68_direction _ _ _ rounds_float origin direction minHit maxHit any p hdir hsc
  obtain rfl := g1.unique h5
  refine ⟨center, dx, dy, rotation, _, h1, h2, h3, h4, h5, g2.trans_eq (by ring),
    fun c a b R ε L hc ha hb hR hε hε' hL hL1 hL2 => ?_⟩
  obtain ⟨k, k1, k2, y, k3, k4⟩ := h6 c a b R ε L hc ha hb hR hε hε' hL (scale_float hL1 hL2)
  exact ⟨k, k1, k2, y, k3, fun j => (k4 j).trans_eq (by ring)⟩

/-! ### Examples -/

/-- a rotation of about 53 degrees around the y axis; its entries are not exact, so that it is none -/
def tilt : Mat3 Double := ⟨dvec (3/5) 0 (4/5), dvec 0 1 0, dvec (-4/5) 0 (3/5)⟩

def idMat : Mat3 Double := ⟨dvec 1 0 0, dvec 0 1 0, dvec 0 0 1⟩

/-- two rectangles, one tilted, one above it -/
def samplePlanes : PlaneColl Double :=
  { centers := [dvec 0 0 0, dvec 1 0 5]
    dxs := [dbl 4, dbl 8]
    dys := [dbl 2, dbl 3]
    rotations := [tilt, idMat]
    boxes := [planeBox (dvec 0 0 0) (dbl 4) (dbl 2) tilt, planeBox (dvec 1 0 5) (dbl 8) (dbl 3) idMat] }

/-- a slanted ray from below -/
def samplePlaneRay : Ray Double := Ray.make (dvec (1/4) (1/8) (-5)) (dvec (1/16) (1/32) 1) (dbl 0) (dbl 100) false

/-- it hits the tilted rectangle first -/
example : evalOk (do
      let (nodes, _) ← build stablePartition samplePlanes.toCollection smallOptions []
      traverse planeIx nodes samplePlaneRay RayHit.fresh)
    (fun r => r.1 && r.2.primId == 0) = true := by decide +kernel

/-- the tilted matrix, in numbers -/
def tiltQ : Mat3 ℚ :=
  ⟨⟨5404319552844595 / 2 ^ 53, 0, 3602879701896397 / 2 ^ 52⟩, ⟨0, 1, 0⟩, ⟨-(3602879701896397 / 2 ^ 52), 0, 5404319552844595 / 2 ^ 53⟩⟩

theorem tilt_is : IsM tilt tiltQ := by
  have dv : ∀ x y z x' y' z' : ℚ, ∀ sx sy sz, dvec x y z = ⟨.fin x' sx, .fin y' sy, .fin z' sz⟩ →
      IsV (dvec x y z) ⟨x', y', z'⟩ := by
    intro x y z x' y' z' sx sy sz e
    rw [e]
    exact ⟨⟨_, rfl⟩, ⟨_, rfl⟩, ⟨_, rfl⟩⟩
  exact ⟨dv _ _ _ _ _ _ false false false (by decide +kernel), dv _ _ _ _ _ _ false false false (by decide +kernel),
    dv _ _ _ _ _ _ true false false (by decide +kernel)⟩

theorem tilt_near : NearOrtho (1 / 2 ^ 52) tiltQ := by
  refine ⟨⟨?_, ?_, ?_, ?_, ?_, ?_⟩, ⟨?_, ?_, ?_, ?_, ?_, ?_⟩⟩ <;> decide +kernel

/-- The point that this ray reports is on the rectangle up to `10^-11`. -/
example (part : StdPartition) (opts : BuildOptions) (nodes : List (Node Double (Plane Double))) (stats : Statistics)
    (hbuild : build part samplePlanes.toCollection opts [] = .ok (nodes, stats)) (out : RayHit Double)
    (h : traverse planeIx nodes samplePlaneRay RayHit.fresh = .ok (true, out)) (hid : out.primId = 0) :
    ∃ d h y, IsV samplePlaneRay.direction d ∧ out.hitDistance.Is h ∧ InRect ⟨0, 0, 0⟩ 4 2 tiltQ y ∧
      ∀ k, |(along ⟨1/4, 1/8, -5⟩ d h).get k - y.get k| ≤ 1 / 10 ^ 11 := by
  have dv : ∀ x y z x' y' z' : ℚ, ∀ sx sy sz, dvec x y z = ⟨.fin x' sx, .fin y' sy, .fin z' sz⟩ →
      IsV (dvec x y z) ⟨x', y', z'⟩ := by
    intro x y z x' y' z' sx sy sz e
    rw [e]
    exact ⟨⟨_, rfl⟩, ⟨_, rfl⟩, ⟨_, rfl⟩⟩
  obtain ⟨c, dx, dy, R, d, h1, h2, h3, h4, h5, -, h6⟩ := C81_double part samplePlanes opts nodes stats hbuild _ _ (dbl 0) _
    ⟨1/4, 1/8, -5⟩ ⟨1/16, 1/32, 1⟩ 0 (dv _ _ _ _ _ _ false false true (by decide +kernel))
    (dv _ _ _ _ _ _ false false false (by decide +kernel))
    ⟨false, by decide +kernel⟩ le_rfl (by decide +kernel) (by decide +kernel) RayHit.fresh out h
  rw [hid] at h1 h2 h3 h4
  cases h1
  cases h2
  cases h3
  cases h4
  obtain ⟨k, k1, -, y, k3, k4⟩ := h6 ⟨0, 0, 0⟩ 4 2 tiltQ _ 20 (dv _ _ _ _ _ _ false false false (by decide +kernel))
    ⟨false, by decide +kernel⟩ ⟨false, by decide +kernel⟩ tilt_is tilt_near (by decide +kernel) (by decide +kernel)
    (by decide +kernel) (by decide +kernel)
  exact ⟨d, k, y, h5, k1, k3, fun j => (k4 j).trans (by norm_num)⟩

end Blazert
