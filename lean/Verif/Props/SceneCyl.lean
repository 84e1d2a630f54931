/- C80 and C85 for scenes with cylinders. -/
import Verif.Props.CylQuery
import Verif.Props.AnyRound

set_option autoImplicit false

namespace Blazert
open Scalar

/-- **C80**, cylinders, for `double`: C106 in a scene that may contain further geometry of any kind, committed any number of times. -/
theorem C80_cylinder_double {s : Scene Double} {rs : List Nat} (hist : History s rs) (hcom : s.committed = true)
    (q : Part (CylColl Double) Double (Cylinder Double)) (hq : s.cylinders = some q) (ε L : ℚ) (hε : ε ≤ 1 / 1000)
    (origin direction : Vec3 Double) (minHit maxHit : Double) (o p : Vec3 ℚ) (m : ℚ)
    (ho : IsV origin o) (hdir : IsV direction p) (hmin : minHit.Is m) (hm : 0 ≤ m) (hneg : ∀ i, direction.get i ≠ .fin 0 true)
    (hp1 : 1 / 2 ^ 484 ≤ |p.x| + |p.y| + |p.z|) (hp2 : |p.x| + |p.y| + |p.z| ≤ 2 ^ 500)
    (hharm : Harmless q.coll.toCollection (1 / 2 ^ 1022) ((2 - 1 / 2 ^ 52) * 2 ^ 1023) o p)
    (hall : TubesWithin (1 / 2 ^ 53) (1 / 2 ^ 1075) ((2 - 1 / 2 ^ 52) * 2 ^ 1023) (1 / 2 ^ 100) (1 / 2 ^ 150) ε L q.coll o
      (Ray.make origin direction minHit maxHit false).direction)
    (j : Nat) (center : Vec3 Double) (fa fb fh : Double) (rotation : Mat3 Double) (hcj : q.coll.centers[j]? = some center)
    (haj : q.coll.as[j]? = some fa) (hbj : q.coll.bs[j]? = some fb) (hhj : q.coll.heights[j]? = some fh)
    (hrj : q.coll.rotations[j]? = some rotation)
    (c : Vec3 ℚ) (a b h : ℚ) (R : Mat3 ℚ) (hc : IsV center c) (ha : fa.Is a) (hb : fb.Is b) (hh : fh.Is h) (hR : IsM rotation R)
    (d : Vec3 ℚ) (hd : IsV (Ray.make origin direction minHit maxHit false).direction d)
    (hin : (∃ s t, EntersCylinder a b h (300 * (1 / 2 ^ 53 * ((a ^ 2 + b ^ 2) * L ^ 2))) (50 * (1 / 2 ^ 53 * L)) (R.trans.mulVec (o - c)) (R.trans.mulVec d) s t) ∨
      InsideCylinder a b h (300 * (1 / 2 ^ 53 * ((a ^ 2 + b ^ 2) * L ^ 2))) (50 * (1 / 2 ^ 53 * L)) (R.trans.mulVec (o - c)))
    (box : Vec3 Double × Vec3 Double) (mn mx : Vec3 ℚ) (hbox : q.coll.boxes[j]? = some box) (hmn : IsV box.1 mn) (hmx : IsV box.2 mx)
    (w : ℚ) (hw0 : 0 ≤ w) (hw1 : m ≤ w) (hw : InBox mn mx (along o p w))
    (hmax : maxHit = .inf false ∨ ∃ X, maxHit.Is X ∧ 4 * L < X ∧ w * (1 + 1 / 2 ^ 53) ^ 3 ≤ X)
    (rh0 out : RayHit Double) (hit : Bool) (hrh : rh0.hitDistance = .inf false ∨ ∃ X, rh0.hitDistance.Is X ∧ 4 * L < X)
    (h : s.intersect1 (Ray.make origin direction minHit maxHit false) rh0 = .ok (hit, out)) :
    hit = true ∧ ∃ k, out.hitDistance.Is k ∧ 0 ≤ k ∧ k ≤ 4 * L := by
  have hf := hist.first.cylinders
  rw [hcom, hq] at hf
  obtain ⟨part, nodes, stats, hbuild, htr⟩ := hf.query (I := PlaneI Double)
  obtain ⟨⟨hit', r'⟩, hr'⟩ := ((intersect1_defined s _ rh0).1 ⟨_, h⟩).cylinders q hq
  rw [htr] at hr'
  obtain ⟨rfl, x, hx, -, hle⟩ := C106_double ε L hε part q.coll s.options nodes stats hbuild origin direction minHit maxHit o p m ho hdir hmin
    hneg hp1 hp2 hharm hall j center fa fb fh rotation hcj haj hbj hhj hrj c a b _ R hc ha hb hh hR d hd hin box mn mx hbox hmn hmx w hw0 hw1 hw
    hmax RayHit.fresh r' hit' hr'
  obtain ⟨g1, t, g2, g3, g4⟩ := scene_at_most Format.binary64_signed hist hcom (Ray.make origin direction minHit maxHit false) m hmin hm
    rh0 out { r' with geomId := q.geomId } hit h (.inr (.inr (.inr ⟨q, r', hq, by rw [htr]; exact hr', rfl⟩))) x hx
    (hrh.imp id fun ⟨M, hM, hlt⟩ => ⟨M, hM, hle.trans_lt hlt⟩)
  exact ⟨g1, t, g2, g3, g4.trans hle⟩

/-- **C80**, cylinders, for `float`: C106 in a scene that may contain further geometry of any kind, committed any number of times. -/
theorem C80_cylinder_float {s : Scene Single} {rs : List Nat} (hist : History s rs) (hcom : s.committed = true)
    (q : Part (CylColl Single) Single (Cylinder Single)) (hq : s.cylinders = some q) (ε L : ℚ) (hε : ε ≤ 1 / 1000)
    (origin direction : Vec3 Single) (minHit maxHit : Single) (o p : Vec3 ℚ) (m : ℚ)
    (ho : IsV origin o) (hdir : IsV direction p) (hmin : minHit.Is m) (hm : 0 ≤ m) (hneg : ∀ i, direction.get i ≠ .fin 0 true)
    (hp1 : 1 / 2 ^ 51 ≤ |p.x| + |p.y| + |p.z|) (hp2 : |p.x| + |p.y| + |p.z| ≤ 2 ^ 60)
    (hharm : Harmless q.coll.toCollection (1 / 2 ^ 126) ((2 - 1 / 2 ^ 23) * 2 ^ 127) o p)
    (hall : TubesWithin (1 / 2 ^ 24) (1 / 2 ^ 150) ((2 - 1 / 2 ^ 23) * 2 ^ 127) (1 / 2 ^ 10) (1 / 2 ^ 20) ε L q.coll o
      (Ray.make origin direction minHit maxHit false).direction)
    (j : Nat) (center : Vec3 Single) (fa fb fh : Single) (rotation : Mat3 Single) (hcj : q.coll.centers[j]? = some center)
    (haj : q.coll.as[j]? = some fa) (hbj : q.coll.bs[j]? = some fb) (hhj : q.coll.heights[j]? = some fh)
    (hrj : q.coll.rotations[j]? = some rotation)
    (c : Vec3 ℚ) (a b h : ℚ) (R : Mat3 ℚ) (hc : IsV center c) (ha : fa.Is a) (hb : fb.Is b) (hh : fh.Is h) (hR : IsM rotation R)
    (d : Vec3 ℚ) (hd : IsV (Ray.make origin direction minHit maxHit false).direction d)
    (hin : (∃ s t, EntersCylinder a b h (300 * (1 / 2 ^ 24 * ((a ^ 2 + b ^ 2) * L ^ 2))) (50 * (1 / 2 ^ 24 * L)) (R.trans.mulVec (o - c)) (R.trans.mulVec d) s t) ∨
      InsideCylinder a b h (300 * (1 / 2 ^ 24 * ((a ^ 2 + b ^ 2) * L ^ 2))) (50 * (1 / 2 ^ 24 * L)) (R.trans.mulVec (o - c)))
    (box : Vec3 Single × Vec3 Single) (mn mx : Vec3 ℚ) (hbox : q.coll.boxes[j]? = some box) (hmn : IsV box.1 mn) (hmx : IsV box.2 mx)
    (w : ℚ) (hw0 : 0 ≤ w) (hw1 : m ≤ w) (hw : InBox mn mx (along o p w))
    (hmax : maxHit = .inf false ∨ ∃ X, maxHit.Is X ∧ 4 * L < X ∧ w * (1 + 1 / 2 ^ 24) ^ 3 ≤ X)
    (rh0 out : RayHit Single) (hit : Bool) (hrh : rh0.hitDistance = .inf false ∨ ∃ X, rh0.hitDistance.Is X ∧ 4 * L < X)
    (h : s.intersect1 (Ray.make origin direction minHit maxHit false) rh0 = .ok (hit, out)) :
    hit = true ∧ ∃ k, out.hitDistance.Is k ∧ 0 ≤ k ∧ k ≤ 4 * L := by
  have hf := hist.first.cylinders
  rw [hcom, hq] at hf
  obtain ⟨part, nodes, stats, hbuild, htr⟩ := hf.query (I := PlaneI Single)
  obtain ⟨⟨hit', r'⟩, hr'⟩ := ((intersect1_defined s _ rh0).1 ⟨_, h⟩).cylinders q hq
  rw [htr] at hr'
  obtain ⟨rfl, x, hx, -, hle⟩ := C106_float ε L hε part q.coll s.options nodes stats hbuild origin direction minHit maxHit o p m ho hdir hmin
    hneg hp1 hp2 hharm hall j center fa fb fh rotation hcj haj hbj hhj hrj c a b _ R hc ha hb hh hR d hd hin box mn mx hbox hmn hmx w hw0 hw1 hw
    hmax RayHit.fresh r' hit' hr'
  obtain ⟨g1, t, g2, g3, g4⟩ := scene_at_most Format.binary32_signed hist hcom (Ray.make origin direction minHit maxHit false) m hmin hm
    rh0 out { r' with geomId := q.geomId } hit h (.inr (.inr (.inr ⟨q, r', hq, by rw [htr]; exact hr', rfl⟩))) x hx
    (hrh.imp id fun ⟨M, hM, hlt⟩ => ⟨M, hM, hle.trans_lt hlt⟩)
  exact ⟨g1, t, g2, g3, g4.trans hle⟩

section
variable {K : Type} [Field K] [LinearOrder K] [IsStrictOrderedRing K] [FloorRing K] {F : Fmt K}

/-- **C85**, general, scenes with geometry of all four kinds.  As `C85_same_answer`, for formats that round monotonically, where the scene may also have
cylinders of moderate size, with the origin of the ray clear of their tubes. -/
theorem C85_all_kinds (u η lo lo' hi ν μ : K) (hF : F.Rounds u η hi) (hF' : F.Relative u lo hi) (hfa : F.Faithful u η)
    (hodd : F.Odd) (hord : F.Ordered) (L ε ℓ B : K) (hs : Scale3 u η hi lo' L) (hε : ε ≤ 1 / 1000) (hℓ : lo' ≤ ℓ)
    {s : Scene (XF F)} {rs : List Nat} (hist : History s rs) (hcom : s.committed = true)
    (origin direction : Vec3 (XF F)) (minHit maxHit : XF F) (o p : Vec3 K) (m : K)
    (ho : IsV origin o) (hdir : IsV direction p) (hmin : minHit.Is m) (hm : 0 ≤ m) (hmL : 2 * L ^ 2 * m ≤ hi)
    (hscale : Scale u η hi (|p.x| + |p.y| + |p.z|))
    (hsize : SceneWithin { s with cylinders := none } o (Vec3.normalize direction) L ε ℓ)
    (hcyl : ∀ q, s.cylinders = some q → TubesWithin u η hi ν μ ε L q.coll o (Vec3.normalize direction))
    (hB : 4 * L ≤ B) (hB' : s.mesh.isSome → 2 * L ^ 3 ≤ B * ℓ) (rh0 rh1 out out' : RayHit (XF F)) (hit hit' : Bool)
    (hmax : ∀ x ∈ [maxHit, rh0.hitDistance, rh1.hitDistance], Exceeds x B)
    (h : s.intersect1 (Ray.make origin direction minHit maxHit false) rh0 = .ok (hit, out))
    (h' : s.intersect1 (Ray.make origin direction minHit maxHit true) rh1 = .ok (hit', out')) : hit = hit' := by
  obtain ⟨d, n, h1, h2, -⟩ := normalize_near hF hdir hscale
  obtain ⟨e1, e2, e3, -⟩ := hsize
  have f4 := hist.first.cylinders
  rw [hcom] at f4
  refine same_but_cylinders hF hF' hfa hodd hs hε hℓ hist hcom ho hdir hmin hm hmL hscale e1 e2 e3 ?_ hB hB' hmax h h'
  refine PartSame.of_accept (ray := Ray.make origin direction minHit maxHit false) rfl rfl f4 (fun c => cylinder_quiet _)
    (fun c => cylinder_quiet _) (fun _ _ _ => rfl) (fun _ => rfl) (fun c s rh rh' h => ?_)
    (Inv := fun _ => PlaneStart (Ray.make origin direction minHit maxHit false)) (fun c => ⟨rfl, rfl, rfl⟩)
    (fun c s q hs => Frame.start (cylIntersect_frame s q (Ray.make origin direction minHit maxHit false)) hs) (hmax maxHit (by simp)) ?_
  · obtain rfl := Except.ok.inj h
    rfl
  intro x hx s i q hj hs' ha
  obtain ⟨-, g1, g2, g3, g4, g5⟩ := CylColl.prim_ok hj
  obtain ⟨c, a, b, h', R, k1, k2⟩ := hcyl x hx i _ _ _ _ _ g1 g2 g3 g4 g5
  have k3 : TubeWithin u η hi ν μ ε L o q.center q.a q.b q.height q.rotation s.rayDir c a b h' R := by
    rw [hs'.2.1]
    exact k1
  obtain ⟨y, y1, -, y2, -⟩ := cyl_hit_near hF hfa hodd hord (Ray.make origin direction minHit maxHit false) (i := s) (hs'.1 ▸ ho) (hs'.2.1 ▸ h1)
    (k3.cyl k2) hε h2 (Prod.ext rfl ha)
  exact ⟨y, y1, y2.trans hB⟩

end

/-- **C85** for `double`, scenes with geometry of all four kinds. -/
theorem C85_all_kinds_double (L ε ℓ B : ℚ) (hL1 : 1 / 2 ^ 100 ≤ L) (hL2 : L ≤ 2 ^ 100) (hε : ε ≤ 1 / 1000) (hℓ : 1 / 2 ^ 700 ≤ ℓ)
    {s : Scene Double} {rs : List Nat} (hist : History s rs) (hcom : s.committed = true)
    (origin direction : Vec3 Double) (minHit maxHit : Double) (o p : Vec3 ℚ) (m : ℚ)
    (ho : IsV origin o) (hdir : IsV direction p) (hmin : minHit.Is m) (hm : 0 ≤ m) (hmL : 2 * L ^ 2 * m ≤ (2 - 1 / 2 ^ 52) * 2 ^ 1023)
    (hp1 : 1 / 2 ^ 484 ≤ |p.x| + |p.y| + |p.z|) (hp2 : |p.x| + |p.y| + |p.z| ≤ 2 ^ 500)
    (hsize : SceneWithin { s with cylinders := none } o (Vec3.normalize direction) L ε ℓ)
    (hcyl : ∀ q, s.cylinders = some q → TubesWithin (1 / 2 ^ 53) (1 / 2 ^ 1075) ((2 - 1 / 2 ^ 52) * 2 ^ 1023) (1 / 2 ^ 100) (1 / 2 ^ 150) ε L q.coll o
      (Vec3.normalize direction))
    (hB : 4 * L ≤ B) (hB' : s.mesh.isSome → 2 * L ^ 3 ≤ B * ℓ) (rh0 rh1 out out' : RayHit Double) (hit hit' : Bool)
    (hmax : ∀ x ∈ [maxHit, rh0.hitDistance, rh1.hitDistance], Exceeds x B)
    (h : s.intersect1 (Ray.make origin direction minHit maxHit false) rh0 = .ok (hit, out))
    (h' : s.intersect1 (Ray.make origin direction minHit maxHit true) rh1 = .ok (hit', out')) : hit = hit' :=
  C85_all_kinds _ _ _ _ _ _ _ rounds_double relative_double faithful_double Format.binary64_odd Format.binary64_ordered L ε ℓ B (scale3_double hL1 hL2) hε hℓ
    hist hcom origin direction minHit maxHit o p m ho hdir hmin hm hmL (scale_double hp1 hp2) hsize hcyl hB hB' rh0 rh1 out out' hit hit'
    hmax h h'

/-- **C85** for `float`, scenes with geometry of all four kinds. -/
theorem C85_all_kinds_float (L ε ℓ B : ℚ) (hL1 : 1 / 2 ^ 20 ≤ L) (hL2 : L ≤ 2 ^ 15) (hε : ε ≤ 1 / 1000) (hℓ : 1 / 2 ^ 80 ≤ ℓ)
    {s : Scene Single} {rs : List Nat} (hist : History s rs) (hcom : s.committed = true)
    (origin direction : Vec3 Single) (minHit maxHit : Single) (o p : Vec3 ℚ) (m : ℚ)
    (ho : IsV origin o) (hdir : IsV direction p) (hmin : minHit.Is m) (hm : 0 ≤ m) (hmL : 2 * L ^ 2 * m ≤ (2 - 1 / 2 ^ 23) * 2 ^ 127)
    (hp1 : 1 / 2 ^ 51 ≤ |p.x| + |p.y| + |p.z|) (hp2 : |p.x| + |p.y| + |p.z| ≤ 2 ^ 60)
    (hsize : SceneWithin { s with cylinders := none } o (Vec3.normalize direction) L ε ℓ)
    (hcyl : ∀ q, s.cylinders = some q → TubesWithin (1 / 2 ^ 24) (1 / 2 ^ 150) ((2 - 1 / 2 ^ 23) * 2 ^ 127) (1 / 2 ^ 10) (1 / 2 ^ 20) ε L q.coll o
      (Vec3.normalize direction))
    (hB : 4 * L ≤ B) (hB' : s.mesh.isSome → 2 * L ^ 3 ≤ B * ℓ) (rh0 rh1 out out' : RayHit Single) (hit hit' : Bool)
    (hmax : ∀ x ∈ [maxHit, rh0.hitDistance, rh1.hitDistance], Exceeds x B)
    (h : s.intersect1 (Ray.make origin direction minHit maxHit false) rh0 = .ok (hit, out))
    (h' : s.intersect1 (Ray.make origin direction minHit maxHit true) rh1 = .ok (hit', out')) : hit = hit' :=
  C85_all_kinds _ _ _ _ _ _ _ rounds_float relative_float faithful_float Format.binary32_odd Format.binary32_ordered L ε ℓ B (scale3_float hL1 hL2) hε hℓ
    hist hcom origin direction minHit maxHit o p m ho hdir hmin hm hmL (scale_float hp1 hp2) hsize hcyl hB hB' rh0 rh1 out out' hit hit'
    hmax h h'

/-! ### Examples -/

deriving instance DecidableEq for Mat3
deriving instance DecidableEq for CylColl

/-- the two cylinders of the examples of C89 and a sphere -/
def tubesAndSphere : List (Call Double) :=
  [.addCylinders sampleTubes.centers sampleTubes.as sampleTubes.bs sampleTubes.heights sampleTubes.rotations, .addSpheres [dvec 0 0 15] [dbl 1], .commit]

/-- The hypotheses of C80 and C85 are met by this scene and the slanted ray: it is found, and a query for any hit finds something as well. -/
example : ∃ s rs hit out hit' out', History s rs ∧ s.committed = true ∧
    s.intersect1 sampleTubeRay RayHit.fresh = .ok (hit, out) ∧
    s.intersect1 { sampleTubeRay with anyHit := true } RayHit.fresh = .ok (hit', out') ∧ hit = true ∧ hit' = true := by
  obtain ⟨s, h1, h2, h3, h4, h5, h6, h7, h8⟩ := exists_ok_of_eval (x := runCalls stablePartition tubesAndSphere)
    (q := fun s => s.committed = true ∧ s.cylinders.map Part.coll = some sampleTubes ∧
      s.spheres.map (fun q => (q.coll.centers, q.coll.radii)) = some ([dvec 0 0 15], [dbl 1]) ∧ s.planes.isNone = true ∧ s.mesh.isNone = true ∧
      evalOk (s.intersect1 sampleTubeRay RayHit.fresh) (fun _ => true) = true ∧
      evalOk (s.intersect1 { sampleTubeRay with anyHit := true } RayHit.fresh) (fun _ => true) = true)
    (by decide +kernel)
  obtain ⟨rs, hs⟩ := runCalls_history h1
  obtain ⟨⟨hit, out⟩, hr, -⟩ := exists_ok_of_eval (x := s.intersect1 sampleTubeRay RayHit.fresh) (q := fun _ => True) (by simpa using h7)
  obtain ⟨⟨hit', out'⟩, hr', -⟩ := exists_ok_of_eval (x := s.intersect1 { sampleTubeRay with anyHit := true } RayHit.fresh) (q := fun _ => True)
    (by simpa using h8)
  have f0 : IsV (dvec 0 0 0) ⟨0, 0, 0⟩ := ⟨⟨false, by decide +kernel⟩, ⟨false, by decide +kernel⟩, ⟨false, by decide +kernel⟩⟩
  have f1 : (dbl 1).Is 1 := ⟨false, by decide +kernel⟩
  have f2 : (dbl 2).Is 2 := ⟨false, by decide +kernel⟩
  have f3 : (dbl 3).Is 3 := ⟨false, by decide +kernel⟩
  have fo : IsV (dvec (1/4) (1/8) (-5)) ⟨1/4, 1/8, -5⟩ := ⟨⟨false, by decide +kernel⟩, ⟨false, by decide +kernel⟩, ⟨true, by decide +kernel⟩⟩
  have fp : IsV (dvec (1/16) (1/32) 1) ⟨1/16, 1/32, 1⟩ := ⟨⟨false, by decide +kernel⟩, ⟨false, by decide +kernel⟩, ⟨false, by decide +kernel⟩⟩
  obtain ⟨q, hq, hcoll⟩ : ∃ q, s.cylinders = some q ∧ q.coll = sampleTubes := by
    cases hc : s.cylinders with
    | none => rw [hc] at h3; cases h3
    | some q => rw [hc] at h3; exact ⟨q, rfl, Option.some.inj h3⟩
  have hx : Exceeds RayHit.fresh.hitDistance (99 : ℚ) := .inr ⟨Format.binary64.maxVal, ⟨false, rfl⟩, by decide +kernel⟩
  have key := (C80_cylinder_double hs h2 q hq (1 / 2 ^ 52) 24 (by decide +kernel) (dvec (1/4) (1/8) (-5)) (dvec (1/16) (1/32) 1)
    (dbl 0) (dbl 100) ⟨1/4, 1/8, -5⟩ ⟨1/16, 1/32, 1⟩ 0 fo fp ⟨false, by decide +kernel⟩ le_rfl (by decide +kernel)
    (by decide +kernel) (by decide +kernel) (hcoll ▸ tubes_harmless) (hcoll ▸ sample_tubesWithin)
    0 _ _ _ _ _ (hcoll ▸ rfl) (hcoll ▸ rfl) (hcoll ▸ rfl) (hcoll ▸ rfl) (hcoll ▸ rfl) ⟨0, 0, 0⟩ 1 2 3 tiltQ f0 f1 f2 f3 tilt_is
    ⟨4492644613268073 / 72057594037927936, 4492644613268073 / 144115188075855872, 4492644613268073 / 4503599627370496⟩
    ⟨⟨false, by decide +kernel⟩, ⟨false, by decide +kernel⟩, ⟨false, by decide +kernel⟩⟩
    (.inl ⟨7 / 2, 5, .tube (by decide +kernel) (by decide +kernel) (by decide +kernel) (by decide +kernel) ⟨by decide +kernel, by decide +kernel⟩
      (by decide +kernel)⟩) _ (isVof (cylBox (dvec 0 0 0) (dbl 1) (dbl 2) (dbl 3) tilt).1) (isVof (cylBox (dvec 0 0 0) (dbl 1) (dbl 2) (dbl 3) tilt).2)
    (hcoll ▸ rfl) (isVof_is (by decide +kernel)) (isVof_is (by decide +kernel)) 5 (by decide +kernel) (by decide +kernel) (by unfold InBox; decide +kernel)
    (.inr ⟨100, ⟨false, by decide +kernel⟩, by decide +kernel, by decide +kernel⟩) RayHit.fresh out hit
    (.inr ⟨Format.binary64.maxVal, ⟨false, rfl⟩, by decide +kernel⟩) hr).1
  have hsize : SceneWithin { s with cylinders := none } (⟨1/4, 1/8, -5⟩ : Vec3 ℚ) (Vec3.normalize (dvec (1/16) (1/32) 1)) 24 (1 / 2 ^ 52) (1 / 2 ^ 700) := by
    refine ⟨fun q hq => ?_, fun q hq => ?_, fun q hq => ?_, rfl⟩
    · change s.spheres = some q at hq
      rw [hq, Option.map_some, Option.some.injEq, Prod.mk.injEq] at h4
      intro i center radius hc hr
      rw [h4.1] at hc
      rw [h4.2] at hr
      have hi : i < 1 := (List.getElem?_eq_some_iff.1 hc).1
      interval_cases i
      cases hc; cases hr
      exact ⟨⟨0, 0, 15⟩, 1, ⟨⟨false, by decide +kernel⟩, ⟨false, by decide +kernel⟩, ⟨false, by decide +kernel⟩⟩, f1, by decide +kernel⟩
    · change s.planes = some q at hq
      rw [hq] at h5; cases h5
    · change s.mesh = some q at hq
      rw [hq] at h6; cases h6
  refine ⟨s, rs, hit, out, hit', out', hs, h2, hr, hr', key, ?_⟩
  rw [← key]
  refine (C85_all_kinds_double 24 (1 / 2 ^ 52) (1 / 2 ^ 700) 99 (by decide +kernel) (by decide +kernel) (by decide +kernel) le_rfl hs h2
    (dvec (1/4) (1/8) (-5)) (dvec (1/16) (1/32) 1) (dbl 0) (dbl 100) ⟨1/4, 1/8, -5⟩ ⟨1/16, 1/32, 1⟩ 0 fo fp ⟨false, by decide +kernel⟩ le_rfl
    (by decide +kernel) (by decide +kernel) (by decide +kernel) hsize (fun x hx => ?_) (by norm_num) (fun hm => ?_) RayHit.fresh RayHit.fresh out out' hit hit'
    ?_ hr hr').symm
  · rw [hq, Option.some.injEq] at hx
    rw [← hx, hcoll]
    exact sample_tubesWithin
  · rw [Option.isNone_iff_eq_none.1 h6] at hm
    cases hm
  · simp only [List.mem_cons, List.not_mem_nil, or_false]
    rintro x (rfl | rfl | rfl)
    · exact .inr ⟨100, ⟨false, by decide +kernel⟩, by norm_num⟩
    · exact hx
    · exact hx

end Blazert
