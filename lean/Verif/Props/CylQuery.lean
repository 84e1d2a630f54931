/- C106: queries on cylinders lose no clear hit. -/
import Verif.Props.CylFound
import Verif.Props.Tested

set_option autoImplicit false

namespace Blazert
open Scalar

section
variable {K : Type} [Field K] [LinearOrder K] [IsStrictOrderedRing K] [FloorRing K] {F : Fmt K}

/-- **C106**, general.  In any format that rounds monotonically, and whose finite results are accurate: let all cylinders of the collection be
of moderate size, with the origin of the ray clear of their tubes.  If the ray clearly enters one of them, or begins clearly
inside it, and meets its bounding box at a parameter `w` within the limits, then whatever was built and however the query went: it
reports a hit, at a distance of at most `4 L`. -/
theorem C106_reported (u η lo hi ν μ ε L : K) (hF : F.Rounds u η hi) (hfa : F.Faithful u η) (hodd : F.Odd) (hord : F.Ordered)
    (hF' : F.Relative u lo hi) (hlo : 0 ≤ lo) (hε : ε ≤ 1 / 1000) (part : StdPartition) (coll : CylColl (XF F)) (opts : BuildOptions)
    (nodes : List (Node (XF F) (Cylinder (XF F)))) (stats : Statistics)
    (hbuild : build part coll.toCollection opts [] = .ok (nodes, stats))
    (origin direction : Vec3 (XF F)) (minHit maxHit : XF F) (o p : Vec3 K) (m : K)
    (ho : IsV origin o) (hdir : IsV direction p) (hmin : minHit.Is m) (hneg : ∀ i, direction.get i ≠ .fin 0 true)
    (hscale : Scale u η hi (|p.x| + |p.y| + |p.z|)) (hharm : Harmless coll.toCollection lo hi o p)
    (hall : TubesWithin u η hi ν μ ε L coll o (Ray.make origin direction minHit maxHit false).direction)
    (j : Nat) (center : Vec3 (XF F)) (fa fb fh : XF F) (rotation : Mat3 (XF F)) (hcj : coll.centers[j]? = some center)
    (haj : coll.as[j]? = some fa) (hbj : coll.bs[j]? = some fb) (hhj : coll.heights[j]? = some fh) (hrj : coll.rotations[j]? = some rotation)
    (c : Vec3 K) (a b h : K) (R : Mat3 K) (hc : IsV center c) (ha : fa.Is a) (hb : fb.Is b) (hh : fh.Is h) (hR : IsM rotation R)
    (d : Vec3 K) (hd : IsV (Ray.make origin direction minHit maxHit false).direction d)
    (hin : (∃ s t, EntersCylinder a b h (300 * (u * ((a ^ 2 + b ^ 2) * L ^ 2))) (50 * (u * L)) (R.trans.mulVec (o - c)) (R.trans.mulVec d) s t) ∨
      InsideCylinder a b h (300 * (u * ((a ^ 2 + b ^ 2) * L ^ 2))) (50 * (u * L)) (R.trans.mulVec (o - c)))
    (box : Vec3 (XF F) × Vec3 (XF F)) (mn mx : Vec3 K) (hbox : coll.boxes[j]? = some box) (hmn : IsV box.1 mn) (hmx : IsV box.2 mx)
    (w : K) (hw0 : 0 ≤ w) (hw1 : m ≤ w) (hw : InBox mn mx (along o p w))
    (hmax : maxHit = .inf false ∨ ∃ X, maxHit.Is X ∧ 4 * L < X ∧ w * (1 + u) ^ 3 ≤ X)
    (rayhit out : RayHit (XF F)) (hit : Bool)
    (h : traverse cylIx nodes (Ray.make origin direction minHit maxHit false) rayhit = .ok (hit, out)) :
    hit = true ∧ ∃ k, out.hitDistance.Is k ∧ 0 ≤ k ∧ k ≤ 4 * L := by
  obtain ⟨d', n, h1, h2, -⟩ := normalize_near hF hdir hscale
  obtain rfl := h1.unique hd
  obtain ⟨hu0, hu1, -⟩ := hscale.sizes
  obtain ⟨c', a', b', h', R', hq, -⟩ := hall j center fa fb fh rotation hcj haj hbj hhj hrj
  obtain rfl := hq.center.unique hc
  obtain rfl := hq.isA.unique ha
  obtain rfl := hq.isB.unique hb
  obtain rfl := hq.height.unique hh
  obtain rfl := hq.rot.only hR
  set q : Cylinder (XF F) := ⟨center, fa, fb, fh, rotation, j⟩ with hqdef
  have hsz : j < coll.toCollection.size := (List.getElem?_eq_some_iff.1 hcj).1
  have hprim : coll.toCollection.prim j = .ok q := by
    simp only [CylColl.toCollection, lookup_eq_ok.2 hcj, lookup_eq_ok.2 haj, lookup_eq_ok.2 hbj, lookup_eq_ok.2 hhj, lookup_eq_ok.2 hrj]
    rfl
  set ray := Ray.make origin direction minHit maxHit false with hray
  have hquiet := cylinder_quiet ray
  have hmeet : MeetsBox coll.toCollection o p q w := by
    intro i hi' hiq
    obtain rfl : j = i := (CylColl.prim_ok hiq).1
    exact ⟨box, mn, mx, lookup_eq_ok.2 hbox, hmn, hmx, hw⟩
  obtain ⟨ps, vs, rest, e1, e2, ⟨e3, e4, -⟩, e5⟩ := C67_nothing_hidden u lo hi hF' hu0.le (by linarith) hlo part
    coll.toCollection opts nodes stats hbuild cylIx origin direction minHit maxHit o p m ho hdir hmin hneg hharm
    hquiet rayhit out hit h
  have hqps : q ∈ ps := by
    obtain ⟨q', hq', e⟩ := mapM_mem_of_in e1 (List.mem_range.2 hsz)
    rw [hprim, Except.ok.injEq] at e
    exact e ▸ hq'
  -- what tests record
  have hrec : ∀ q' ∈ vs, ∀ s s' : PlaneI (XF F), PlaneStart ray s → cylIntersect s q' ray = (s', true) → ∃ k, s'.hd.Is k ∧ 0 ≤ k ∧ k ≤ 4 * L := by
    intro q' hq' s s' hs hit'
    obtain ⟨i, -, hiq⟩ := mapM_mem_of_out e1 (e2.subset (List.mem_append_left _ hq'))
    obtain ⟨-, g1, g2, g3, g4, g5⟩ := CylColl.prim_ok hiq
    obtain ⟨cc, aa, bb, hh', RR, f1, f2⟩ := hall i _ _ _ _ _ g1 g2 g3 g4 g5
    obtain ⟨k, a1, a2, a3, -⟩ := cyl_hit_near hF hfa hodd hord ray (i := s) (hs.1 ▸ ho) (hs.2.1 ▸ h1)
      (TubeWithin.cyl (hs.2.1 ▸ f1) f2) hε h2 hit'
    exact ⟨k, a1, a2, a3⟩
  have hstep : ∀ (s : PlaneI (XF F)) q, PlaneStart ray s → PlaneStart ray (cylIx.isect s q ray).1 :=
    fun s q hs => Frame.start (cylIntersect_frame s q ray) hs
  have hrun : ∀ l : List (Cylinder (XF F)), l ⊆ vs → ∀ s, PlaneStart ray s → PlaneStart ray (testAll cylIx ray s l) ∧
      (testAll cylIx ray s l = s ∨ ∃ k, (testAll cylIx ray s l).hd.Is k ∧ 0 ≤ k ∧ k ≤ 4 * L) := by
    intro l hl s hs
    obtain ⟨f1, f2⟩ := testAll_last hquiet (Inv := PlaneStart ray) hstep l s hs
    refine ⟨f1, f2.imp_right ?_⟩
    rintro ⟨q', hq', s', f3, f4⟩
    exact hrec q' (hl hq') s' _ f3 f4
  have hstart : PlaneStart ray (cylIx.prepare ray) := ⟨rfl, rfl, rfl⟩
  have hfin : ∃ k, (scan cylIx ray vs).hd.Is k ∧ 0 ≤ k ∧ k ≤ 4 * L := by
    by_cases hv : q ∈ vs
    · obtain ⟨l1, l2, hsplit⟩ := List.append_of_mem hv
      have g1 := (hrun l1 (by rw [hsplit]; simp) _ hstart).1
      rw [scan_eq_testAll]
      set s := testAll cylIx ray (cylIx.prepare ray) l1 with hs'
      have hfound : ∃ i', cylIntersect s q ray = (i', true) := by
        rcases hin with ⟨t0, t1, he⟩ | hin
        · obtain ⟨i', -, k1, -⟩ := C105_entry_found u η hi ν μ ε L hF hfa hodd hord hε s q ray o d' c' a' b' h' R' (g1.1 ▸ ho) (g1.2.1 ▸ h1) h2
            (g1.2.1 ▸ hq) t0 t1 he
          exact ⟨i', k1⟩
        · obtain ⟨i', -, k1, -⟩ := C105_exit_found u η hi ν μ ε L hF hfa hodd hord hε s q ray o d' c' a' b' h' R' (g1.1 ▸ ho) (g1.2.1 ▸ h1) h2
            (g1.2.1 ▸ hq) hin
          exact ⟨i', k1⟩
      obtain ⟨i', hi'⟩ := hfound
      have e : testAll cylIx ray (cylIx.prepare ray) vs = testAll cylIx ray (cylIntersect s q ray).1 l2 := by
        rw [hsplit, testAll_append]
        rfl
      rw [e, hi']
      have g2 : PlaneStart ray i' := by
        have := hstep s q g1
        change PlaneStart ray (cylIntersect s q ray).1 at this
        rwa [hi'] at this
      rcases (hrun l2 (by rw [hsplit]; intro x hx; simp [hx]) i' g2).2 with g3 | g3
      · rw [g3]
        exact hrec q hv s i' g1 hi'
      · exact g3
    · obtain ⟨hd', ⟨k, hk⟩, hne, hlt⟩ := (e5 q hqps w hw0 hw1 hmeet).resolve_left hv
      change hd' = (scan cylIx ray (vs.take k)).hd at hk
      rw [scan_eq_testAll] at hk
      obtain ⟨g1, g2⟩ := hrun (vs.take k) (List.take_subset _ _) _ hstart
      have g3 : ∃ k', (testAll cylIx ray (cylIx.prepare ray) (vs.take k)).hd.Is k' ∧ 0 ≤ k' ∧ k' ≤ 4 * L := by
        refine g2.resolve_left fun g => ?_
        rw [g] at hk
        have hk' : hd' = maxHit := hk
        rcases hmax with hX | ⟨X, hX, -, hX'⟩
        · exact hne (hk'.trans hX)
        · exact absurd (hlt X (hk' ▸ hX)) (not_lt.2 hX')
      have hsplit : scan cylIx ray vs = testAll cylIx ray (testAll cylIx ray (cylIx.prepare ray) (vs.take k)) (vs.drop k) := by
        rw [scan_eq_testAll, ← testAll_append, List.take_append_drop]
      rw [hsplit]
      rcases (hrun (vs.drop k) (List.drop_subset _ _) _ g1).2 with g4 | g4
      · rw [g4]
        exact g3
      · exact g4
  obtain ⟨k, hk, hk0, hkL⟩ := hfin
  have hit' : hit = true := by
    rw [e3]
    rcases hmax with hX | ⟨X, hX, hX', -⟩
    · exact (XF.Is.lt_iff hk).2 (.inl hX)
    · exact (XF.Is.lt hk hX).2 (by linarith)
  exact ⟨hit', k, by rw [plane_post_distance _ _ _ (e4 hit' : planePost _ _ = _)]; exact hk, hk0, hkL⟩

end

/-- **C106** for `double`. -/
theorem C106_double (ε L : ℚ) (hε : ε ≤ 1 / 1000) (part : StdPartition) (coll : CylColl Double) (opts : BuildOptions)
    (nodes : List (Node Double (Cylinder Double))) (stats : Statistics) (hbuild : build part coll.toCollection opts [] = .ok (nodes, stats))
    (origin direction : Vec3 Double) (minHit maxHit : Double) (o p : Vec3 ℚ) (m : ℚ)
    (ho : IsV origin o) (hdir : IsV direction p) (hmin : minHit.Is m) (hneg : ∀ i, direction.get i ≠ .fin 0 true)
    (hp1 : 1 / 2 ^ 484 ≤ |p.x| + |p.y| + |p.z|) (hp2 : |p.x| + |p.y| + |p.z| ≤ 2 ^ 500)
    (hharm : Harmless coll.toCollection (1 / 2 ^ 1022) ((2 - 1 / 2 ^ 52) * 2 ^ 1023) o p)
    (hall : TubesWithin (1 / 2 ^ 53) (1 / 2 ^ 1075) ((2 - 1 / 2 ^ 52) * 2 ^ 1023) (1 / 2 ^ 100) (1 / 2 ^ 150) ε L coll o (Ray.make origin direction minHit maxHit false).direction)
    (j : Nat) (center : Vec3 Double) (fa fb fh : Double) (rotation : Mat3 Double) (hcj : coll.centers[j]? = some center)
    (haj : coll.as[j]? = some fa) (hbj : coll.bs[j]? = some fb) (hhj : coll.heights[j]? = some fh) (hrj : coll.rotations[j]? = some rotation)
    (c : Vec3 ℚ) (a b h : ℚ) (R : Mat3 ℚ) (hc : IsV center c) (ha : fa.Is a) (hb : fb.Is b) (hh : fh.Is h) (hR : IsM rotation R)
    (d : Vec3 ℚ) (hd : IsV (Ray.make origin direction minHit maxHit false).direction d)
    (hin : (∃ s t, EntersCylinder a b h (300 * (1 / 2 ^ 53 * ((a ^ 2 + b ^ 2) * L ^ 2))) (50 * (1 / 2 ^ 53 * L)) (R.trans.mulVec (o - c)) (R.trans.mulVec d) s t) ∨
      InsideCylinder a b h (300 * (1 / 2 ^ 53 * ((a ^ 2 + b ^ 2) * L ^ 2))) (50 * (1 / 2 ^ 53 * L)) (R.trans.mulVec (o - c)))
    (box : Vec3 Double × Vec3 Double) (mn mx : Vec3 ℚ) (hbox : coll.boxes[j]? = some box) (hmn : IsV box.1 mn) (hmx : IsV box.2 mx)
    (w : ℚ) (hw0 : 0 ≤ w) (hw1 : m ≤ w) (hw : InBox mn mx (along o p w))
    (hmax : maxHit = .inf false ∨ ∃ X, maxHit.Is X ∧ 4 * L < X ∧ w * (1 + 1 / 2 ^ 53) ^ 3 ≤ X)
    (rayhit out : RayHit Double) (hit : Bool)
    (h : traverse cylIx nodes (Ray.make origin direction minHit maxHit false) rayhit = .ok (hit, out)) :
    hit = true ∧ ∃ k, out.hitDistance.Is k ∧ 0 ≤ k ∧ k ≤ 4 * L :=
  C106_reported _ _ _ _ _ _ ε L rounds_double faithful_double Format.binary64_odd Format.binary64_ordered relative_double (by decide +kernel) hε part coll opts nodes stats hbuild origin direction
    minHit maxHit o p m ho hdir hmin hneg (scale_double hp1 hp2) hharm hall j center fa fb fh rotation hcj haj hbj hhj hrj c a b _ R hc ha hb hh hR d hd hin box
    mn mx hbox hmn hmx w hw0 hw1 hw hmax rayhit out hit h

/-- **C106** for `float`. -/
theorem C106_float (ε L : ℚ) (hε : ε ≤ 1 / 1000) (part : StdPartition) (coll : CylColl Single) (opts : BuildOptions)
    (nodes : List (Node Single (Cylinder Single))) (stats : Statistics) (hbuild : build part coll.toCollection opts [] = .ok (nodes, stats))
    (origin direction : Vec3 Single) (minHit maxHit : Single) (o p : Vec3 ℚ) (m : ℚ)
    (ho : IsV origin o) (hdir : IsV direction p) (hmin : minHit.Is m) (hneg : ∀ i, direction.get i ≠ .fin 0 true)
    (hp1 : 1 / 2 ^ 51 ≤ |p.x| + |p.y| + |p.z|) (hp2 : |p.x| + |p.y| + |p.z| ≤ 2 ^ 60)
    (hharm : Harmless coll.toCollection (1 / 2 ^ 126) ((2 - 1 / 2 ^ 23) * 2 ^ 127) o p)
    (hall : TubesWithin (1 / 2 ^ 24) (1 / 2 ^ 150) ((2 - 1 / 2 ^ 23) * 2 ^ 127) (1 / 2 ^ 10) (1 / 2 ^ 20) ε L coll o (Ray.make origin direction minHit maxHit false).direction)
    (j : Nat) (center : Vec3 Single) (fa fb fh : Single) (rotation : Mat3 Single) (hcj : coll.centers[j]? = some center)
    (haj : coll.as[j]? = some fa) (hbj : coll.bs[j]? = some fb) (hhj : coll.heights[j]? = some fh) (hrj : coll.rotations[j]? = some rotation)
    (c : Vec3 ℚ) (a b h : ℚ) (R : Mat3 ℚ) (hc : IsV center c) (ha : fa.Is a) (hb : fb.Is b) (hh : fh.Is h) (hR : IsM rotation R)
    (d : Vec3 ℚ) (hd : IsV (Ray.make origin direction minHit maxHit false).direction d)
    (hin : (∃ s t, EntersCylinder a b h (300 * (1 / 2 ^ 24 * ((a ^ 2 + b ^ 2) * L ^ 2))) (50 * (1 / 2 ^ 24 * L)) (R.trans.mulVec (o - c)) (R.trans.mulVec d) s t) ∨
      InsideCylinder a b h (300 * (1 / 2 ^ 24 * ((a ^ 2 + b ^ 2) * L ^ 2))) (50 * (1 / 2 ^ 24 * L)) (R.trans.mulVec (o - c)))
    (box : Vec3 Single × Vec3 Single) (mn mx : Vec3 ℚ) (hbox : coll.boxes[j]? = some box) (hmn : IsV box.1 mn) (hmx : IsV box.2 mx)
    (w : ℚ) (hw0 : 0 ≤ w) (hw1 : m ≤ w) (hw : InBox mn mx (along o p w))
    (hmax : maxHit = .inf false ∨ ∃ X, maxHit.Is X ∧ 4 * L < X ∧ w * (1 + 1 / 2 ^ 24) ^ 3 ≤ X)
    (rayhit out : RayHit Single) (hit : Bool)
    (h : traverse cylIx nodes (Ray.make origin direction minHit maxHit false) rayhit = .ok (hit, out)) :
    hit = true ∧ ∃ k, out.hitDistance.Is k ∧ 0 ≤ k ∧ k ≤ 4 * L :=
  C106_reported _ _ _ _ _ _ ε L rounds_float faithful_float Format.binary32_odd Format.binary32_ordered relative_float (by decide +kernel) hε part coll opts nodes stats hbuild origin direction
    minHit maxHit o p m ho hdir hmin hneg (scale_float hp1 hp2) hharm hall j center fa fb fh rotation hcj haj hbj hhj hrj c a b _ R hc ha hb hh hR d hd hin box
    mn mx hbox hmn hmx w hw0 hw1 hw hmax rayhit out hit h

/-! ### Example -/

/-- the values of a vector of finite numbers -/
def isVof (v : Vec3 Double) : Vec3 ℚ :=
  let f : Double → ℚ := fun | .fin x _ => x | _ => 0
  ⟨f v.x, f v.y, f v.z⟩

def allFin (v : Vec3 Double) : Bool :=
  match v.x, v.y, v.z with
  | .fin _ _, .fin _ _, .fin _ _ => true
  | _, _, _ => false

theorem isVof_is {v : Vec3 Double} (h : allFin v = true) : IsV v (isVof v) := by
  obtain ⟨x, y, z⟩ := v
  cases x <;> cases y <;> cases z <;> first | exact ⟨⟨_, rfl⟩, ⟨_, rfl⟩, ⟨_, rfl⟩⟩ | cases h

theorem tubes_harmless : Harmless sampleTubes.toCollection (1 / 2 ^ 1022) ((2 - 1 / 2 ^ 52) * 2 ^ 1023) ⟨1/4, 1/8, -5⟩ ⟨1/16, 1/32, 1⟩ := by
  have hb : ∀ {i b}, sampleTubes.toCollection.box i = .ok b → b ∈ sampleTubes.boxes :=
    fun h => List.mem_of_getElem? (lookup_eq_ok.1 h)
  refine ⟨fun i _ b h => ?_, fun i _ b h k c hc => ?_, fun hz => absurd hz (by norm_num)⟩
  · have : ∀ b ∈ sampleTubes.boxes, BoxInRange b := by decide +kernel
    exact this b (hb h)
  · have : ∀ b ∈ sampleTubes.boxes, ∀ k : Fin 3,
        coordOk ((⟨1/4, 1/8, -5⟩ : Vec3 ℚ).get k) ((⟨1/16, 1/32, 1⟩ : Vec3 ℚ).get k) (b.1.get k) = true ∧
        coordOk ((⟨1/4, 1/8, -5⟩ : Vec3 ℚ).get k) ((⟨1/16, 1/32, 1⟩ : Vec3 ℚ).get k) (b.2.get k) = true := by decide +kernel
    obtain ⟨e1, e2⟩ := this b (hb h) k
    rcases hc with ⟨s, hc⟩ | ⟨s, hc⟩
    · rw [hc] at e1; exact of_decide_eq_true e1
    · rw [hc] at e2; exact of_decide_eq_true e2

theorem sample_tubesWithin : TubesWithin (1 / 2 ^ 53) (1 / 2 ^ 1075) ((2 - 1 / 2 ^ 52) * 2 ^ 1023) (1 / 2 ^ 100) (1 / 2 ^ 150) (1 / 2 ^ 52) 24
    sampleTubes ⟨1/4, 1/8, -5⟩ sampleTubeRay.direction := by
  intro i center fa fb fh rotation h1 h2 h3 h4 h5
  have f0 : IsV (dvec 0 0 0) ⟨0, 0, 0⟩ := ⟨⟨false, by decide +kernel⟩, ⟨false, by decide +kernel⟩, ⟨false, by decide +kernel⟩⟩
  have f1 : (dbl 1).Is 1 := ⟨false, by decide +kernel⟩
  have f2 : (dbl 2).Is 2 := ⟨false, by decide +kernel⟩
  have f3 : (dbl 3).Is 3 := ⟨false, by decide +kernel⟩
  have f4 : IsM idMat ⟨⟨1, 0, 0⟩, ⟨0, 1, 0⟩, ⟨0, 0, 1⟩⟩ := by
    refine ⟨⟨?_, ?_, ?_⟩, ⟨?_, ?_, ?_⟩, ⟨?_, ?_, ?_⟩⟩ <;> exact ⟨false, by decide +kernel⟩
  have hi : i < 2 := (List.getElem?_eq_some_iff.1 h1).1
  interval_cases i
  · cases h1; cases h2; cases h3; cases h4; cases h5
    exact ⟨⟨0, 0, 0⟩, 1, 2, 3, tiltQ,
      { center := f0
        isA := f1
        isB := f2
        height := f3
        rot := tilt_is
        ortho := tilt_near
        aν := by decide +kernel
        bν := by decide +kernel
        h0 := by decide +kernel
        size := by decide +kernel
        scale := tubeScale_double (by decide +kernel) (by decide +kernel)
        asp1 := by decide +kernel
        asp2 := by decide +kernel
        slant := slanted_of_eval (by decide +kernel) }, .inr (by decide +kernel)⟩
  · cases h1; cases h2; cases h3; cases h4; cases h5
    exact ⟨⟨1, 0, 9⟩, 2, 2, 1, ⟨⟨1, 0, 0⟩, ⟨0, 1, 0⟩, ⟨0, 0, 1⟩⟩,
      { center := ⟨⟨false, by decide +kernel⟩, ⟨false, by decide +kernel⟩, ⟨false, by decide +kernel⟩⟩
        isA := f2
        isB := f2
        height := f1
        rot := f4
        ortho := by constructor <;> constructor <;> decide +kernel
        aν := by decide +kernel
        bν := by decide +kernel
        h0 := by decide +kernel
        size := by decide +kernel
        scale := tubeScale_double (by decide +kernel) (by decide +kernel)
        asp1 := by decide +kernel
        asp2 := by decide +kernel
        slant := slanted_of_eval (by decide +kernel) }, .inr (by decide +kernel)⟩

/-- The slanted ray and the two cylinders of the examples of C89 meet the hypotheses: for every tree that can be built and every execution,
there is a hit. -/
example (part : StdPartition) (opts : BuildOptions) (nodes : List (Node Double (Cylinder Double))) (stats : Statistics)
    (hbuild : build part sampleTubes.toCollection opts [] = .ok (nodes, stats)) (out : RayHit Double) (hit : Bool)
    (h : traverse cylIx nodes sampleTubeRay RayHit.fresh = .ok (hit, out)) : hit = true := by
  have f0 : IsV (dvec 0 0 0) ⟨0, 0, 0⟩ := ⟨⟨false, by decide +kernel⟩, ⟨false, by decide +kernel⟩, ⟨false, by decide +kernel⟩⟩
  have f1 : (dbl 1).Is 1 := ⟨false, by decide +kernel⟩
  have f2 : (dbl 2).Is 2 := ⟨false, by decide +kernel⟩
  have f3 : (dbl 3).Is 3 := ⟨false, by decide +kernel⟩
  refine (C106_double (1 / 2 ^ 52) 24 (by decide +kernel) part sampleTubes opts nodes stats hbuild (dvec (1/4) (1/8) (-5)) (dvec (1/16) (1/32) 1)
    (dbl 0) (dbl 100) ⟨1/4, 1/8, -5⟩ ⟨1/16, 1/32, 1⟩ 0 ⟨⟨false, by decide +kernel⟩, ⟨false, by decide +kernel⟩, ⟨true, by decide +kernel⟩⟩
    ⟨⟨false, by decide +kernel⟩, ⟨false, by decide +kernel⟩, ⟨false, by decide +kernel⟩⟩ ⟨false, by decide +kernel⟩ (by decide +kernel)
    (by decide +kernel) (by decide +kernel) tubes_harmless sample_tubesWithin
    0 _ _ _ _ _ rfl rfl rfl rfl rfl ⟨0, 0, 0⟩ 1 2 3 tiltQ f0 f1 f2 f3 tilt_is
    ⟨4492644613268073 / 72057594037927936, 4492644613268073 / 144115188075855872, 4492644613268073 / 4503599627370496⟩
    ⟨⟨false, by decide +kernel⟩, ⟨false, by decide +kernel⟩, ⟨false, by decide +kernel⟩⟩
    (.inl ⟨7 / 2, 5, .tube (by decide +kernel) (by decide +kernel) (by decide +kernel) (by decide +kernel) ⟨by decide +kernel, by decide +kernel⟩
      (by decide +kernel)⟩) _ (isVof (cylBox (dvec 0 0 0) (dbl 1) (dbl 2) (dbl 3) tilt).1) (isVof (cylBox (dvec 0 0 0) (dbl 1) (dbl 2) (dbl 3) tilt).2)
    rfl ?_ ?_ 5 (by decide +kernel) (by decide +kernel) (by unfold InBox; decide +kernel)
    (.inr ⟨100, ⟨false, by decide +kernel⟩, by decide +kernel, by decide +kernel⟩) RayHit.fresh out hit h).1
  · exact isVof_is (by decide +kernel)
  · exact isVof_is (by decide +kernel)

end Blazert
