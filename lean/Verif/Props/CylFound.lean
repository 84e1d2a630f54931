/- C105: rounding loses no clear hit on a cylinder. -/
import Verif.Proofs.CylEnter
import Verif.Proofs.EmbreeCylinder
import Verif.Props.EmbreeCylRound
import Verif.Props.EmbreeFound

set_option autoImplicit false

namespace Blazert
open Scalar

section
variable {K : Type} [Field K] [LinearOrder K] [IsStrictOrderedRing K] [FloorRing K] {F : Fmt K}

/-- **C105**, native back-end.  In any format that rounds monotonically, and whose finite results are accurate: if the ray, in the coordinates of
the cylinder, clearly enters it between `s` and `t`, then the test records a hit.  The recorded distance is that of a point on the
surface, and is not greater than `t`, up to rounding: so it is the entry that is recorded, not the exit. -/
theorem C105_entry_found (u η hi ν μ ε L : K) (hF : F.Rounds u η hi) (hfa : F.Faithful u η) (hodd : F.Odd) (hord : F.Ordered) (hε : ε ≤ 1 / 1000)
    (i : PlaneI (XF F)) (q : Cylinder (XF F)) (ray : Ray (XF F)) (o d c : Vec3 K) (a b h : K) (R : Mat3 K)
    (ho : IsV i.rayOrg o) (hd : IsV i.rayDir d) (hN : |Vec3.dot d d - 1| ≤ 11 * u)
    (hq : TubeWithin u η hi ν μ ε L o q.center q.a q.b q.height q.rotation i.rayDir c a b h R) (s t : K)
    (he : EntersCylinder a b h (300 * (u * ((a ^ 2 + b ^ 2) * L ^ 2))) (50 * (u * L)) (R.trans.mulVec (o - c)) (R.trans.mulVec d) s t) :
    ∃ i' k, cylIntersect i q ray = (i', true) ∧ i'.hd.Is k ∧ i'.primId = q.primId ∧ 0 ≤ k ∧ k ≤ t + (202 * u + 14 * ε) * L ∧
      NearCylinder a b h ((700 * u + 40 * ε) * ((a ^ 2 + b ^ 2) * L ^ 2)) ((300 * u + 20 * ε) * L) (R.trans.mulVec (along o d k - c)) := by
  obtain ⟨hcyl, hseen⟩ := tube_entry hF hfa hodd ho hd hε hN hq he
  obtain ⟨x, n, e1, ⟨T, e2, e3⟩, e4⟩ := cylIntersect_enters i q ray hseen
  obtain ⟨k, T', k1, k2, k3, k4, k5, k6⟩ := cyl_case_dist hF hfa hodd hord ho hd hcyl hε hN e4
  obtain rfl := k1.unique e2
  refine ⟨_, k, e1, k3, rfl, k4, ?_, k6⟩
  have := (abs_le.1 k2).2
  have e : (202 * u + 14 * ε) * L = 202 * (u * L) + 14 * (ε * L) := by ring
  linarith

/-- **C105**, native back-end, for rays that begin clearly inside: they hit the surface from inside. -/
theorem C105_exit_found (u η hi ν μ ε L : K) (hF : F.Rounds u η hi) (hfa : F.Faithful u η) (hodd : F.Odd) (hord : F.Ordered) (hε : ε ≤ 1 / 1000)
    (i : PlaneI (XF F)) (q : Cylinder (XF F)) (ray : Ray (XF F)) (o d c : Vec3 K) (a b h : K) (R : Mat3 K)
    (ho : IsV i.rayOrg o) (hd : IsV i.rayDir d) (hN : |Vec3.dot d d - 1| ≤ 11 * u)
    (hq : TubeWithin u η hi ν μ ε L o q.center q.a q.b q.height q.rotation i.rayDir c a b h R)
    (hin : InsideCylinder a b h (300 * (u * ((a ^ 2 + b ^ 2) * L ^ 2))) (50 * (u * L)) (R.trans.mulVec (o - c))) :
    ∃ i' k, cylIntersect i q ray = (i', true) ∧ i'.hd.Is k ∧ i'.primId = q.primId ∧ 0 ≤ k ∧
      NearCylinder a b h ((700 * u + 40 * ε) * ((a ^ 2 + b ^ 2) * L ^ 2)) ((300 * u + 20 * ε) * L) (R.trans.mulVec (along o d k - c)) := by
  obtain ⟨hcyl, hseen⟩ := tube_leave hF hfa hodd ho hd hε hN hq hin
  obtain ⟨x, n, e1, -, e4⟩ := cylIntersect_leaves i q ray hseen
  obtain ⟨k, T', k1, k2, k3, k4, k5, k6⟩ := cyl_case_dist hF hfa hodd hord ho hd hcyl hε hN e4
  exact ⟨_, k, e1, k3, rfl, k4, k6⟩

/-- **C105**, callback of the Embree back-end. -/
theorem C105_embree_found (u η hi ν μ ε L : K) (hF : F.Rounds u η hi) (hfa : F.Faithful u η) (hodd : F.Odd) (hord : F.Ordered) (hε : ε ≤ 1 / 1000)
    (q : EmbCyl (XF F)) (inst : Nat) (rh : RtcRayHit (XF F)) (o d c : Vec3 K) (a b h : K) (R : Mat3 K)
    (ho : IsV rh.ray.org o) (hd : IsV rh.ray.dir d) (hN : |Vec3.dot d d - 1| ≤ 11 * u)
    (hq : TubeWithin u η hi ν μ ε L o q.center q.a q.b q.height q.rot rh.ray.dir c a b h R) :
    (∀ s t, EntersCylinder a b h (300 * (u * ((a ^ 2 + b ^ 2) * L ^ 2))) (50 * (u * L)) (R.trans.mulVec (o - c)) (R.trans.mulVec d) s t →
      ∃ k, (q.intersect inst rh).hit.geomID = q.geomID ∧ (q.intersect inst rh).ray.tfar.Is k ∧ 0 ≤ k ∧ k ≤ t + (202 * u + 14 * ε) * L ∧
        NearCylinder a b h ((700 * u + 40 * ε) * ((a ^ 2 + b ^ 2) * L ^ 2)) ((300 * u + 20 * ε) * L) (R.trans.mulVec (along o d k - c))) ∧
    (InsideCylinder a b h (300 * (u * ((a ^ 2 + b ^ 2) * L ^ 2))) (50 * (u * L)) (R.trans.mulVec (o - c)) →
      ∃ k, (q.intersect inst rh).hit.geomID = q.geomID ∧ (q.intersect inst rh).ray.tfar.Is k ∧ 0 ≤ k ∧
        NearCylinder a b h ((700 * u + 40 * ε) * ((a ^ 2 + b ^ 2) * L ^ 2)) ((300 * u + 20 * ε) * L) (R.trans.mulVec (along o d k - c))) := by
  have hq' : TubeWithin u η hi ν μ ε L o q.native.center q.native.a q.native.b q.native.height q.native.rotation rh.ray.dir c a b h R := hq
  constructor
  · intro s t he
    obtain ⟨hcyl, hseen⟩ := tube_entry hF hfa hodd ho hd hε hN hq' he
    obtain ⟨x, n, e1, ⟨T, e2, e3⟩, e4⟩ := q.intersect_enters inst rh hseen
    obtain ⟨k, T', k1, k2, k3, k4, k5, k6⟩ := cyl_case_dist hF hfa hodd hord ho hd hcyl hε hN e4
    obtain rfl := k1.unique e2
    refine ⟨k, by rw [e1]; rfl, by rw [e1]; exact k3, k4, ?_, k6⟩
    have := (abs_le.1 k2).2
    have e : (202 * u + 14 * ε) * L = 202 * (u * L) + 14 * (ε * L) := by ring
    linarith
  · intro hin
    obtain ⟨hcyl, hseen⟩ := tube_leave hF hfa hodd ho hd hε hN hq' hin
    obtain ⟨x, n, e1, -, e4⟩ := q.intersect_leaves inst rh hseen
    obtain ⟨k, T', k1, k2, k3, k4, k5, k6⟩ := cyl_case_dist hF hfa hodd hord ho hd hcyl hε hN e4
    exact ⟨k, by rw [e1]; rfl, by rw [e1]; exact k3, k4, k6⟩

/-- **C105**, callback for shadow rays: what clearly enters the cylinder is occluded. -/
theorem C105_embree_occluded (u η hi ν μ ε L : K) (hF : F.Rounds u η hi) (hfa : F.Faithful u η) (hodd : F.Odd) (hε : ε ≤ 1 / 1000)
    (q : EmbCyl (XF F)) (inf : XF F) (r : RtcRay (XF F)) (o d c : Vec3 K) (a b h : K) (R : Mat3 K)
    (ho : IsV r.org o) (hd : IsV r.dir d) (hN : |Vec3.dot d d - 1| ≤ 11 * u)
    (hq : TubeWithin u η hi ν μ ε L o q.center q.a q.b q.height q.rot r.dir c a b h R) (s t : K)
    (he : EntersCylinder a b h (300 * (u * ((a ^ 2 + b ^ 2) * L ^ 2))) (50 * (u * L)) (R.trans.mulVec (o - c)) (R.trans.mulVec d) s t) :
    q.occluded inf r = { r with tfar := -inf } := by
  have hq' : TubeWithin u η hi ν μ ε L o q.native.center q.native.a q.native.b q.native.height q.native.rotation r.dir c a b h R := hq
  obtain ⟨hcyl, hseen⟩ := tube_entry hF hfa hodd ho hd hε hN hq' he
  have := q.isOccluded_enters r.org r.dir hseen fun _ h1 => xf_lt_asymm h1
  unfold EmbCyl.occluded
  rw [if_pos this]
  rfl

/-- **C105**, queries of Embree scenes.  For a scene in any state that calls of the API lead to and that has been committed since the last
change: if the ray clearly enters the cylinder and meets its bounds between its limits, then every query reports a hit, whatever
else is in the scene.  (The bounds of a cylinder that is not parallel to the axes can be too small, C38.) -/
theorem C105_embree_reported (u η hi ν μ ε L : K) (hF : F.Rounds u η hi) (hfa : F.Faithful u η) (hodd : F.Odd) (hord : F.Ordered)
    (hε : ε ≤ 1 / 1000) {l : Layout} {calls : List (EmbCall (XF F))} {s : EmbScene (XF F)} (hrun : embRun l .init calls = .ok s)
    (hup : s.UpToDate) (hlen : s.attached.length ≤ invalidId) {rtc : Rtc (XF F)} (hrtc : rtc.Careful) (origin direction : Vec3 (XF F))
    (minHit maxHit : XF F) {any : Bool} (o p d : Vec3 K) (m X : K) (ho : IsV origin o) (hdir : IsV direction p) (hmin : minHit.Is m)
    (hm : 0 ≤ m) (hscale : Scale u η hi (|p.x| + |p.y| + |p.z|)) (hmax : maxHit.Is X)
    (hd : IsV (Ray.make origin direction minHit maxHit any).direction d) (i : Nat) (q : EmbCyl (XF F)) (hg : s.HasUser i (.cylinder q))
    (c : Vec3 K) (a b h : K) (R : Mat3 K)
    (hq : TubeWithin u η hi ν μ ε L o q.center q.a q.b q.height q.rot (Ray.make origin direction minHit maxHit any).direction c a b h R)
    (t0 t1 : K)
    (he : EntersCylinder a b h (300 * (u * ((a ^ 2 + b ^ 2) * L ^ 2))) (50 * (u * L)) (R.trans.mulVec (o - c)) (R.trans.mulVec d) t0 t1)
    (mn mx : Vec3 K) (hmn : IsV q.bounds.1 mn) (hmx : IsV q.bounds.2 mx) (w : K) (hw1 : m ≤ w) (hw2 : w ≤ X) (hbox : InBox mn mx (along o d w))
    (rayhit : RayHit (XF F)) (r : Run (Bool × RayHit (XF F)))
    (hr : s.Intersect1 rtc (Ray.make origin direction minHit maxHit any) rayhit r) : ∃ out, r = .ok (true, out) := by
  obtain ⟨bounds, order, z, hb, hperm, htr, rfl, hline, hlim⟩ := found_setup hF hrun hup ho hdir hmin hm hscale hmax hd hr
  have hids := (embInv_of_run hrun).ids
  have hlt : i < s.attached.length := by
    obtain ⟨q, hq, -⟩ := hg
    exact (List.getElem?_eq_some_iff.1 hq).1
  have hz : z.hit.geomID ≠ invalidId := by
    refine htr.recorded i (hperm.mem_iff.2 (List.mem_range.2 hlt)) (.inl rfl)
      (fun j hj x y hxy => process_recorded hrtc hlen hids (List.mem_range.1 (hperm.mem_iff.1 hj)) hxy) (fun y hy => ?_) ?_ z rfl
    · rw [process_user hg] at hy
      cases hy
      obtain ⟨k, k1, -⟩ := (C105_embree_found u η hi ν μ ε L hF hfa hodd hord hε q invalidId (Ray.make origin direction minHit maxHit any).toRtc
        o d c a b h R hline.org hline.dir hline.unit hq).1 t0 t1 he
      have hid : q.geomID = i := hids i _ hg
      show (q.intersect invalidId _).hit.geomID ≠ _
      rw [k1, hid]
      omega
    · rintro ⟨b', h1, h2⟩
      rw [hb i _ hg] at h1
      cases h1
      exact hrtc.miss _ _ h2 o d m X mn mx hline.org hline.dir hline.near hlim.2 hmn hmx w hw1 hw2 hbox
  rw [RtcRayHit.copyTo, if_pos hz]
  exact ⟨_, rfl⟩

end

/-- **C105** for `double`, native back-end: half axes and lengths between `2^-100` and `2^100`, and no component of the computed direction
(other than zeros) below `2^-150`.  Rays that clearly enter. -/
theorem C105_entry_double (ε L : ℚ) (hε : ε ≤ 1 / 1000) (i : PlaneI Double) (q : Cylinder Double) (ray : Ray Double) (o d c : Vec3 ℚ) (a b h : ℚ)
    (R : Mat3 ℚ) (ho : IsV i.rayOrg o) (hd : IsV i.rayDir d) (hN : |Vec3.dot d d - 1| ≤ 11 * (1 / 2 ^ 53))
    (hq : TubeWithin (1 / 2 ^ 53) (1 / 2 ^ 1075) ((2 - 1 / 2 ^ 52) * 2 ^ 1023) (1 / 2 ^ 100) (1 / 2 ^ 150) ε L o q.center q.a q.b q.height
      q.rotation i.rayDir c a b h R) (s t : ℚ)
    (he : EntersCylinder a b h (300 * (1 / 2 ^ 53 * ((a ^ 2 + b ^ 2) * L ^ 2))) (50 * (1 / 2 ^ 53 * L)) (R.trans.mulVec (o - c)) (R.trans.mulVec d) s t) :
    ∃ i' k, cylIntersect i q ray = (i', true) ∧ i'.hd.Is k ∧ i'.primId = q.primId ∧ 0 ≤ k ∧ k ≤ t + (202 * (1 / 2 ^ 53) + 14 * ε) * L ∧
      NearCylinder a b h ((700 * (1 / 2 ^ 53) + 40 * ε) * ((a ^ 2 + b ^ 2) * L ^ 2)) ((300 * (1 / 2 ^ 53) + 20 * ε) * L)
        (R.trans.mulVec (along o d k - c)) :=
  C105_entry_found _ _ _ _ _ ε L rounds_double faithful_double Format.binary64_odd Format.binary64_ordered hε i q ray o d c a b h R ho hd hN hq s t he

/-- **C105** for `double`, native back-end, rays that begin clearly inside. -/
theorem C105_exit_double (ε L : ℚ) (hε : ε ≤ 1 / 1000) (i : PlaneI Double) (q : Cylinder Double) (ray : Ray Double) (o d c : Vec3 ℚ) (a b h : ℚ)
    (R : Mat3 ℚ) (ho : IsV i.rayOrg o) (hd : IsV i.rayDir d) (hN : |Vec3.dot d d - 1| ≤ 11 * (1 / 2 ^ 53))
    (hq : TubeWithin (1 / 2 ^ 53) (1 / 2 ^ 1075) ((2 - 1 / 2 ^ 52) * 2 ^ 1023) (1 / 2 ^ 100) (1 / 2 ^ 150) ε L o q.center q.a q.b q.height
      q.rotation i.rayDir c a b h R)
    (hin : InsideCylinder a b h (300 * (1 / 2 ^ 53 * ((a ^ 2 + b ^ 2) * L ^ 2))) (50 * (1 / 2 ^ 53 * L)) (R.trans.mulVec (o - c))) :
    ∃ i' k, cylIntersect i q ray = (i', true) ∧ i'.hd.Is k ∧ i'.primId = q.primId ∧ 0 ≤ k ∧
      NearCylinder a b h ((700 * (1 / 2 ^ 53) + 40 * ε) * ((a ^ 2 + b ^ 2) * L ^ 2)) ((300 * (1 / 2 ^ 53) + 20 * ε) * L)
        (R.trans.mulVec (along o d k - c)) :=
  C105_exit_found _ _ _ _ _ ε L rounds_double faithful_double Format.binary64_odd Format.binary64_ordered hε i q ray o d c a b h R ho hd hN hq hin

/-- **C105** for `float`, the type of the Embree back-end: half axes and lengths between `2^-10` and `2^10`, and no component of the computed
direction (other than zeros) below `2^-20`. -/
theorem C105_embree_float (ε L : ℚ) (hε : ε ≤ 1 / 1000) (q : EmbCyl Single) (inst : Nat) (rh : RtcRayHit Single) (o d c : Vec3 ℚ) (a b h : ℚ)
    (R : Mat3 ℚ) (ho : IsV rh.ray.org o) (hd : IsV rh.ray.dir d) (hN : |Vec3.dot d d - 1| ≤ 11 * (1 / 2 ^ 24))
    (hq : TubeWithin (1 / 2 ^ 24) (1 / 2 ^ 150) ((2 - 1 / 2 ^ 23) * 2 ^ 127) (1 / 2 ^ 10) (1 / 2 ^ 20) ε L o q.center q.a q.b q.height
      q.rot rh.ray.dir c a b h R) (s t : ℚ)
    (he : EntersCylinder a b h (300 * (1 / 2 ^ 24 * ((a ^ 2 + b ^ 2) * L ^ 2))) (50 * (1 / 2 ^ 24 * L)) (R.trans.mulVec (o - c)) (R.trans.mulVec d) s t) :
    ∃ k, (q.intersect inst rh).hit.geomID = q.geomID ∧ (q.intersect inst rh).ray.tfar.Is k ∧ 0 ≤ k ∧ k ≤ t + (202 * (1 / 2 ^ 24) + 14 * ε) * L ∧
      NearCylinder a b h ((700 * (1 / 2 ^ 24) + 40 * ε) * ((a ^ 2 + b ^ 2) * L ^ 2)) ((300 * (1 / 2 ^ 24) + 20 * ε) * L)
        (R.trans.mulVec (along o d k - c)) :=
  (C105_embree_found _ _ _ _ _ ε L rounds_float faithful_float Format.binary32_odd Format.binary32_ordered hε q inst rh o d c a b h R ho hd hN hq).1 s t he

/-- **C105**, why the entry has to be clear of the rim.  An upright cylinder with radius 1 and height 2 around the origin, and a ray which
enters it where the tube and the top meet, and then passes right through its middle.  No hit is reported, by a query on
a scene with nothing else in it: rounding takes the point on the top out of the circle, and the point on the tube above the top. -/
theorem C105_rim_lost :
    (∃ r, query stablePartition [.addCylinders [dvec 0 0 0] [dbl 1] [dbl 1] [dbl 2] [idMat], .commit]
      (Ray.make' (dvec (-11/4) 0 (7/2)) (dvec (7/4) 0 (-5/2))) RayHit.fresh = .ok r ∧ r.1 = false) ∧
    ∃ d : Vec3 ℚ, IsV (Ray.make' (dvec (-11/4) 0 (7/2)) (dvec (7/4) 0 (-5/2))).direction d ∧
      InsideCylinder 1 1 2 (9 / 10) (9 / 10) (along ⟨-11/4, 0, 7/2⟩ d (427 / 100)) := by
  refine ⟨exists_ok_of_eval (by decide +kernel), ⟨5165289600771393 / 9007199254740992, 0, -7378985143959133 / 9007199254740992⟩, ?_, ?_⟩
  · exact ⟨⟨false, by decide +kernel⟩, ⟨false, by decide +kernel⟩, ⟨true, by decide +kernel⟩⟩
  · constructor <;> decide +kernel

/-! ### Examples -/

/-- The slanted ray of the examples of C89 enters the tilted elliptic cylinder through the tube, between the distances 3.5 and 5: so the test
finds it there. -/
example : ∃ i' k, cylIntersect (cylIx.prepare sampleTubeRay) ⟨dvec 0 0 0, dbl 1, dbl 2, dbl 3, tilt, 7⟩ sampleTubeRay = (i', true) ∧ i'.hd.Is k ∧
    i'.primId = 7 ∧ k ≤ 51 / 10 := by
  obtain ⟨i', k, h1, h2, h3, -, h4, -⟩ := C105_entry_double (1 / 2 ^ 52) 12 (by decide +kernel) (cylIx.prepare sampleTubeRay)
    ⟨dvec 0 0 0, dbl 1, dbl 2, dbl 3, tilt, 7⟩ sampleTubeRay ⟨1/4, 1/8, -5⟩
    ⟨4492644613268073 / 72057594037927936, 4492644613268073 / 144115188075855872, 4492644613268073 / 4503599627370496⟩ ⟨0, 0, 0⟩ 1 2 3 tiltQ
    ⟨⟨false, by decide +kernel⟩, ⟨false, by decide +kernel⟩, ⟨true, by decide +kernel⟩⟩
    ⟨⟨false, by decide +kernel⟩, ⟨false, by decide +kernel⟩, ⟨false, by decide +kernel⟩⟩ (by decide +kernel)
    { center := ⟨⟨false, by decide +kernel⟩, ⟨false, by decide +kernel⟩, ⟨false, by decide +kernel⟩⟩
      isA := ⟨false, by decide +kernel⟩
      isB := ⟨false, by decide +kernel⟩
      height := ⟨false, by decide +kernel⟩
      rot := ⟨⟨⟨false, by decide +kernel⟩, ⟨false, by decide +kernel⟩, ⟨false, by decide +kernel⟩⟩,
        ⟨⟨false, by decide +kernel⟩, ⟨false, by decide +kernel⟩, ⟨false, by decide +kernel⟩⟩,
        ⟨⟨true, by decide +kernel⟩, ⟨false, by decide +kernel⟩, ⟨false, by decide +kernel⟩⟩⟩
      ortho := by constructor <;> constructor <;> decide +kernel
      aν := by decide +kernel
      bν := by decide +kernel
      h0 := by decide +kernel
      size := by decide +kernel
      scale := tubeScale_double (by decide +kernel) (by decide +kernel)
      asp1 := by decide +kernel
      asp2 := by decide +kernel
      slant := slanted_of_eval (by decide +kernel) } (7 / 2) 5
    (.tube (by decide +kernel) (by decide +kernel) (by decide +kernel) (by decide +kernel) ⟨by decide +kernel, by decide +kernel⟩ (by decide +kernel))
  exact ⟨i', k, h1, h2, h3, h4.trans (by decide +kernel)⟩

/-- A ray from the middle of this cylinder: it is hit from inside. -/
example : ∃ i' k, cylIntersect (cylIx.prepare (Ray.make (dvec 0 0 0) (dvec (1/16) (1/32) 1) (dbl 0) (dbl 100) false))
      ⟨dvec 0 0 0, dbl 1, dbl 2, dbl 3, tilt, 7⟩ sampleTubeRay = (i', true) ∧ i'.hd.Is k ∧ i'.primId = 7 := by
  obtain ⟨i', k, h1, h2, h3, -⟩ := C105_exit_double (1 / 2 ^ 52) 12 (by decide +kernel)
    (cylIx.prepare (Ray.make (dvec 0 0 0) (dvec (1/16) (1/32) 1) (dbl 0) (dbl 100) false))
    ⟨dvec 0 0 0, dbl 1, dbl 2, dbl 3, tilt, 7⟩ sampleTubeRay ⟨0, 0, 0⟩
    ⟨4492644613268073 / 72057594037927936, 4492644613268073 / 144115188075855872, 4492644613268073 / 4503599627370496⟩ ⟨0, 0, 0⟩ 1 2 3 tiltQ
    ⟨⟨false, by decide +kernel⟩, ⟨false, by decide +kernel⟩, ⟨false, by decide +kernel⟩⟩
    ⟨⟨false, by decide +kernel⟩, ⟨false, by decide +kernel⟩, ⟨false, by decide +kernel⟩⟩ (by decide +kernel)
    { center := ⟨⟨false, by decide +kernel⟩, ⟨false, by decide +kernel⟩, ⟨false, by decide +kernel⟩⟩
      isA := ⟨false, by decide +kernel⟩
      isB := ⟨false, by decide +kernel⟩
      height := ⟨false, by decide +kernel⟩
      rot := ⟨⟨⟨false, by decide +kernel⟩, ⟨false, by decide +kernel⟩, ⟨false, by decide +kernel⟩⟩,
        ⟨⟨false, by decide +kernel⟩, ⟨false, by decide +kernel⟩, ⟨false, by decide +kernel⟩⟩,
        ⟨⟨true, by decide +kernel⟩, ⟨false, by decide +kernel⟩, ⟨false, by decide +kernel⟩⟩⟩
      ortho := by constructor <;> constructor <;> decide +kernel
      aν := by decide +kernel
      bν := by decide +kernel
      h0 := by decide +kernel
      size := by decide +kernel
      scale := tubeScale_double (by decide +kernel) (by decide +kernel)
      asp1 := by decide +kernel
      asp2 := by decide +kernel
      slant := slanted_of_eval (by decide +kernel) } ⟨by decide +kernel, by decide +kernel⟩
  exact ⟨i', k, h1, h2, h3⟩

/-- A round upright cylinder in an Embree scene, and a slanted ray through its top: every query of a careful Embree reports a hit. -/
example (rtc : Rtc Single) (hrtc : rtc.Careful) (l : Layout) (rayhit : RayHit Single) :
    ∃ s : EmbScene Single, embRun l .init [.addCylinders [svec 0 0 0] [sgl 1] [sgl 1] [sgl 2] [sIdMat], .commit] = .ok s ∧
      ∀ r, s.Intersect1 rtc (Ray.make (svec (1/4) (1/8) 5) (svec (-1/16) (-1/32) (-1)) (sgl 0) (sgl 100) false) rayhit r →
        ∃ out, r = .ok (true, out) := by
  have f0 : (sgl 0).Is (0 : ℚ) := ⟨false, by decide +kernel⟩
  have f1 : (sgl 1).Is (1 : ℚ) := ⟨false, by decide +kernel⟩
  have f2 : (sgl 2).Is (2 : ℚ) := ⟨false, by decide +kernel⟩
  refine ⟨_, rfl, fun r h => ?_⟩
  exact C105_embree_reported (1 / 2 ^ 24) (1 / 2 ^ 150) ((2 - 1 / 2 ^ 23) * 2 ^ 127) (1 / 2 ^ 10) (1 / 2 ^ 20) 0 12 rounds_float faithful_float
    Format.binary32_odd Format.binary32_ordered (by norm_num) (l := l)
    (calls := [.addCylinders [svec 0 0 0] [sgl 1] [sgl 1] [sgl 2] [sIdMat], .commit]) rfl ⟨_, rfl, rfl⟩ (by decide) hrtc
    (svec (1/4) (1/8) 5) (svec (-1/16) (-1/32) (-1)) (sgl 0) (sgl 100) ⟨1/4, 1/8, 5⟩ ⟨-1/16, -1/32, -1⟩
    ⟨-8368203 / 134217728, -8368203 / 268435456, -8368203 / 8388608⟩ 0 100
    ⟨⟨false, by decide +kernel⟩, ⟨false, by decide +kernel⟩, ⟨false, by decide +kernel⟩⟩
    ⟨⟨true, by decide +kernel⟩, ⟨true, by decide +kernel⟩, ⟨true, by decide +kernel⟩⟩ f0 le_rfl
    (scale_float (by decide +kernel) (by decide +kernel)) ⟨false, by decide +kernel⟩
    ⟨⟨true, by decide +kernel⟩, ⟨true, by decide +kernel⟩, ⟨true, by decide +kernel⟩⟩
    0 ⟨svec 0 0 0, sgl 1, sgl 1, sgl 2, sIdMat, 0⟩ ⟨0, rfl, rfl⟩ ⟨0, 0, 0⟩ 1 1 2 ⟨⟨1, 0, 0⟩, ⟨0, 1, 0⟩, ⟨0, 0, 1⟩⟩
    { center := ⟨f0, f0, f0⟩
      isA := f1
      isB := f1
      height := f2
      rot := ⟨⟨f1, f0, f0⟩, ⟨f0, f1, f0⟩, ⟨f0, f0, f1⟩⟩
      ortho := by constructor <;> constructor <;> decide +kernel
      aν := by decide +kernel
      bν := by decide +kernel
      h0 := by decide +kernel
      size := by decide +kernel
      scale := tubeScale_float (by decide +kernel) (by decide +kernel)
      asp1 := by decide +kernel
      asp2 := by decide +kernel
      slant := slanted_of_evalS (by decide +kernel) } (7 / 2) 5
    (.cap (by decide +kernel) (by decide +kernel) (by decide +kernel) (by decide +kernel) ⟨by decide +kernel, by decide +kernel⟩)
    ⟨-1, -1, -1⟩ ⟨1, 1, 1⟩ ⟨⟨true, by decide +kernel⟩, ⟨true, by decide +kernel⟩, ⟨true, by decide +kernel⟩⟩
    ⟨⟨false, by decide +kernel⟩, ⟨false, by decide +kernel⟩, ⟨false, by decide +kernel⟩⟩ 5 (by norm_num) (by norm_num)
    ⟨⟨by decide +kernel, by decide +kernel⟩, ⟨by decide +kernel, by decide +kernel⟩, ⟨by decide +kernel, by decide +kernel⟩⟩ rayhit r h

end Blazert
