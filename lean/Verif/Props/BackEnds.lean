/- C108: the two back-ends report the same distance, up to rounding. -/
import Verif.Props.Free
import Verif.Props.EmbreeFound

set_option autoImplicit false

namespace Blazert
open Scalar

theorem Rtc.Careful.tidy {K : Type} [Field K] [LinearOrder K] [IsStrictOrderedRing K] [FloorRing K] {F : Fmt K} {rtc : Rtc (XF F)}
    (h : rtc.Careful) : rtc.Tidy := by
  intro v f id rh
  rcases h.mesh v f id rh with e | ⟨e, -⟩
  · rw [e]
    exact ⟨rfl, rfl, rfl⟩
  · exact e

theorem unit_sizes {p : Vec3 ℚ} (h : |Vec3.dot p p - 1| ≤ 16 / 2 ^ 24) : 1 / 2 ^ 51 ≤ |p.x| + |p.y| + |p.z| ∧ |p.x| + |p.y| + |p.z| ≤ 2 ^ 60 := by
  obtain ⟨h1, h2⟩ := abs_le.1 h
  simp only [Vec3.dot] at h1 h2
  have e : ∀ x : ℚ, |x| * |x| = x * x := abs_mul_abs_self
  have a1 := abs_nonneg p.x
  have a2 := abs_nonneg p.y
  have a3 := abs_nonneg p.z
  have e1 := e p.x
  have e2 := e p.y
  have e3 := e p.z
  have hb : ∀ x : ℚ, 0 ≤ x → x * x ≤ 4 → x ≤ 2 := fun x _ h => by nlinarith
  have b1 := hb _ a1 (by norm_num at h2; nlinarith [mul_self_nonneg p.y, mul_self_nonneg p.z])
  have b2 := hb _ a2 (by norm_num at h2; nlinarith [mul_self_nonneg p.x, mul_self_nonneg p.z])
  have b3 := hb _ a3 (by norm_num at h2; nlinarith [mul_self_nonneg p.x, mul_self_nonneg p.y])
  constructor
  · by_contra hlt
    rw [not_le] at hlt
    have c1 : |p.x| + |p.y| + |p.z| < 1 / 2 := hlt.trans (by norm_num)
    have : |p.x| * |p.x| + |p.y| * |p.y| + |p.z| * |p.z| ≤ (|p.x| + |p.y| + |p.z|) * (|p.x| + |p.y| + |p.z|) := by
      have := mul_nonneg a1 a2
      have := mul_nonneg a1 a3
      have := mul_nonneg a2 a3
      linarith
    have : (|p.x| + |p.y| + |p.z|) * (|p.x| + |p.y| + |p.z|) ≤ 1 / 2 * (1 / 2) := mul_self_le_mul_self (by positivity) c1.le
    norm_num at h1
    linarith
  · have : |p.x| + |p.y| + |p.z| ≤ 6 := by linarith
    exact this.trans (by norm_num)

/-- **C108**, spheres.  Let a native scene (in `float`, with geometry of any kind) and an Embree scene of spheres and rectangles have a sphere in common.
If the ray is clear of all geometry until `T`, clearly outside the sphere at its lower limit, and clearly inside it at `τ`, then both back-ends
report a hit, and both distances are between `T` and `τ`, up to rounding; in particular they do not differ by more than that. -/
theorem C108_sphere {s : Scene Single} {rs : List Nat} (hist : History s rs) (hcom : s.committed = true)
    (q : Part (SphereColl Single) Single (Sphere Single)) (hq : s.spheres = some q)
    {l : Layout} {calls : List (EmbCall Single)} {e : EmbScene Single} (hrun : embRun l .init calls = .ok e)
    (hup : e.UpToDate) (hlen : e.attached.length ≤ invalidId) (hmesh : ∀ i v f, ¬ e.HasMesh i v f) {rtc : Rtc Single} (hrtc : rtc.Careful)
    (L ε T : ℚ) (n : Nat) (hn : q.coll.centers.length ≤ n) (hn' : e.attached.length + 1 ≤ n) (hL1 : 1 / 2 ^ 51 ≤ L) (hL2 : L ≤ 2 ^ 60)
    (ε0 : 0 ≤ ε) (hε : ε ≤ 1 / 1000) (origin direction : Vec3 Single) (minHit maxHit : Single) (o p d : Vec3 ℚ) (m X : ℚ)
    (ho : IsV origin o) (hdir : IsV direction p) (hmin : minHit.Is m) (hm : 0 ≤ m) (hmax : maxHit.Is X)
    (hneg : ∀ i, direction.get i ≠ .fin 0 true) (hunit : |Vec3.dot p p - 1| ≤ 16 / 2 ^ 24)
    (hharm : Harmless q.coll.toCollection (1 / 2 ^ 126) ((2 - 1 / 2 ^ 23) * 2 ^ 127) o p)
    (hd : IsV (Ray.make origin direction minHit maxHit false).direction d)
    (hsize : ∀ (i : Nat) (center : Vec3 Single) (radius : Single), q.coll.centers[i]? = some center →
      q.coll.radii[i]? = some radius →
      ∃ c r, IsV center c ∧ radius.Is r ∧ |o.x| + |o.y| + |o.z| + |c.x| + |c.y| + |c.z| + |r| ≤ L)
    (hesize : ∀ j g, e.HasUser j g → g.Within ε L o)
    (hfree : s.FreeUntil (1 / 2 ^ 24) (1 / 2 ^ 51) (2 ^ 60) (1 / 2 ^ 20) (2 ^ 15) ((2 - 1 / 2 ^ 23) * 2 ^ 127) m (1 / 2 ^ 10) (2 ^ 10)
      (1 / 2 ^ 20) (Ray.make origin direction minHit maxHit false).direction o d T)
    (hefree : ∀ i g, e.HasUser i g → g.FreeUntil (1 / 2 ^ 24) (1 / 2 ^ 51) (2 ^ 60) (1 / 2 ^ 10) (2 ^ 10) (1 / 2 ^ 20)
      (Ray.make origin direction minHit maxHit false).direction o d T)
    (j i id : Nat) (center : Vec3 Single) (radius : Single) (hcj : q.coll.centers[j]? = some center)
    (hrj : q.coll.radii[j]? = some radius) (hi : e.HasUser i (.sphere ⟨center, radius, id⟩))
    (c : Vec3 ℚ) (r : ℚ) (hc : IsV center c) (hr : radius.Is r) (hr0 : 0 < r) (τ : ℚ) (hτ : m < τ)
    (hout : 400 / 2 ^ 24 * L ^ 2 ≤ power c r (along o d m)) (hin : power c r (along o d τ) ≤ -(400 / 2 ^ 24 * L ^ 2))
    (rh0 rayhit out : RayHit Single) (hit : Bool) (r' : Run (Bool × RayHit Single))
    (hX : τ + 220 * n * (1 / 2 ^ 24 + ε) * L < X)
    (hrh : rh0.hitDistance = .inf false ∨ ∃ M', rh0.hitDistance.Is M' ∧ τ + 220 * n * (1 / 2 ^ 24 + ε) * L < M')
    (h : s.intersect1 (Ray.make origin direction minHit maxHit false) rh0 = .ok (hit, out))
    (h' : e.Intersect1 rtc (Ray.make origin direction minHit maxHit false) rayhit r') :
    hit = true ∧ ∃ out' k k', r' = .ok (true, out') ∧ out.hitDistance.Is k ∧ out'.hitDistance.Is k' ∧
      T < k ∧ k ≤ τ + 220 * n * (1 / 2 ^ 24 + ε) * L ∧ T < k' ∧ k' ≤ τ + 220 * n * (1 / 2 ^ 24 + ε) * L ∧
      |k - k'| < τ + 220 * n * (1 / 2 ^ 24 + ε) * L - T := by
  obtain ⟨hp1, hp2⟩ := unit_sizes hunit
  have L0 : 0 < L := lt_of_lt_of_le (by norm_num) hL1
  have n1 : (q.coll.centers.length : ℚ) ≤ n := by exact_mod_cast hn
  have n2 : ((e.attached.length : ℚ) + 1) ≤ n := by exact_mod_cast hn'
  have u0 : (0 : ℚ) < 1 / 2 ^ 24 := by norm_num
  have hw : 0 ≤ (1 / 2 ^ 24 + ε) * L := by positivity
  have w1 : 106 * q.coll.centers.length / 2 ^ 24 * L ≤ 220 * n * (1 / 2 ^ 24 + ε) * L := by
    have a1 : (q.coll.centers.length : ℚ) * ((1 / 2 ^ 24 + ε) * L) ≤ n * ((1 / 2 ^ 24 + ε) * L) := mul_le_mul_of_nonneg_right n1 hw
    have a2 : 0 ≤ (q.coll.centers.length : ℚ) * (ε * L) := by positivity
    have a3 : 0 ≤ (q.coll.centers.length : ℚ) * (1 / 2 ^ 24 * L) := by positivity
    have e1 : 106 * (q.coll.centers.length : ℚ) / 2 ^ 24 * L = 106 * ((q.coll.centers.length : ℚ) * (1 / 2 ^ 24 * L)) := by ring
    have e2 : (q.coll.centers.length : ℚ) * ((1 / 2 ^ 24 + ε) * L) = (q.coll.centers.length : ℚ) * (1 / 2 ^ 24 * L) + (q.coll.centers.length : ℚ) * (ε * L) := by ring
    have e3 : 220 * (n : ℚ) * (1 / 2 ^ 24 + ε) * L = 220 * (n * ((1 / 2 ^ 24 + ε) * L)) := by ring
    rw [e1, e3]
    linarith
  have w2 : 220 * ((e.attached.length : ℚ) + 1) * (1 / 2 ^ 24 + ε) * L ≤ 220 * n * (1 / 2 ^ 24 + ε) * L := by
    have := mul_le_mul_of_nonneg_right n2 hw
    linarith
  have w0 : 0 ≤ 220 * ((e.attached.length : ℚ) + 1) * (1 / 2 ^ 24 + ε) * L := by positivity
  obtain ⟨rfl, k, hk, -, hk1⟩ := C80_sphere_float hist hcom q hq L hL1 hL2 origin direction minHit maxHit o p m ho hdir hmin hm hneg hunit
    hharm hsize j center radius hcj hrj c r hc hr hr0 d hd τ hτ hout hin rh0 out hit (by
      simp only [List.mem_cons, List.not_mem_nil, or_false]
      rintro x (rfl | rfl)
      · exact .inr ⟨X, hmax, by linarith⟩
      · exact hrh.imp_right fun ⟨M', a1, a2⟩ => ⟨M', a1, by linarith⟩) h
  obtain ⟨out', k', rfl, hk', hk2⟩ := C98_closest_float L ε hL1 hL2 ε0 hε hrun hup hlen hrtc origin direction minHit maxHit o p d m X ho hdir
    hmin hm hp1 hp2 hmax hd hesize i _ hi τ 0 ⟨c, r, hc, hr, hr0, hτ, le_rfl, (by ring : _ = _).trans_le hout, hin.trans_eq (by ring)⟩
    (by linarith) rayhit r' h'
  obtain ⟨t1, f1, f2, -⟩ := C107_float hist hcom origin direction minHit maxHit o p d m T ho hdir hmin hm hp1 hp2 hd hfree rh0 out h
  obtain ⟨t2, f3, f4⟩ := C107_embree_float hrun hrtc.tidy origin direction minHit maxHit o p d m T ho hdir hmin hm hp1 hp2 hd hmesh hefree
    rayhit out' h'
  obtain rfl := f1.unique hk
  obtain rfl := f3.unique hk'
  refine ⟨rfl, out', _, _, rfl, hk, hk', f2, by linarith, f4, by linarith, ?_⟩
  rw [abs_lt]
  constructor <;> linarith

/-- **C108**, rectangles.  If the ray is clear of all geometry until `T` and clearly crosses a rectangle common to both scenes at `τ`, then both
back-ends report a hit, and both distances are between `T` and `τ`, up to `M` and rounding. -/
theorem C108_rectangle {s : Scene Single} {rs : List Nat} (hist : History s rs) (hcom : s.committed = true)
    (q : Part (PlaneColl Single) Single (Plane Single)) (hq : s.planes = some q)
    {l : Layout} {calls : List (EmbCall Single)} {e : EmbScene Single} (hrun : embRun l .init calls = .ok e)
    (hup : e.UpToDate) (hlen : e.attached.length ≤ invalidId) (hmesh : ∀ i v f, ¬ e.HasMesh i v f) {rtc : Rtc Single} (hrtc : rtc.Careful)
    (L ε T : ℚ) (n : Nat) (hn : q.coll.centers.length ≤ n) (hn' : e.attached.length + 1 ≤ n) (hL1 : 1 / 2 ^ 51 ≤ L) (hL2 : L ≤ 2 ^ 60)
    (ε0 : 0 ≤ ε) (hε : ε ≤ 1 / 1000) (origin direction : Vec3 Single) (minHit maxHit : Single) (o p d : Vec3 ℚ) (m X : ℚ)
    (ho : IsV origin o) (hdir : IsV direction p) (hmin : minHit.Is m) (hm : 0 ≤ m) (hmax : maxHit.Is X)
    (hneg : ∀ i, direction.get i ≠ .fin 0 true) (hunit : |Vec3.dot p p - 1| ≤ 16 / 2 ^ 24)
    (hharm : Harmless q.coll.toCollection (1 / 2 ^ 126) ((2 - 1 / 2 ^ 23) * 2 ^ 127) o p)
    (hd : IsV (Ray.make origin direction minHit maxHit false).direction d)
    (hsize : ∀ (i : Nat) (center : Vec3 Single) (dx dy : Single) (rotation : Mat3 Single), q.coll.centers[i]? = some center →
      q.coll.dxs[i]? = some dx → q.coll.dys[i]? = some dy → q.coll.rotations[i]? = some rotation →
      ∃ c a b R, IsV center c ∧ dx.Is a ∧ dy.Is b ∧ IsM rotation R ∧ NearOrtho ε R ∧
        |o.x| + |o.y| + |o.z| + |c.x| + |c.y| + |c.z| + |a| + |b| ≤ L)
    (hesize : ∀ j g, e.HasUser j g → g.Within ε L o)
    (hfree : s.FreeUntil (1 / 2 ^ 24) (1 / 2 ^ 51) (2 ^ 60) (1 / 2 ^ 20) (2 ^ 15) ((2 - 1 / 2 ^ 23) * 2 ^ 127) m (1 / 2 ^ 10) (2 ^ 10)
      (1 / 2 ^ 20) (Ray.make origin direction minHit maxHit false).direction o d T)
    (hefree : ∀ i g, e.HasUser i g → g.FreeUntil (1 / 2 ^ 24) (1 / 2 ^ 51) (2 ^ 60) (1 / 2 ^ 10) (2 ^ 10) (1 / 2 ^ 20)
      (Ray.make origin direction minHit maxHit false).direction o d T)
    (j i id : Nat) (center : Vec3 Single) (dx dy : Single) (rotation : Mat3 Single) (hcj : q.coll.centers[j]? = some center)
    (hxj : q.coll.dxs[j]? = some dx) (hyj : q.coll.dys[j]? = some dy) (hrj : q.coll.rotations[j]? = some rotation)
    (hi : e.HasUser i (.plane ⟨center, dx, dy, rotation, id⟩))
    (c : Vec3 ℚ) (a b : ℚ) (R : Mat3 ℚ) (hc : IsV center c) (ha : dx.Is a) (hb : dy.Is b) (hR : IsM rotation R)
    (τ M κ : ℚ) (hmeet : MeetsRect c a b R o d m τ M κ) (hM : 200 * (1 / 2 ^ 24 + ε) * L ≤ M * κ)
    (rh0 rayhit out : RayHit Single) (hit : Bool) (r' : Run (Bool × RayHit Single))
    (hX : τ + M + 220 * n * (1 / 2 ^ 24 + ε) * L < X)
    (hrh : rh0.hitDistance = .inf false ∨ ∃ M', rh0.hitDistance.Is M' ∧ τ + M + 220 * n * (1 / 2 ^ 24 + ε) * L < M')
    (h : s.intersect1 (Ray.make origin direction minHit maxHit false) rh0 = .ok (hit, out))
    (h' : e.Intersect1 rtc (Ray.make origin direction minHit maxHit false) rayhit r') :
    hit = true ∧ ∃ out' k k', r' = .ok (true, out') ∧ out.hitDistance.Is k ∧ out'.hitDistance.Is k' ∧
      T < k ∧ k ≤ τ + M + 220 * n * (1 / 2 ^ 24 + ε) * L ∧ T < k' ∧ k' ≤ τ + M + 220 * n * (1 / 2 ^ 24 + ε) * L ∧
      |k - k'| < τ + M + 220 * n * (1 / 2 ^ 24 + ε) * L - T := by
  obtain ⟨hp1, hp2⟩ := unit_sizes hunit
  have L0 : 0 < L := lt_of_lt_of_le (by norm_num) hL1
  have n1 : (q.coll.centers.length : ℚ) ≤ n := by exact_mod_cast hn
  have n2 : ((e.attached.length : ℚ) + 1) ≤ n := by exact_mod_cast hn'
  have u0 : (0 : ℚ) < 1 / 2 ^ 24 := by norm_num
  have hw : 0 ≤ (1 / 2 ^ 24 + ε) * L := by positivity
  have w1 : 152 * q.coll.centers.length * (1 / 2 ^ 24 + ε) * L ≤ 220 * n * (1 / 2 ^ 24 + ε) * L := by
    have a1 : (q.coll.centers.length : ℚ) * ((1 / 2 ^ 24 + ε) * L) ≤ n * ((1 / 2 ^ 24 + ε) * L) := mul_le_mul_of_nonneg_right n1 hw
    have a2 : 0 ≤ (n : ℚ) * ((1 / 2 ^ 24 + ε) * L) := by positivity
    linarith
  have w2 : 220 * ((e.attached.length : ℚ) + 1) * (1 / 2 ^ 24 + ε) * L ≤ 220 * n * (1 / 2 ^ 24 + ε) * L := by
    have := mul_le_mul_of_nonneg_right n2 hw
    linarith
  have w0 : 0 ≤ 220 * ((e.attached.length : ℚ) + 1) * (1 / 2 ^ 24 + ε) * L := by positivity
  obtain ⟨rfl, k, hk, -, hk1⟩ := C80_plane_float hist hcom q hq L ε hL1 hL2 hε origin direction minHit maxHit o p m ho hdir hmin hm hneg hunit
    hharm hsize j center dx dy rotation hcj hxj hyj hrj c a b R hc ha hb hR d hd τ M κ hmeet hM rh0 out hit (by
      simp only [List.mem_cons, List.not_mem_nil, or_false]
      rintro x (rfl | rfl)
      · exact .inr ⟨X, hmax, by linarith⟩
      · exact hrh.imp_right fun ⟨M', a1, a2⟩ => ⟨M', a1, by linarith⟩) h
  obtain ⟨out', k', rfl, hk', hk2⟩ := C98_closest_float L ε hL1 hL2 ε0 hε hrun hup hlen hrtc origin direction minHit maxHit o p d m X ho hdir
    hmin hm hp1 hp2 hmax hd hesize i _ hi τ M ⟨c, a, b, R, κ, hc, ha, hb, hR, hmeet, hM⟩ (by linarith) rayhit r' h'
  obtain ⟨t1, f1, f2, -⟩ := C107_float hist hcom origin direction minHit maxHit o p d m T ho hdir hmin hm hp1 hp2 hd hfree rh0 out h
  obtain ⟨t2, f3, f4⟩ := C107_embree_float hrun hrtc.tidy origin direction minHit maxHit o p d m T ho hdir hmin hm hp1 hp2 hd hmesh hefree
    rayhit out' h'
  obtain rfl := f1.unique hk
  obtain rfl := f3.unique hk'
  refine ⟨rfl, out', _, _, rfl, hk, hk', f2, by linarith, f4, by linarith, ?_⟩
  rw [abs_lt]
  constructor <;> linarith

/-! ### Examples -/

/-- a unit sphere and a rectangle behind it, for the native back-end -/
def nativePair : List (Call Single) := [.addSpheres [svec 0 0 0] [sgl 1], .addPlanes [svec 0 0 3] [sgl 4] [sgl 4] [sIdMat], .commit]
/-- and for Embree -/
def embreePair : List (EmbCall Single) := [.addSpheres [svec 0 0 0] [sgl 1], .addPlanes [svec 0 0 3] [sgl 4] [sgl 4] [sIdMat], .commit]
/-- the native collection of the sphere -/
def pairSpheres : SphereColl Single :=
  { centers := [svec 0 0 0]
    radii := [sgl 1]
    boxes := [sphereBox (svec 0 0 0) (sgl 1)] }

/-- the range condition of C67 for one coordinate in `float`, as a computation -/
def coordOk32 (o d : ℚ) : Single → Bool
  | .fin c _ => decide (CoordInRange (1 / 2 ^ 126) ((2 - 1 / 2 ^ 23) * 2 ^ 127) c o d)
  | _ => false

theorem pair_harmless : Harmless pairSpheres.toCollection (1 / 2 ^ 126) ((2 - 1 / 2 ^ 23) * 2 ^ 127) ⟨0, 1/2, -5⟩ ⟨0, 0, 1⟩ := by
  have hb : ∀ {i b}, pairSpheres.toCollection.box i = .ok b → b ∈ pairSpheres.boxes :=
    fun h => List.mem_of_getElem? (lookup_eq_ok.1 h)
  refine ⟨fun i _ b h => ?_, fun i _ b h k c hc => ?_, fun hz => absurd hz (by norm_num)⟩
  · have : ∀ b ∈ pairSpheres.boxes, BoxInRange b := by decide +kernel
    exact this b (hb h)
  · have : ∀ b ∈ pairSpheres.boxes, ∀ k : Fin 3,
        coordOk32 ((⟨0, 1/2, -5⟩ : Vec3 ℚ).get k) ((⟨0, 0, 1⟩ : Vec3 ℚ).get k) (b.1.get k) = true ∧
        coordOk32 ((⟨0, 1/2, -5⟩ : Vec3 ℚ).get k) ((⟨0, 0, 1⟩ : Vec3 ℚ).get k) (b.2.get k) = true := by decide +kernel
    obtain ⟨e1, e2⟩ := this b (hb h) k
    rcases hc with ⟨s, hc⟩ | ⟨s, hc⟩
    · rw [hc] at e1; exact of_decide_eq_true e1
    · rw [hc] at e2; exact of_decide_eq_true e2

theorem pair_sphere_free : SphereFree (1 / 2 ^ 24) (1 / 2 ^ 51) (2 ^ 60) (svec 0 0 0) (sgl 1) ⟨0, 1/2, -5⟩ ⟨0, 0, 1⟩ 4 := by
  have f0 : (sgl 0).Is 0 := ⟨false, by decide +kernel⟩
  refine ⟨⟨0, 0, 0⟩, 1, 7, ⟨f0, f0, f0⟩, ⟨false, by decide +kernel⟩, by decide +kernel, by decide +kernel, by decide +kernel, fun t _ h => ?_⟩
  have e : power (⟨0, 0, 0⟩ : Vec3 ℚ) 1 (along ⟨0, 1/2, -5⟩ ⟨0, 0, 1⟩ t) = (t - 5) ^ 2 - 3 / 4 := by
    simp only [power, along, Vec3.dot, Vec3.sub_x, Vec3.sub_y, Vec3.sub_z, Vec3.add_x, Vec3.add_y, Vec3.add_z, Vec3.smul_x, Vec3.smul_y, Vec3.smul_z]
    ring
  have h1 : 1 ≤ (t - 5) ^ 2 := by nlinarith
  rw [e, abs_of_pos (by linarith)]
  have : (2000 * (1 / 2 ^ 24) * 7 ^ 2 : ℚ) < 1 / 4 := by decide +kernel
  linarith

theorem sId_is : IsM sIdMat ⟨⟨1, 0, 0⟩, ⟨0, 1, 0⟩, ⟨0, 0, 1⟩⟩ := by
  refine ⟨⟨?_, ?_, ?_⟩, ⟨?_, ?_, ?_⟩, ⟨?_, ?_, ?_⟩⟩ <;> exact ⟨false, by decide +kernel⟩

theorem pair_rect_free : RectFree (1 / 2 ^ 24) (1 / 2 ^ 51) (2 ^ 60) (svec 0 0 3) (sgl 4) (sgl 4) sIdMat ⟨0, 1/2, -5⟩ ⟨0, 0, 1⟩ 4 := by
  have f0 : (sgl 0).Is 0 := ⟨false, by decide +kernel⟩
  have f3 : (sgl 3).Is 3 := ⟨false, by decide +kernel⟩
  have f4 : (sgl 4).Is 4 := ⟨false, by decide +kernel⟩
  refine ⟨⟨0, 0, 3⟩, 4, 4, _, 0, 17, ⟨f0, f0, f3⟩, f4, f4, sId_is, by constructor <;> constructor <;> decide +kernel, by decide +kernel,
    by decide +kernel, by decide +kernel, by decide +kernel, fun t _ h y hy => ⟨2, ?_⟩⟩
  obtain ⟨a, b, -, -, -, -, rfl⟩ := hy
  have e : (along (⟨0, 1/2, -5⟩ : Vec3 ℚ) ⟨0, 0, 1⟩ t).get 2 -
      ((⟨0, 0, 3⟩ : Vec3 ℚ) + Mat3.mulVec ⟨⟨1, 0, 0⟩, ⟨0, 1, 0⟩, ⟨0, 0, 1⟩⟩ ⟨a, b, 0⟩).get 2 = t - 8 := by
    simp only [along, Vec3.get, Mat3.mulVec, Vec3.dot, Vec3.add_x, Vec3.add_y, Vec3.add_z, Vec3.smul_x, Vec3.smul_y, Vec3.smul_z]
    ring
  rw [e, abs_of_neg (by linarith)]
  have : (600 * (1 / 2 ^ 24) * 17 + 40 * 0 * 17 : ℚ) < 2 := by decide +kernel
  linarith

/-- The ray along `z` that passes the centre at a distance of `1/2` enters the sphere at `5 - √(3/4) ≈ 4.134`, which is not a `float`.  Both
back-ends report hits between 4 and 4.18. -/
example (rtc : Rtc Single) (hrtc : rtc.Careful) (l : Layout) (rayhit : RayHit Single) :
    ∃ (s : Scene Single) (rs : List Nat) (hit : Bool) (out : RayHit Single) (e : EmbScene Single), History s rs ∧ s.committed = true ∧
      embRun l .init embreePair = .ok e ∧
      s.intersect1 (Ray.make (svec 0 (1/2) (-5)) (svec 0 0 1) (sgl 0) (sgl 100) false) RayHit.fresh = .ok (hit, out) ∧ hit = true ∧
      ∀ r, e.Intersect1 rtc (Ray.make (svec 0 (1/2) (-5)) (svec 0 0 1) (sgl 0) (sgl 100) false) rayhit r →
        ∃ out' k k', r = .ok (true, out') ∧ out.hitDistance.Is k ∧ out'.hitDistance.Is k' ∧ 4 < k ∧ k ≤ 418 / 100 ∧ 4 < k' ∧ k' ≤ 418 / 100 := by
  obtain ⟨s, h1, h2, h3, h4, h5, h6, h7⟩ := exists_ok_of_eval (x := runCalls stablePartition nativePair)
    (q := fun s => s.committed = true ∧ s.spheres.map Part.coll = some pairSpheres ∧
      s.planes.all (fun q => decide (q.coll.centers = [svec 0 0 3] ∧ q.coll.dxs = [sgl 4] ∧ q.coll.dys = [sgl 4] ∧
        q.coll.rotations.map (fun r => (r.r0, r.r1, r.r2)) = [(svec 1 0 0, svec 0 1 0, svec 0 0 1)])) = true ∧
      s.mesh.isNone = true ∧ s.cylinders.isNone = true ∧
      evalOk (s.intersect1 (Ray.make (svec 0 (1/2) (-5)) (svec 0 0 1) (sgl 0) (sgl 100) false) RayHit.fresh) (fun r => r.1) = true)
    (by decide +kernel)
  obtain ⟨rs, hs⟩ := runCalls_history h1
  obtain ⟨⟨hit, out⟩, hr, hr1⟩ := exists_ok_of_eval
    (x := s.intersect1 (Ray.make (svec 0 (1/2) (-5)) (svec 0 0 1) (sgl 0) (sgl 100) false) RayHit.fresh) (q := fun r => r.1 = true) (by simpa using h7)
  obtain ⟨q, hq, hcoll⟩ : ∃ q, s.spheres = some q ∧ q.coll = pairSpheres := by
    cases hc : s.spheres with
    | none => rw [hc] at h3; cases h3
    | some q => rw [hc] at h3; exact ⟨q, rfl, Option.some.inj h3⟩
  refine ⟨s, rs, hit, out, _, hs, h2, rfl, hr, hr1, fun r h => ?_⟩
  have f0 : (sgl 0).Is 0 := ⟨false, by decide +kernel⟩
  have f1 : (sgl 1).Is 1 := ⟨false, by decide +kernel⟩
  have f3 : (sgl 3).Is 3 := ⟨false, by decide +kernel⟩
  have f4 : (sgl 4).Is 4 := ⟨false, by decide +kernel⟩
  have f100 : (sgl 100).Is 100 := ⟨false, by decide +kernel⟩
  have fo : IsV (svec 0 (1/2) (-5)) ⟨0, 1/2, -5⟩ := ⟨⟨false, by decide +kernel⟩, ⟨false, by decide +kernel⟩, ⟨true, by decide +kernel⟩⟩
  have fd : IsV (Ray.make (svec 0 (1/2) (-5)) (svec 0 0 1) (sgl 0) (sgl 100) false).direction ⟨0, 0, 1⟩ :=
    ⟨⟨false, by decide +kernel⟩, ⟨false, by decide +kernel⟩, ⟨false, by decide +kernel⟩⟩
  have hid : ∀ r : Mat3 Single, (r.r0, r.r1, r.r2) = (svec 1 0 0, svec 0 1 0, svec 0 0 1) → r = sIdMat := by
    rintro ⟨a, b, c⟩ h
    simp only [Prod.mk.injEq] at h
    rw [h.1, h.2.1, h.2.2]
    rfl
  obtain ⟨-, out', k, k', g1, g2, g3, g4, g5, g6, g7, -⟩ := C108_sphere hs h2 q hq (l := l) (calls := embreePair) rfl ⟨_, rfl, rfl⟩ (by decide)
    (fun i v f hm => by
      rcases i with _ | _ | i <;> cases hm)
    hrtc 20 0 4 3 (by rw [hcoll]; decide) (by decide) (by decide +kernel) (by decide +kernel) le_rfl (by decide +kernel)
    (svec 0 (1/2) (-5)) (svec 0 0 1) (sgl 0) (sgl 100) ⟨0, 1/2, -5⟩ ⟨0, 0, 1⟩ ⟨0, 0, 1⟩ 0 100 fo ⟨f0, f0, f1⟩ f0 le_rfl f100 (by decide +kernel)
    (by decide +kernel) (hcoll ▸ pair_harmless) fd
    (fun i center radius hc hr => by
      rw [hcoll] at hc hr
      have hlt : i < 1 := (List.getElem?_eq_some_iff.1 hc).1
      interval_cases i
      cases hc; cases hr
      exact ⟨⟨0, 0, 0⟩, 1, ⟨f0, f0, f0⟩, f1, by decide +kernel⟩)
    (fun j g hg => by
      obtain ⟨a, ha, hg⟩ := hg
      rcases j with _ | _ | j
      · cases ha; cases hg
        exact ⟨⟨0, 0, 0⟩, 1, ⟨f0, f0, f0⟩, f1, by decide +kernel⟩
      · cases ha; cases hg
        exact ⟨⟨0, 0, 3⟩, 4, 4, _, ⟨f0, f0, f3⟩, f4, f4, sId_is, by constructor <;> constructor <;> decide +kernel, by decide +kernel⟩
      · cases ha)
    ⟨fun x hx i center radius hc hr => by
        rw [hq, Option.some.injEq] at hx
        rw [← hx, hcoll] at hc hr
        have hlt : i < 1 := (List.getElem?_eq_some_iff.1 hc).1
        interval_cases i
        cases hc; cases hr
        exact pair_sphere_free,
      fun x hx i center dx dy rotation hc h8 h9 hr => by
        rw [hx, Option.all_some, decide_eq_true_iff] at h4
        obtain ⟨k1, k2, k3, k4⟩ := h4
        rw [k1] at hc
        rw [k2] at h8
        rw [k3] at h9
        have hlt : i < 1 := (List.getElem?_eq_some_iff.1 hc).1
        interval_cases i
        cases hc; cases h8; cases h9
        have k5 := congrArg (·[0]?) k4
        simp only [List.getElem?_map, hr, Option.map_some, List.getElem?_cons_zero, Option.some.injEq] at k5
        obtain rfl := hid rotation k5
        exact pair_rect_free,
      fun x hx => (by rw [hx] at h5; cases h5), fun x hx => (by rw [hx] at h6; cases h6)⟩
    (fun j g hg => by
      obtain ⟨a, ha, hg⟩ := hg
      rcases j with _ | _ | j
      · cases ha; cases hg
        exact pair_sphere_free
      · cases ha; cases hg
        exact pair_rect_free
      · cases ha)
    0 0 0 (svec 0 0 0) (sgl 1) (hcoll ▸ rfl) (hcoll ▸ rfl) ⟨0, rfl, rfl⟩ ⟨0, 0, 0⟩ 1 ⟨f0, f0, f0⟩ f1 one_pos (417 / 100) (by norm_num) (by decide +kernel)
    (by decide +kernel) RayHit.fresh rayhit out hit r (by norm_num)
    (.inr ⟨Format.binary32.maxVal, ⟨false, rfl⟩, by decide +kernel⟩) hr h
  exact ⟨out', k, k', g1, g2, g3, g4, g5.trans (by norm_num), g6, g7.trans (by norm_num)⟩

end Blazert
