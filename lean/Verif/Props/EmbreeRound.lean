/- C95: hits of Embree scenes with rounding. -/
import Verif.Proofs.EmbreeRound
import Verif.Props.SceneRound
import Verif.Props.EmbreeScene
import Verif.Props.EmbreeApi

set_option autoImplicit false

namespace Blazert
open Scalar

section
variable {K : Type} [Field K] [LinearOrder K] [IsStrictOrderedRing K] [FloorRing K] {F : Fmt K}

/-- **C95**, general.  In any format that rounds, for an Embree scene in any state that calls of the API lead to, and whatever Embree does
with meshes (as long as it does not change the ray) and whichever callbacks it leaves out: if a query reports a hit, it is on one of the attached
geometries; if this is the sphere or the rectangle, the point at the reported distance is on it, up to rounding, the normal is the one
there, and `prim_id` is 0. -/
theorem C95_hits_near (u η hi lo up : K) (hF : F.Rounds u η hi) (hfa : F.Faithful u η) (hodd : F.Odd)
    (hscales : ∀ L, lo ≤ L → L ≤ up → Scale u η hi L) (hlo : lo ≤ 1 / 2) (hup : 4 ≤ up)
    {l : Layout} {calls : List (EmbCall (XF F))} {s : EmbScene (XF F)} (hrun : embRun l .init calls = .ok s)
    {rtc : Rtc (XF F)} (htidy : rtc.Tidy) (origin direction : Vec3 (XF F)) (minHit maxHit : XF F) {any : Bool} (o p : Vec3 K) (m : K)
    (ho : IsV origin o) (hdir : IsV direction p) (hmin : minHit.Is m) (hm : 0 ≤ m)
    (hp1 : lo ≤ |p.x| + |p.y| + |p.z|) (hp2 : |p.x| + |p.y| + |p.z| ≤ up) (rayhit out : RayHit (XF F))
    (h : s.Intersect1 rtc (Ray.make origin direction minHit maxHit any) rayhit (.ok (true, out))) :
    ∃ i d, IsV (Ray.make origin direction minHit maxHit any).direction d ∧ |Vec3.dot d d - 1| ≤ 11 * u ∧
      ((∃ q, s.HasUser i (.sphere q) ∧ out.primId = 0 ∧ q.HitNear u lo up out.hitDistance out.normal o d) ∨
       (∃ q, s.HasUser i (.plane q) ∧ out.primId = 0 ∧ q.HitNear u lo up out.hitDistance out.normal o d) ∨
       (∃ q, s.HasUser i (.cylinder q) ∧ out.primId = 0) ∨ ∃ v f, s.HasMesh i v f) := by
  obtain ⟨d, n, g1, g2, -⟩ := C68_direction _ _ _ hF origin direction minHit maxHit any p hdir (hscales _ hp1 hp2)
  obtain ⟨i, ⟨g, rh, t, n, hg, hl, hne, hrec, e1, e2, e3⟩ | ⟨v, f, hv⟩⟩ := intersect1_source hrun htidy h
  swap
  · exact ⟨i, d, g1, g2, .inr (.inr (.inr ⟨v, f, hv⟩))⟩
  refine ⟨i, d, g1, g2, ?_⟩
  rw [e1, e2]
  have ho' : IsV rh.ray.org o := by rw [hl.org]; exact ho
  have hd' : IsV rh.ray.dir d := by rw [hl.dir]; exact g1
  have hm' : rh.ray.tnear.Is m := by rw [hl.near]; exact hmin
  cases g with
  | sphere q =>
    refine .inl ⟨q, hg, e3, fun c r L hc hr hL hL1 hL2 => ?_, fun c r L hc hr hL hr1 hL2 hsm => ?_⟩
    · obtain ⟨k, τ, y, k1, -, -, k2, -, -, -, -, k3⟩ := EmbSphere.near hF (hscales L hL1 hL2) ho' hd' hm' hm g2 hc hr hL hne hrec
      exact ⟨k, k1, k2, k3.trans_eq (by ring)⟩
    · have hrL : r ≤ L := by
        have := abs_nonneg o.x; have := abs_nonneg o.y; have := abs_nonneg o.z
        have := abs_nonneg c.x; have := abs_nonneg c.y; have := abs_nonneg c.z
        linarith
      by_cases hlo0 : 0 < r
      · exact EmbSphere.normal_near hF ho' hd' hm' hm g2 hc hr (hscales _ (by linarith) hL2) (hscales _ (by linarith) (by linarith)) hL hsm
          hne hrec
      · exfalso
        have hlr := (hscales lo le_rfl (by linarith)).pos
        linarith
  | plane q =>
    refine .inr (.inl ⟨q, hg, e3, fun c a b R ε L hc ha hb hR hε hε' hL hL1 hL2 => ?_⟩)
    obtain ⟨k, k1, k2, ⟨y, k3, k4⟩, k5⟩ := EmbPlane.near hF hfa hodd (hscales L hL1 hL2) (hscales _ hlo (by linarith))
      (hscales _ (by linarith) hup) ho' hd' hm' hm g2 ⟨hc, ha, hb, hR, hε, hL⟩ hε' hne hrec
    refine ⟨k, k1, k2, ⟨y, k3, fun j => (k4 j).trans_eq (by ring)⟩, fun ix iy => ?_⟩
    obtain ⟨n', σ, n1, n2, n3, n4, n5⟩ := k5 (lt_of_eq_of_lt (by ring) ix) (lt_of_eq_of_lt (by ring) iy)
    exact ⟨n', σ, n1, n2, n3, (by ring : _ = _).trans_le n4, n5⟩
  | cylinder q => exact .inr (.inr (.inl ⟨q, hg, e3⟩))

end

/-- **C95** for `float`, the type of the Embree back-end. -/
theorem C95_float {l : Layout} {calls : List (EmbCall Single)} {s : EmbScene Single} (hrun : embRun l .init calls = .ok s)
    {rtc : Rtc Single} (htidy : rtc.Tidy) (origin direction : Vec3 Single) (minHit maxHit : Single) {any : Bool} (o p : Vec3 ℚ) (m : ℚ)
    (ho : IsV origin o) (hdir : IsV direction p) (hmin : minHit.Is m) (hm : 0 ≤ m)
    (hp1 : 1 / 2 ^ 51 ≤ |p.x| + |p.y| + |p.z|) (hp2 : |p.x| + |p.y| + |p.z| ≤ 2 ^ 60) (rayhit out : RayHit Single)
    (h : s.Intersect1 rtc (Ray.make origin direction minHit maxHit any) rayhit (.ok (true, out))) :
    ∃ i d, IsV (Ray.make origin direction minHit maxHit any).direction d ∧ |Vec3.dot d d - 1| ≤ 11 * (1 / 2 ^ 24) ∧
      ((∃ q, s.HasUser i (.sphere q) ∧ out.primId = 0 ∧
          q.HitNear (1 / 2 ^ 24) (1 / 2 ^ 51) (2 ^ 60) out.hitDistance out.normal o d) ∨
       (∃ q, s.HasUser i (.plane q) ∧ out.primId = 0 ∧
          q.HitNear (1 / 2 ^ 24) (1 / 2 ^ 51) (2 ^ 60) out.hitDistance out.normal o d) ∨
       (∃ q, s.HasUser i (.cylinder q) ∧ out.primId = 0) ∨ ∃ v f, s.HasMesh i v f) :=
  C95_hits_near _ _ _ _ _ rounds_float faithful_float Format.binary32_odd (fun _ => scale_float) (by norm_num) (by norm_num) hrun htidy
    origin direction minHit maxHit o p m ho hdir hmin hm hp1 hp2 rayhit out h

/-- A unit sphere hit off its centre by a ray from `(-5,1/2,1/4)` in direction `x`, at a distance that is not a `float`: there is such a query,
and the point reported is on the sphere up to `2000 * 49 / 2 ^ 24`. -/
example (rtc : Rtc Single) (htidy : rtc.Tidy) (l : Layout) (rayhit : RayHit Single) :
    ∃ s out, embRun l .init [.addSpheres [svec 0 0 0] [sgl 1], .commit] = .ok s ∧
      s.Intersect1 rtc (Ray.make (svec (-5) (1/2) (1/4)) (svec 1 0 0) (sgl 0) (sgl 100) false) rayhit (.ok (true, out)) ∧
      ∃ h d, out.hitDistance.Is h ∧ 0 ≤ h ∧ |Vec3.dot d d - 1| ≤ 11 * (1 / 2 ^ 24) ∧
        |power ⟨0, 0, 0⟩ 1 (along ⟨-5, 1/2, 1/4⟩ d h)| ≤ 2000 * (1 / 2 ^ 24) * 7 ^ 2 := by
  have h := (sphereOnly_query rtc (svec 0 0 0) (sgl 1) (Ray.make (svec (-5) (1/2) (1/4)) (svec 1 0 0) (sgl 0) (sgl 100) false) rayhit).1
  have hg : ((⟨svec 0 0 0, sgl 1, 0⟩ : EmbSphere Single).intersect invalidId
    (Ray.make (svec (-5) (1/2) (1/4)) (svec 1 0 0) (sgl 0) (sgl 100) false).toRtc).hit.geomID = 0 := by decide +kernel
  rw [RtcRayHit.copyTo, if_pos (by rw [hg]; decide)] at h
  refine ⟨_, _, sphereOnly_run l _ _ _ _, h, ?_⟩
  have f0 : (sgl 0).Is 0 := ⟨false, by decide +kernel⟩
  have f1 : (sgl 1).Is 1 := ⟨false, by decide +kernel⟩
  have fo : IsV (svec (-5) (1/2) (1/4)) ⟨-5, 1/2, 1/4⟩ := ⟨⟨true, by decide +kernel⟩, ⟨false, by decide +kernel⟩, ⟨false, by decide +kernel⟩⟩
  obtain ⟨i, d, -, hd, ⟨q, hq, -, hn, -⟩ | ⟨q, hq, -⟩ | ⟨q, hq, -⟩ | ⟨v, f, hv⟩⟩ := C95_float (sphereOnly_run l _ _ [] []) htidy
    (svec (-5) (1/2) (1/4)) (svec 1 0 0) (sgl 0) (sgl 100) ⟨-5, 1/2, 1/4⟩ ⟨1, 0, 0⟩ 0 fo ⟨f1, f0, f0⟩ f0 le_rfl (by norm_num)
    (by norm_num) rayhit _ h
  · have e : q = ⟨svec 0 0 0, sgl 1, 0⟩ := by
      obtain ⟨p, hp, hp'⟩ := hq
      rcases p with _ | p
      · cases hp'; rfl
      · cases hp'
    subst e
    obtain ⟨h, h1, h2, h3⟩ := hn ⟨0, 0, 0⟩ 1 7 ⟨f0, f0, f0⟩ f1 (by norm_num) (by norm_num) (by norm_num)
    exact ⟨h, d, h1, h2, hd, h3⟩
  all_goals exfalso
  · obtain ⟨p, hp, hp'⟩ := hq
    rcases p with _ | p <;> cases hp'
  · obtain ⟨p, hp, hp'⟩ := hq
    rcases p with _ | p <;> cases hp'
  · rcases i with _ | i <;> cases hv

end Blazert
