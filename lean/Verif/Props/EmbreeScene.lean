/- Property theorem C50: the closest hit of a whole Embree scene. -/
import Verif.Proofs.EmbreeTrace
import Verif.Proofs.Mesh
import Verif.Proofs.Cover
import Verif.Samples
import Verif.SamplesReal
import Mathlib.Data.Set.Finite.Lattice

set_option autoImplicit false

namespace Blazert
open Scalar

section
variable {F : Fmt ℝ}

/-- **C50** in exact arithmetic for scenes without cylinders, in any state a sequence of calls leads to, if the last commit is up to
date, and for any sound behaviour of Embree: every query succeeds; it reports a hit if the ray hits a geometry strictly within its
limits; and what it reports is a hit on the primitive named, none being nearer.  Missing: cylinders (`C50_false_with_cylinders`). -/
theorem C50_closest_partial (hF : F.Exact) {l : Layout} {calls : List (EmbCall (XF F))} {s : EmbScene (XF F)}
    (hrun : embRun l .init calls = .ok s) (hup : s.UpToDate) (hlen : s.attached.length ≤ invalidId)
    (hplain : ∀ i g, s.HasUser i g → g.Plain) {rtc : Rtc (XF F)} (hrtc : rtc.Sound) {origin direction : Vec3 (XF F)}
    {minHit maxHit : XF F} {o d : Vec3 ℝ} {m M : ℝ} (hray : RayBase origin direction minHit maxHit o d m M) {any : Bool}
    {rayhit : RayHit (XF F)} {r : Run (Bool × RayHit (XF F))}
    (hq : s.Intersect1 rtc (Ray.make origin direction minHit maxHit any) rayhit r) :
    ∃ hit rayhit', r = .ok (hit, rayhit') ∧
      ((∃ i k t, s.HitAt o (unit d) m i k t ∧ m < t ∧ t < M) → hit = true) ∧
      (hit = true → ∃ i t, rayhit'.hitDistance.Is t ∧ s.HitAt o (unit d) m i rayhit'.primId t ∧ t ≤ M ∧
        ∀ i' k' t', s.HitAt o (unit d) m i' k' t' → m < t' → t ≤ t') := by
  obtain ⟨halive, b, hb, hl, hb1, hb2⟩ := upToDate_of_run hrun hup
  obtain ⟨order, r', hperm, htr, rfl⟩ := (intersect1_iff hb hl).1 hq
  have hord : ∀ i, i ∈ order ↔ i < s.attached.length := fun i => by rw [hperm.mem_iff, List.mem_range]
  have H0 : Progress s o (unit d) m M M (Ray.make origin direction minHit maxHit any).toRtc :=
    ⟨⟨hray.org, hray.dirUnit hF any, hray.min, hray.max, hray.unit_sq, hray.nonneg⟩, fun _ => rfl, fun h => absurd rfl h⟩
  obtain ⟨rh', M', rfl, h1, H, h2⟩ := htr.progress hF hrtc hlen (embInv_of_run hrun).ids hplain halive hb1 hb2
    (fun i hi => (hord i).1 hi) M H0
  refine ⟨(rh'.copyTo rayhit).1, (rh'.copyTo rayhit).2, rfl, ?_, ?_⟩
  · rintro ⟨i, k, t, k1, k2, k3⟩
    have hM := h2 i ((hord i).2 k1.lt_length) k t k1 k2
    have : rh'.hit.geomID ≠ invalidId := fun hn => by
      have := H.none hn
      linarith
    rw [RtcRayHit.copyTo, if_pos this]
  · intro hhit
    by_cases hn : rh'.hit.geomID ≠ invalidId
    · obtain ⟨k1, k2⟩ := H.some hn
      refine ⟨rh'.hit.geomID, M', ?_, ?_, k1, fun i' k' t' ht' => h2 i' ((hord i').2 ht'.lt_length) k' t' ht'⟩
      · rw [RtcRayHit.copyTo, if_pos hn]; exact H.ray.far
      · rw [RtcRayHit.copyTo, if_pos hn]; exact k2
    · rw [RtcRayHit.copyTo, if_neg hn] at hhit
      cases hhit

/-- under the same assumptions all possible answers have the same truth value and distance, unless a hit is exactly at a limit -/
theorem C50_order_irrelevant_partial (hF : F.Exact) {l : Layout} {calls : List (EmbCall (XF F))} {s : EmbScene (XF F)}
    (hrun : embRun l .init calls = .ok s) (hup : s.UpToDate) (hlen : s.attached.length ≤ invalidId)
    (hplain : ∀ i g, s.HasUser i g → g.Plain) {rtc rtc' : Rtc (XF F)} (hrtc : rtc.Sound) (hrtc' : rtc'.Sound)
    {origin direction : Vec3 (XF F)} {minHit maxHit : XF F} {o d : Vec3 ℝ} {m M : ℝ}
    (hray : RayBase origin direction minHit maxHit o d m M)
    (hlim : ∀ i k, ¬ s.HitAt o (unit d) m i k m ∧ ¬ s.HitAt o (unit d) m i k M) {any : Bool}
    {x x' y y' : RayHit (XF F)} {hit hit' : Bool}
    (h : s.Intersect1 rtc (Ray.make origin direction minHit maxHit any) x (.ok (hit, y)))
    (h' : s.Intersect1 rtc' (Ray.make origin direction minHit maxHit any) x' (.ok (hit', y'))) :
    hit = hit' ∧ (hit = true → ∃ t, y.hitDistance.Is t ∧ y'.hitDistance.Is t) := by
  obtain ⟨_, _, e, a1, a2⟩ := C50_closest_partial hF hrun hup hlen hplain hrtc hray h
  cases e
  obtain ⟨_, _, e, b1, b2⟩ := C50_closest_partial hF hrun hup hlen hplain hrtc' hray h'
  cases e
  have low : ∀ {i k t}, s.HitAt o (unit d) m i k t → m < t := by
    intro i k t ht
    refine lt_of_le_of_ne ?_ fun he => (hlim i k).1 (by rw [he]; rw [he] at ht; exact ht)
    rcases ht with ⟨_, g, _, h⟩ | ⟨v, f, _, _, _, _, _, h, _⟩
    · exact h.lt.le
    · exact h
  have high : ∀ {i k t}, s.HitAt o (unit d) m i k t → t ≤ M → t < M := by
    intro i k t ht hle
    exact lt_of_le_of_ne hle fun he => (hlim i k).2 (by rw [← he]; exact ht)
  have e : hit = hit' := by
    rw [Bool.eq_iff_iff]
    constructor
    · intro hh
      obtain ⟨i, t, _, k2, k3, _⟩ := a2 hh
      exact b1 ⟨i, _, t, k2, low k2, high k2 k3⟩
    · intro hh
      obtain ⟨i, t, _, k2, k3, _⟩ := b2 hh
      exact a1 ⟨i, _, t, k2, low k2, high k2 k3⟩
  refine ⟨e, fun hh => ?_⟩
  obtain ⟨i, t, k1, k2, k3, k4⟩ := a2 hh
  obtain ⟨i', t', q1, q2, q3, q4⟩ := b2 (e ▸ hh)
  have : t = t' := le_antisymm (k4 i' _ t' q2 (low q2)) (q4 i _ t k2 (low k2))
  exact ⟨t, k1, by rw [this]; exact q1⟩

end

/-! ### examples -/

theorem FaceHit.unique {F : Fmt ℝ} {v : List (Vec3 (XF F))} {f : List (Vec3 Nat)} {o u : Vec3 ℝ} {m t t' : ℝ} {k : Nat}
    (h : FaceHit v f o u m k t) (h' : FaceHit v f o u m k t') : t = t' := by
  obtain ⟨A, B, C, ⟨fc, a, b, c, h1, h2, h3, h4, hA, hB, hC⟩, -, hd, p, q, -, -, -, hp⟩ := h
  obtain ⟨A', B', C', ⟨fc', a', b', c', h1', h2', h3', h4', hA', hB', hC'⟩, -, -, p', q', -, -, -, hp'⟩ := h'
  rw [h1] at h1'; cases h1'
  rw [h2] at h2'; cases h2'
  rw [h3] at h3'; cases h3'
  rw [h4] at h4'; cases h4'
  rw [hA'.unique hA, hB'.unique hB, hC'.unique hC] at hp'
  refine triangle_param_unique ?_ hp hp'
  rw [triDet_eq_neg, neg_ne_zero]
  exact hd

/-- there are finitely many hits -/
theorem faceHit_finite {F : Fmt ℝ} (v : List (Vec3 (XF F))) (f : List (Vec3 Nat)) (o u : Vec3 ℝ) (m : ℝ) :
    {t | ∃ k, FaceHit v f o u m k t}.Finite := by
  have : {t | ∃ k, FaceHit v f o u m k t} = ⋃ k ∈ Set.Iio f.length, {t | FaceHit v f o u m k t} := by
    ext t
    simp only [Set.mem_setOf_eq, Set.mem_iUnion, Set.mem_Iio, exists_prop]
    constructor
    · rintro ⟨k, h⟩
      refine ⟨k, ?_, h⟩
      obtain ⟨_, _, _, ⟨_, _, _, _, h1, _⟩, _⟩ := h
      exact (List.getElem?_eq_some_iff.1 h1).1
    · rintro ⟨k, _, h⟩; exact ⟨k, h⟩
  rw [this]
  exact (Set.finite_Iio _).biUnion fun k _ => Set.Subsingleton.finite fun t ht t' ht' => FaceHit.unique ht ht'

/-- the mesh hit to be recorded: the closest one within the limits -/
def ClosestFace {F : Fmt ℝ} (v : List (Vec3 (XF F))) (f : List (Vec3 Nat)) (ray : RtcRay (XF F)) (x : Nat × ℝ) : Prop :=
  ∃ o u m M, ray.For o u m M ∧ FaceHit v f o u m x.1 x.2 ∧ x.2 < M ∧ m < x.2 ∧ ∀ k' t', FaceHit v f o u m k' t' → m < t' → x.2 ≤ t'

theorem RtcRay.For.unique {F : Fmt ℝ} {r : RtcRay (XF F)} {o u o' u' : Vec3 ℝ} {m M m' M' : ℝ} (h : r.For o u m M)
    (h' : r.For o' u' m' M') : o = o' ∧ u = u' ∧ m = m' ∧ M = M' :=
  ⟨h.org.unique h'.org, h.dir.unique h'.dir, h.near.unique h'.near, h.far.unique h'.far⟩

open Classical in
/-- an Embree without flaws -/
noncomputable def idealRtc : Rtc (XF exactFmt) where
  tri v f id rh :=
    if h : ∃ x, ClosestFace v f rh.ray x then
      { rh with ray := { rh.ray with tfar := rl h.choose.2 }, hit := { rh.hit with geomID := id, primID := h.choose.1 } }
    else rh
  miss b r := ∀ o u m M mn mx, r.For o u m M → IsV b.1 mn → IsV b.2 mx → ∀ t, m ≤ t → t ≤ M → ¬ InBox mn mx (along o u t)

theorem idealRtc_sound : idealRtc.Sound where
  miss _ _ h := h
  mesh v f id rh o u m M hr := by
    by_cases h : ∃ x, ClosestFace v f rh.ray x
    · right
      obtain ⟨o', u', m', M', h1, h2, h3, h4, h5⟩ := h.choose_spec
      obtain ⟨rfl, rfl, rfl, rfl⟩ := hr.unique h1
      refine ⟨h.choose.1, h.choose.2, rl h.choose.2, rl_is _, h2, h3.le, h5, ?_⟩
      simp only [idealRtc, dif_pos h]
      exact ⟨trivial, trivial, trivial⟩
    · left
      refine ⟨by simp only [idealRtc, dif_neg h], fun k t hk hm => ?_⟩
      by_contra hlt
      have hfin : {t | (∃ k, FaceHit v f o u m k t) ∧ m < t}.Finite := (faceHit_finite v f o u m).subset fun t h => h.1
      obtain ⟨t0, ⟨⟨k0, h0⟩, hm0⟩, hmin⟩ := hfin.exists_minimal ⟨t, ⟨k, hk⟩, hm⟩
      have hle : ∀ k' t', FaceHit v f o u m k' t' → m < t' → t0 ≤ t' := by
        intro k' t' hk' hm'
        rcases le_total t0 t' with h | h
        · exact h
        · exact hmin ⟨⟨k', hk'⟩, hm'⟩ h
      refine h ⟨(k0, t0), o, u, m, M, hr, h0, ?_, hm0, hle⟩
      exact lt_of_le_of_lt (hle k t hk hm) (not_le.1 hlt)

/-- the unit sphere around the origin, the square of side 2 around `(3,0,0)` perpendicular to the z axis, and a triangle -/
noncomputable def embCalls0 : List (EmbCall (XF exactFmt)) :=
  [.addSpheres [rvec 0 0 0] [rl 1], .addPlanes [rvec 3 0 0] [rl 2] [rl 2] [idM],
   .addMesh [rvec 0 0 5, rvec 1 0 5, rvec 0 1 5] [⟨0, 1, 2⟩], .commit]

/-- the ray `(-5,0,0) + t (1,0,0)`: the assumptions are met, and a query of this scene reports the hit on the sphere at distance 4 -/
example (l : Layout) (rayhit : RayHit (XF exactFmt)) : ∃ s, embRun l .init embCalls0 = .ok s ∧
    ∃ r, s.Intersect1 idealRtc (Ray.make (rvec (-5) 0 0) (rvec 1 0 0) (rl 0) (rl 100) false) rayhit r ∧
    ∃ rayhit' t, r = .ok (true, rayhit') ∧ rayhit'.hitDistance.Is t ∧ t ≤ 4 := by
  obtain ⟨vs, hvs⟩ := seen_ok l (nat 0 : XF exactFmt) [rvec 0 0 5, rvec 1 0 5, rvec 0 1 5]
  obtain ⟨fs, hfs⟩ := seen_ok l 0 [(⟨0, 1, 2⟩ : Vec3 Nat)]
  let S : UserGeom (XF exactFmt) := .sphere ⟨rvec 0 0 0, rl 1, 0⟩
  let P : UserGeom (XF exactFmt) := .plane ⟨rvec 3 0 0, rl 2, rl 2, idM, 1⟩
  let s : EmbScene (XF exactFmt) := ⟨[some S, some P], [.user 0, .user 1, .mesh vs fs], some 0, some 1, none, true,
    some [some S.bounds, some P.bounds, none]⟩
  have hrun : embRun l .init embCalls0 = .ok s := by
    simp only [embRun, embCalls0, List.foldlM_cons, List.foldlM_nil, EmbCall.exec, EmbScene.addSpheres, EmbScene.addPlanes,
      EmbScene.addMesh, hvs, hfs, lookup, EmbScene.init, EmbScene.commit]
    rfl
  have hup : s.UpToDate := ⟨_, rfl, rfl⟩
  have hS : s.HasUser 0 S := ⟨0, rfl, rfl⟩
  have hplain : ∀ i g, s.HasUser i g → g.Plain := by
    rintro i g ⟨p, h1, h2⟩
    match i, h1 with
    | 0, h1 => cases h1; cases h2; exact ⟨⟨0, 0, 0⟩, 1, rvec_is _ _ _, rl_is _, zero_le_one⟩
    | 1, h1 => cases h1; cases h2; exact ⟨⟨3, 0, 0⟩, 2, 2, idR, rvec_is _ _ _, rl_is _, rl_is _, idM_is, two_pos, two_pos, idR_orthonormal⟩
    | 2, h1 => cases h1
    | n + 3, h1 => cases h1
  have hray : RayBase (F := exactFmt) (rvec (-5) 0 0) (rvec 1 0 0) (rl 0) (rl 100) ⟨-5, 0, 0⟩ ⟨1, 0, 0⟩ 0 100 :=
    ⟨rvec_is _ _ _, rvec_is _ _ _, rl_is _, rl_is _, le_rfl, by simp⟩
  have hu : unit ⟨1, 0, 0⟩ = ⟨1, 0, 0⟩ := by
    have : len ⟨1, 0, 0⟩ = 1 := by norm_num [len, sq, Vec3.dot]
    unfold unit; rw [this]; ext <;> norm_num [Vec3.divs]
  obtain ⟨x, hx⟩ := RtcTrace.exists_ok (process := s.process idealRtc)
    (EmbScene.MaySkip idealRtc [some S.bounds, some P.bounds, none]) (List.range 3)
    (Ray.make (rvec (-5) 0 0) (rvec 1 0 0) (rl 0) (rl 100) false).toRtc
    (fun i hi a => process_ok (upToDate_of_run hrun hup).1 (List.mem_range.1 hi) a)
  have hq : s.Intersect1 idealRtc (Ray.make (rvec (-5) 0 0) (rvec 1 0 0) (rl 0) (rl 100) false) rayhit _ :=
    (intersect1_iff rfl rfl).2 ⟨List.range 3, _, .refl _, hx, rfl⟩
  refine ⟨s, hrun, _, hq, ?_⟩
  obtain ⟨hit, rayhit', e, h1, h2⟩ := C50_closest_partial exactFmt_exact hrun hup (show 3 ≤ invalidId by decide) hplain idealRtc_sound hray hq
  have hat : s.HitAt ⟨-5, 0, 0⟩ (unit ⟨1, 0, 0⟩) 0 0 0 4 := by
    refine .inl ⟨rfl, S, hS, ⟨0, 0, 0⟩, 1, ⟨rvec_is _ _ _, rl_is _, zero_le_one⟩, by norm_num, ?_⟩
    rw [hu]
    change dist3 _ _ = _
    rw [dist3_eq_iff (by norm_num)]; norm_num [sq, Vec3.dot, along]
  have hh := h1 ⟨0, 0, 4, hat, by norm_num, by norm_num⟩
  subst hh
  obtain ⟨i, t, k1, k2, k3, k4⟩ := h2 rfl
  exact ⟨rayhit', t, e, k1, k4 0 0 4 hat (by norm_num)⟩

/-- **C50** is false with cylinders: since these ignore `tfar`, the answer depends on the order of the callbacks, and a cylinder may
hide a nearer sphere.  In binary32, with any Embree: the sphere of radius 1/2 around `(-2,0,0)`, the cylinder of radius 1 around the
origin, and the ray from `(-5,0,0)` along the x axis; 5/2 and 4 are both possible. -/
theorem C50_false_with_cylinders (l : Layout) (rtc : Rtc Single) :
    ∃ s, embRun l .init [.addSpheres [svec (-2) 0 0] [sgl (1/2)],
        .addCylinders [svec 0 0 0] [sgl 1] [sgl 1] [sgl 2] [⟨svec 1 0 0, svec 0 1 0, svec 0 0 1⟩], .commit] = .ok s ∧
    ∃ r1 r2, s.Intersect1 rtc (Ray.make' (svec (-5) 0 0) (svec 1 0 0)) RayHit.fresh (.ok (true, r1)) ∧
      s.Intersect1 rtc (Ray.make' (svec (-5) 0 0) (svec 1 0 0)) RayHit.fresh (.ok (true, r2)) ∧
      r1.hitDistance = sgl (5/2) ∧ r2.hitDistance = sgl 4 := by
  let S : UserGeom Single := .sphere ⟨svec (-2) 0 0, sgl (1/2), 0⟩
  let Y : UserGeom Single := .cylinder ⟨svec 0 0 0, sgl 1, sgl 1, sgl 2, ⟨svec 1 0 0, svec 0 1 0, svec 0 0 1⟩, 1⟩
  let s : EmbScene Single := ⟨[some S, some Y], [.user 0, .user 1], some 0, none, some 1, true, some [some S.bounds, some Y.bounds]⟩
  let ray : RtcRayHit Single := (Ray.make' (svec (-5) 0 0) (svec 1 0 0)).toRtc
  have hS : s.HasUser 0 S := ⟨0, rfl, rfl⟩
  have hY : s.HasUser 1 Y := ⟨1, rfl, rfl⟩
  refine ⟨s, rfl, ((S.intersect invalidId (Y.intersect invalidId ray)).copyTo RayHit.fresh).2,
    ((Y.intersect invalidId (S.intersect invalidId ray)).copyTo RayHit.fresh).2, ?_, ?_, by decide +kernel, by decide +kernel⟩
  · refine (intersect1_iff rfl rfl).2 ⟨[1, 0], _, by decide, .call (process_user hY _) (.call (process_user hS _) (.done _)), ?_⟩
    have : ((S.intersect invalidId (Y.intersect invalidId ray)).copyTo RayHit.fresh).1 = true := by decide +kernel
    rw [← this]; rfl
  · refine (intersect1_iff rfl rfl).2 ⟨[0, 1], _, by decide, .call (process_user hS _) (.call (process_user hY _) (.done _)), ?_⟩
    have : ((Y.intersect invalidId (S.intersect invalidId ray)).copyTo RayHit.fresh).1 = true := by decide +kernel
    rw [← this]; rfl

end Blazert
