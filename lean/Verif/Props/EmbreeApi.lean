/- Property theorems C51, C52, C53, C54, C57: the Embree scene and its API, in any arithmetic. -/
import Verif.Proofs.EmbreeApi
import Verif.Samples

set_option autoImplicit false
set_option linter.unusedSectionVars false

namespace Blazert
open Scalar

variable {T : Type} [Scalar T]

/-- 4 words (SSE) -/
def Layout.sse : Layout := ⟨4, by decide⟩
/-- 8 words (AVX) -/
def Layout.avx : Layout := ⟨8, by decide⟩

/-- the scene with one sphere, committed -/
def sphereOnly (c : Vec3 T) (r : T) : EmbScene T where
  heap := [some (.sphere ⟨c, r, 0⟩)]
  attached := [.user 0]
  sphere := some 0
  plane := none
  cylinder := none
  committed := true
  known := some [some (EmbSphere.bounds ⟨c, r, 0⟩)]

theorem sphereOnly_run (l : Layout) (c : Vec3 T) (r : T) (cs : List (Vec3 T)) (rs : List T) :
    embRun l .init [.addSpheres (c :: cs) (r :: rs), .commit] = .ok (sphereOnly c r) := rfl

theorem sphereOnly_query (rtc : Rtc T) (c : Vec3 T) (r : T) (ray : Ray T) (rayhit : RayHit T) :
    (sphereOnly c r).Intersect1 rtc ray rayhit (.ok (((⟨c, r, 0⟩ : EmbSphere T).intersect invalidId ray.toRtc).copyTo rayhit)) ∧
    ∀ x, (sphereOnly c r).Intersect1 rtc ray rayhit x →
      x = .ok (((⟨c, r, 0⟩ : EmbSphere T).intersect invalidId ray.toRtc).copyTo rayhit) ∨ x = .ok (false, rayhit) :=
  intersect1_single (g := .sphere ⟨c, r, 0⟩) rfl ⟨_, rfl, rfl⟩ ⟨0, rfl, rfl⟩ ray rayhit

/-- a ray from `(-5,0,0)` in direction `x` -/
def embRay : Ray Single := Ray.make (svec (-5) 0 0) (svec 1 0 0) (sgl 0) (sgl 100) false

/-! ### C51 -/

/-- **C51**, first part: a query that returns false leaves the `RayHit` untouched. -/
theorem C51_embree_untouched {rtc : Rtc T} {s : EmbScene T} {ray : Ray T} {rayhit rayhit' : RayHit T}
    (h : s.Intersect1 rtc ray rayhit (.ok (false, rayhit'))) : rayhit' = rayhit := by
  rcases intersect1_cases h with ⟨h, _⟩ | ⟨b, _, _, order, r', _, _, hr⟩
  · cases h
  · cases r' with
    | error e => cases hr
    | ok rh => exact copyTo_false (Except.ok.inj hr).symm

/-- **C51**, second part: whatever a query may return, it may return with any other `RayHit` passed; the answer is the same, and if it
is true, also primitive, barycentric coordinates, distance and normal. -/
theorem C51_embree_independent {rtc : Rtc T} {s : EmbScene T} {ray : Ray T} {x x' : RayHit T} {hit : Bool}
    (h : s.Intersect1 rtc ray x (.ok (hit, x'))) (y : RayHit T) :
    ∃ y', s.Intersect1 rtc ray y (.ok (hit, y')) ∧ (hit = true → SameAnswer x' y') := by
  rcases intersect1_cases h with ⟨h, _⟩ | ⟨b, hb, hl, order, r', hp, ht, hr⟩
  · cases h
  · cases r' with
    | error e => cases hr
    | ok rh =>
      have e : (hit, x') = rh.copyTo x := Except.ok.inj hr
      refine ⟨(rh.copyTo y).2, (intersect1_iff hb hl).2 ⟨order, _, hp, ht, ?_⟩, fun hh => ?_⟩
      · show _ = Except.ok (rh.copyTo y)
        rw [show hit = (rh.copyTo y).1 by rw [copyTo_fst rh y x, ← e]]
      · have := copyTo_same rh x y (by rw [← e]; exact hh)
        rwa [← e] at this

/-- the same for undefined behaviour -/
theorem C51_embree_independent_error {rtc : Rtc T} {s : EmbScene T} {ray : Ray T} {x : RayHit T} {e : UB}
    (h : s.Intersect1 rtc ray x (.error e)) (y : RayHit T) : s.Intersect1 rtc ray y (.error e) := by
  rcases intersect1_cases h with ⟨h, hu⟩ | ⟨b, hb, hl, order, r', hp, ht, hr⟩
  · rw [h]; exact (intersect1_stale hu ..).2 rfl
  · cases r' with
    | ok rh => cases hr
    | error e' => cases hr; exact (intersect1_iff hb hl).2 ⟨order, _, hp, ht, rfl⟩

/-- a query that finds a unit sphere at distance 4, and one in the opposite direction that does not -/
example (rtc : Rtc Single) (rayhit : RayHit Single) :
    (∃ x, (sphereOnly (svec 0 0 0) (sgl 1)).Intersect1 rtc embRay rayhit (.ok (true, x)) ∧ x.hitDistance = sgl 4) ∧
    ∃ x, (sphereOnly (svec 0 0 0) (sgl 1)).Intersect1 rtc (Ray.make (svec (-5) 0 0) (svec (-1) 0 0) (sgl 0) (sgl 100) false) rayhit
      (.ok (false, x)) := by
  constructor
  · have h := (sphereOnly_query rtc (svec 0 0 0) (sgl 1) embRay rayhit).1
    have hg : ((⟨svec 0 0 0, sgl 1, 0⟩ : EmbSphere Single).intersect invalidId embRay.toRtc).hit.geomID = 0 ∧
      ((⟨svec 0 0 0, sgl 1, 0⟩ : EmbSphere Single).intersect invalidId embRay.toRtc).ray.tfar = sgl 4 := by decide +kernel
    rw [RtcRayHit.copyTo, if_pos (by rw [hg.1]; decide)] at h
    exact ⟨_, h, hg.2⟩
  · have h := (sphereOnly_query rtc (svec 0 0 0) (sgl 1) (Ray.make (svec (-5) 0 0) (svec (-1) 0 0) (sgl 0) (sgl 100) false) rayhit).1
    have hg : ((⟨svec 0 0 0, sgl 1, 0⟩ : EmbSphere Single).intersect invalidId
      (Ray.make (svec (-5) 0 0) (svec (-1) 0 0) (sgl 0) (sgl 100) false).toRtc).hit.geomID = invalidId := by decide +kernel
    rw [RtcRayHit.copyTo, if_neg (by rw [hg]; simp)] at h
    exact ⟨_, h⟩

/-! ### C52 -/

/-- **C52** is false: no query ever changes `geom_id`. -/
theorem C52_geom_id_never_set {rtc : Rtc T} {s : EmbScene T} {ray : Ray T} {rayhit rayhit' : RayHit T} {hit : Bool}
    (h : s.Intersect1 rtc ray rayhit (.ok (hit, rayhit'))) : rayhit'.geomId = rayhit.geomId := by
  rcases intersect1_cases h with ⟨h, _⟩ | ⟨b, _, _, order, r', _, _, hr⟩
  · cases h
  · cases r' with
    | error e => cases hr
    | ok rh =>
      have e : (hit, rayhit') = rh.copyTo rayhit := Except.ok.inj hr
      rw [← copyTo_geomId rh rayhit, ← e]

/-- A concrete instance in single precision: the id returned for the sphere is 0, the sphere is hit, and the `geom_id` of a fresh record
is still the invalid one. -/
theorem C52_false (rtc : Rtc Single) (l : Layout) :
    (∃ s, (EmbScene.init (T := Single)).addSpheres [svec 0 0 0] [sgl 1] = .ok (s, 0)) ∧
    embRun l .init [.addSpheres [svec 0 0 0] [sgl 1], .commit] = .ok (sphereOnly (svec 0 0 0) (sgl 1)) ∧
    ∃ x, (sphereOnly (svec 0 0 0) (sgl 1)).Intersect1 rtc embRay RayHit.fresh (.ok (true, x)) ∧ x.geomId = invalidId ∧ x.geomId ≠ 0 := by
  refine ⟨⟨_, rfl⟩, rfl, ?_⟩
  have h := (sphereOnly_query rtc (svec 0 0 0) (sgl 1) embRay RayHit.fresh).1
  have hg : ((⟨svec 0 0 0, sgl 1, 0⟩ : EmbSphere Single).intersect invalidId embRay.toRtc).hit.geomID = 0 := by decide +kernel
  rw [RtcRayHit.copyTo, if_pos (by rw [hg]; decide)] at h
  exact ⟨_, h, rfl, by decide⟩

/-- **C52**, what is true: for a scene made by the API, a query that returns true reports distance and normal of the last change of
Embree's record by the callback of an attached object or by the intersection with a mesh.  In the first case `prim_id` is 0, and the
(internal) geometry id set is the one returned when the object was added. -/
theorem C52_source_partial {l : Layout} {calls : List (EmbCall T)} {s : EmbScene T} (hrun : embRun l .init calls = .ok s) {rtc : Rtc T}
    {ray : Ray T} {rayhit rayhit' : RayHit T} (h : s.Intersect1 rtc ray rayhit (.ok (true, rayhit'))) :
    ∃ i rh, i < s.attached.length ∧
      ((∃ g, s.HasUser i g ∧ g.geomID = i ∧ ∃ t n, Records rh (g.intersect invalidId rh) i t n ∧ rayhit'.hitDistance = t ∧
        rayhit'.normal = n ∧ rayhit'.primId = 0) ∨
      (∃ v f, s.HasMesh i v f ∧ rayhit'.hitDistance = (rtc.tri v f i rh).ray.tfar ∧ rayhit'.normal = (rtc.tri v f i rh).hit.ng ∧
        rayhit'.primId = (rtc.tri v f i rh).hit.primID)) := by
  have H := embInv_of_run hrun
  rcases intersect1_cases h with ⟨h, _⟩ | ⟨b, _, _, order, r', _, ht, hr⟩
  · cases h
  cases r' with
  | error e => cases hr
  | ok z =>
    have e : (true, rayhit') = z.copyTo rayhit := Except.ok.inj hr
    let P : RtcRayHit T → Prop := fun x => x.hit.geomID = invalidId ∨ ∃ i rh, i < s.attached.length ∧
      ((∃ g, s.HasUser i g ∧ g.geomID = i ∧ x = g.intersect invalidId rh ∧ ∃ t n, Records rh x i t n) ∨
      (∃ v f, s.HasMesh i v f ∧ x = rtc.tri v f i rh))
    have hP : P z := by
      refine ht.invariant P (.inl rfl) (fun i _ a c ha hc => ?_) z rfl
      rcases process_cases hc with ⟨g, hg, hc⟩ | ⟨v, f, hm, hc⟩
      · rcases g.intersect_mayRecord invalidId a with h1 | ⟨t, n, h1⟩
        · rw [hc, h1]; exact ha
        · have hid := H.ids i g hg
          refine .inr ⟨i, a, ?_, .inl ⟨g, hg, hid, hc, t, n, ?_⟩⟩
          · obtain ⟨p, hp, _⟩ := hg
            exact (List.getElem?_eq_some_iff.1 hp).1
          · rw [hc]; rwa [hid] at h1
      · exact .inr ⟨i, a, (List.getElem?_eq_some_iff.1 hm).1, .inr ⟨v, f, hm, hc⟩⟩
    by_cases hz : z.hit.geomID = invalidId
    · rw [RtcRayHit.copyTo, if_neg (by simpa using hz)] at e
      cases e
    · rw [RtcRayHit.copyTo, if_pos hz] at e
      have e2 := (Prod.mk.inj e).2
      rcases hP with hP | ⟨i, rh, hi, ⟨g, hg, hid, hx, t, n, hrec⟩ | ⟨v, f, hm, hx⟩⟩
      · exact absurd hP hz
      · refine ⟨i, rh, hi, .inl ⟨g, hg, hid, t, n, hx ▸ hrec, ?_, ?_, ?_⟩⟩
        · rw [e2]; show z.ray.tfar = t; rw [hrec.ray]
        · rw [e2]; exact hrec.normal
        · rw [e2]; exact hrec.prim
      · exact ⟨i, rh, hi, .inr ⟨v, f, hm, by rw [e2, ← hx], by rw [e2, ← hx], by rw [e2, ← hx]⟩⟩

/-! ### C53 -/

/-- **C53** is false: a second `add_spheres` deletes the object that Embree still refers to, and `commit` uses it. -/
theorem C53_second_spheres (l : Layout) (c c' : Vec3 T) (cs cs' : List (Vec3 T)) (r r' : T) (rs rs' : List T) :
    embRun l .init [.addSpheres (c :: cs) (r :: rs), .addSpheres (c' :: cs') (r' :: rs'), .commit] = .error .dangling := rfl

/-- **C53** is false: a geometry added after `commit` is never committed, and any later query asks Embree for an intersection with a
scene that is not committed. -/
theorem C53_add_after_commit (l : Layout) {s s' : EmbScene T} {before after : List (EmbCall T)} (h1 : embRun l .init before = .ok s)
    (hc : s.committed = true) (ha : ∀ c ∈ after, c.isCommit = false) (hne : after ≠ [])
    (h2 : embRun l .init (before ++ after ++ [.commit]) = .ok s') (rtc : Rtc T) (ray : Ray T) (rayhit : RayHit T)
    (r : Run (Bool × RayHit T)) : s'.Intersect1 rtc ray rayhit r ↔ r = .error .notCommitted := by
  have hk : ∀ (calls : List (EmbCall T)) (a b : EmbScene T), embRun l a calls = .ok b → (∀ c ∈ calls, c.isCommit = false) →
      b.committed = a.committed ∧ b.known = a.known ∧ b.attached.length = a.attached.length + calls.length := by
    intro calls
    induction calls with
    | nil => intro a b h _; cases h; exact ⟨rfl, rfl, rfl⟩
    | cons c cs ih =>
      intro a b h hcs
      simp only [embRun, List.foldlM_cons, run_bind_eq_ok] at h
      obtain ⟨a1, h1, h2⟩ := h
      obtain ⟨f1, f2, f3⟩ := (exec_callStep (hcs c (by simp)) h1).frame
      obtain ⟨g1, g2, g3⟩ := ih a1 b h2 fun c h => hcs c (by simp [h])
      exact ⟨g1.trans f1, g2.trans f2, by rw [g3, f3, List.length_cons]; omega⟩
  have hup : ∀ (calls : List (EmbCall T)) (b : EmbScene T), embRun l .init calls = .ok b → ∀ bs, b.known = some bs →
      bs.length ≤ b.attached.length := by
    intro calls
    induction calls using List.reverseRecOn with
    | nil => intro b h bs hbs; cases h; cases hbs
    | append_singleton cs c ih =>
      intro b h bs hbs
      rw [embRun_append, run_bind_eq_ok] at h
      obtain ⟨a, ha', h⟩ := h
      have h : c.exec l a = .ok b := by
        simp only [embRun, List.foldlM_cons, run_bind_eq_ok] at h
        obtain ⟨_, h, h'⟩ := h; cases h'; exact h
      by_cases hcc : c.isCommit = true
      · cases c with
        | commit =>
          simp only [EmbCall.exec, EmbScene.commit] at h
          split at h
          · cases h; exact ih _ ha' bs hbs
          · rw [run_bind_eq_ok] at h
            obtain ⟨x, hx, h⟩ := h
            cases h; cases hbs
            exact le_of_eq (mapM_length _ _ _ hx)
        | _ => cases hcc
      · obtain ⟨_, f2, f3⟩ := (exec_callStep (by simpa using hcc) h).frame
        rw [f2] at hbs
        rw [f3]; exact Nat.le_succ_of_le (ih _ ha' bs hbs)
  rw [embRun_append, embRun_append, h1, run_bind_ok, run_bind_eq_ok] at h2
  obtain ⟨s2, h2, h3⟩ := h2
  obtain ⟨f1, f2, f3⟩ := hk after s s2 h2 ha
  have h3 : s2 = s' := by
    simp only [embRun, List.foldlM_cons, List.foldlM_nil, EmbCall.exec, EmbScene.commit, f1, hc, if_true] at h3
    exact Except.ok.inj h3
  subst h3
  refine intersect1_stale (fun ⟨bs, hb, hl⟩ => ?_) ..
  have := hup before s h1 bs (f2 ▸ hb)
  have := List.length_pos_of_ne_nil hne
  omega

/-- **C53** is false: a query before `commit` -/
theorem C53_query_before_commit (rtc : Rtc T) (ray : Ray T) (rayhit : RayHit T) (r : Run (Bool × RayHit T)) :
    EmbScene.init.Intersect1 rtc ray rayhit r ↔ r = .error .notCommitted := Iff.rfl

/-- **C53** is false: an empty list of spheres -/
theorem C53_no_spheres (l : Layout) (s : EmbScene T) (rs : List T) : embRun l s [.addSpheres [] rs] = .error .oobIndex := rfl

/-- **C53**, what is true: if every call passes one primitive at least, then calls to add geometries followed by `commit` end without
undefined behaviour if and only if no class of user geometries (spheres, planes, cylinders) is added twice; otherwise a deleted object
is used. -/
theorem C53_commit_iff_partial (l : Layout) (calls : List (EmbCall T)) (hc : ∀ c ∈ calls, c.isCommit = false)
    (hn : ∀ c ∈ calls, c.Nonempty) :
    ((∃ s, embRun l .init (calls ++ [.commit]) = .ok s) ↔ (calls.filterMap EmbCall.pointer).Nodup) ∧
    (¬ (calls.filterMap EmbCall.pointer).Nodup → embRun l .init (calls ++ [.commit]) = .error .dangling) := by
  obtain ⟨s, hs, hcom, _, _⟩ := embRun_adds (l := l) (s := .init) hc hn
  have H := embInv_of_run hs
  have hal := H.alive_iff
  have e : embRun l .init (calls ++ [.commit]) = s.commit := by
    rw [embRun_append, hs, run_bind_ok]
    simp only [embRun, List.foldlM_cons, List.foldlM_nil, EmbCall.exec]
    cases s.commit <;> rfl
  have hf : ¬ (calls.filterMap EmbCall.pointer).Nodup → embRun l .init (calls ++ [.commit]) = .error .dangling := fun h => by
    rw [e]; exact commit_dead (hcom.trans rfl) (mt hal.1 h)
  refine ⟨⟨fun ⟨s', hs'⟩ => ?_, fun h => ?_⟩, hf⟩
  · by_contra h
    rw [hf h] at hs'; cases hs'
  · obtain ⟨s', h1, _⟩ := commit_alive (hcom.trans rfl) (hal.2 h)
    exact ⟨s', by rw [e, h1]⟩

/-- **C53**, what is true: after such calls every query ends without undefined behaviour, whatever Embree does, and it does end. -/
theorem C53_queries_partial (l : Layout) (calls : List (EmbCall T)) (hc : ∀ c ∈ calls, c.isCommit = false)
    (hn : ∀ c ∈ calls, c.Nonempty) (hk : (calls.filterMap EmbCall.pointer).Nodup) {s : EmbScene T}
    (hs : embRun l .init (calls ++ [.commit]) = .ok s) (rtc : Rtc T) (ray : Ray T) (rayhit : RayHit T) :
    (∀ r, s.Intersect1 rtc ray rayhit r → ∃ x, r = .ok x) ∧ ∃ x, s.Intersect1 rtc ray rayhit (.ok x) := by
  obtain ⟨s1, hs1, hcom, _, _⟩ := embRun_adds (l := l) (s := .init) hc hn
  have hal := (embInv_of_run hs1).alive_iff.2 hk
  obtain ⟨s2, h1, ⟨b, hb, hl⟩, hal2, _⟩ := commit_alive (hcom.trans rfl) hal
  have : s2 = s := by
    rw [embRun_append, hs1, run_bind_ok] at hs
    simp only [embRun, List.foldlM_cons, List.foldlM_nil, EmbCall.exec, h1, run_bind_ok] at hs
    exact Except.ok.inj hs
  subst this
  constructor
  · intro r hr
    obtain ⟨order, r', hp, ht, rfl⟩ := (intersect1_iff hb hl).1 hr
    obtain ⟨x, rfl⟩ := ht.ok_of fun i hi a => process_ok hal2 (List.mem_range.1 (hp.subset hi)) a
    exact ⟨_, rfl⟩
  · obtain ⟨x, hx⟩ := RtcTrace.exists_ok (process := s2.process rtc) (EmbScene.MaySkip rtc b) (List.range s2.attached.length) ray.toRtc
      fun i hi a => process_ok hal2 (List.mem_range.1 hi) a
    exact ⟨_, (intersect1_iff hb hl).2 ⟨_, _, .refl _, hx, rfl⟩⟩

/-- two meshes, spheres and planes: allowed -/
example : ∃ calls : List (EmbCall Single), (∀ c ∈ calls, c.isCommit = false) ∧ (∀ c ∈ calls, c.Nonempty) ∧ calls.length = 4 ∧
    (calls.filterMap EmbCall.pointer).Nodup :=
  ⟨[.addMesh [svec 0 0 0] [⟨0, 0, 0⟩], .addSpheres [svec 0 0 0] [sgl 1], .addMesh [] [],
    .addPlanes [svec 0 0 0] [sgl 1] [sgl 1] [⟨svec 1 0 0, svec 0 1 0, svec 0 0 1⟩]],
    by simp [EmbCall.isCommit], by simp [EmbCall.Nonempty], rfl, by
      show [0, 1].Nodup (α := Fin 3)
      decide⟩

/-- spheres, planes and spheres again: not allowed -/
example : ∃ calls : List (EmbCall Single), (∀ c ∈ calls, c.isCommit = false) ∧ (∀ c ∈ calls, c.Nonempty) ∧
    ¬ (calls.filterMap EmbCall.pointer).Nodup :=
  ⟨[.addSpheres [svec 0 0 0] [sgl 1], .addPlanes [svec 0 0 0] [sgl 1] [sgl 1] [⟨svec 1 0 0, svec 0 1 0, svec 0 0 1⟩],
    .addSpheres [svec 5 0 0] [sgl 1]],
    by simp [EmbCall.isCommit], by simp [EmbCall.Nonempty], by
      show ¬ [0, 1, 0].Nodup (α := Fin 3)
      decide⟩

/-- a mesh added after the commit -/
example (l : Layout) : ∃ s s' : EmbScene Single, embRun l .init [.addSpheres [svec 0 0 0] [sgl 1], .commit] = .ok s ∧ s.committed = true ∧
    embRun l .init ([.addSpheres [svec 0 0 0] [sgl 1], .commit] ++ [.addMesh [] []] ++ [.commit]) = .ok s' :=
  ⟨_, _, rfl, rfl, rfl⟩

/-! ### C54 -/

/-- **C54** is false: of the spheres passed only the first is used, for all lists. -/
theorem C54_first_sphere_only (s : EmbScene T) (c : Vec3 T) (r : T) (cs : List (Vec3 T)) (rs : List T) :
    s.addSpheres (c :: cs) (r :: rs) = s.addSpheres [c] [r] := rfl

/-- **C54** is false: of the planes passed only the first is used, for all lists. -/
theorem C54_first_plane_only (s : EmbScene T) (c : Vec3 T) (x y : T) (m : Mat3 T) (cs : List (Vec3 T)) (xs ys : List T)
    (ms : List (Mat3 T)) : s.addPlanes (c :: cs) (x :: xs) (y :: ys) (m :: ms) = s.addPlanes [c] [x] [y] [m] := rfl

/-- **C54** is false: of the cylinders passed only the first is used, for all lists. -/
theorem C54_first_cylinder_only (s : EmbScene T) (c : Vec3 T) (a b h : T) (m : Mat3 T) (cs : List (Vec3 T)) (as bs hs : List T)
    (ms : List (Mat3 T)) : s.addCylinders (c :: cs) (a :: as) (b :: bs) (h :: hs) (m :: ms) = s.addCylinders [c] [a] [b] [h] [m] := rfl

/-- A concrete instance in single precision: the ray meets the second sphere at distance 4.  The query of the Embree scene returns false,
whatever Embree does; that of the native scene returns true. -/
theorem C54_false (l : Layout) :
    (∃ s, embRun l .init [.addSpheres [svec 0 9 0, svec 0 0 0] [sgl 1, sgl 1], .commit] = .ok s ∧
      ∀ rtc r rayhit, s.Intersect1 rtc embRay rayhit r → r = .ok (false, rayhit)) ∧
    ∃ r, query stablePartition [.addSpheres [svec 0 9 0, svec 0 0 0] [sgl 1, sgl 1], .commit] embRay RayHit.fresh = .ok r ∧
      r.1 = true ∧ r.2.hitDistance = sgl 4 := by
  refine ⟨⟨_, sphereOnly_run .., fun rtc r rayhit h => ?_⟩, exists_ok_of_eval (by decide +kernel)⟩
  have hg : ((⟨svec 0 9 0, sgl 1, 0⟩ : EmbSphere Single).intersect invalidId embRay.toRtc).hit.geomID = invalidId := by decide +kernel
  rcases (sphereOnly_query rtc (svec 0 9 0) (sgl 1) embRay rayhit).2 r h with h | h
  · rw [h, RtcRayHit.copyTo, if_neg (by rw [hg]; simp)]
  · exact h

/-- **C54**, what is true: the first sphere, plane or cylinder passed is attached with the id returned, and the geometries of other
classes stay what they are. -/
theorem C54_first_partial {l : Layout} {calls : List (EmbCall T)} {s : EmbScene T} (hrun : embRun l .init calls = .ok s) :
    (∀ c r cs rs, ∃ s' i, s.addSpheres (c :: cs) (r :: rs) = .ok (s', i) ∧ s'.HasUser i (.sphere ⟨c, r, i⟩) ∧
      (∀ j g, s.HasUser j g → (∀ x, g ≠ .sphere x) → s'.HasUser j g)) ∧
    (∀ c x y m cs xs ys ms, ∃ s' i, s.addPlanes (c :: cs) (x :: xs) (y :: ys) (m :: ms) = .ok (s', i) ∧
      s'.HasUser i (.plane ⟨c, x, y, m, i⟩) ∧ (∀ j g, s.HasUser j g → (∀ x, g ≠ .plane x) → s'.HasUser j g)) ∧
    ∀ c a b h m cs as bs hs ms, ∃ s' i, s.addCylinders (c :: cs) (a :: as) (b :: bs) (h :: hs) (m :: ms) = .ok (s', i) ∧
      s'.HasUser i (.cylinder ⟨c, a, b, h, m, i⟩) ∧ (∀ j g, s.HasUser j g → (∀ x, g ≠ .cylinder x) → s'.HasUser j g) := by
  have H := embInv_of_run hrun
  have K := embClasses_of_run hrun
  have new : ∀ k g s', AddStep s k g s' → s'.HasUser s.attached.length g := fun k g s' h => by
    refine ⟨s.heap.length, by rw [h.attached]; simp, ?_⟩
    rw [h.heap, freeOld_get, get_append_one]
    refine ⟨.inr ⟨rfl, rfl⟩, fun hp => ?_⟩
    obtain ⟨g, hg⟩ := H.ptr_some k _ hp
    exact absurd (List.getElem?_eq_some_iff.1 hg).1 (by omega)
  have old : ∀ k g s', AddStep s k g s' → ∀ j g', s.HasUser j g' → g'.class ≠ k → s'.HasUser j g' := fun k g s' h j g' hg' hk => by
    obtain ⟨p, h1, h2⟩ := hg'
    refine ⟨p, by rw [h.attached, get_append_one]; exact .inl h1, ?_⟩
    rw [h.heap, freeOld_get, get_append_one]
    exact ⟨.inl h2, fun hp => hk (K k p g' hp h2)⟩
  refine ⟨fun c r cs rs => ?_, fun c x y m cs xs ys ms => ?_, fun c a b h m cs as bs hs ms => ?_⟩
  · obtain ⟨s', e, st⟩ := addSpheres_step s c r cs rs
    exact ⟨s', _, e, new _ _ _ st, fun j g hg hx => old _ _ _ st j g hg (by cases g <;> simp_all [UserGeom.class])⟩
  · obtain ⟨s', e, st⟩ := addPlanes_step s c x y m cs xs ys ms
    exact ⟨s', _, e, new _ _ _ st, fun j g hg hx => old _ _ _ st j g hg (by cases g <;> simp_all [UserGeom.class])⟩
  · obtain ⟨s', e, st⟩ := addCylinders_step s c a b h m cs as bs hs ms
    exact ⟨s', _, e, new _ _ _ st, fun j g hg hx => old _ _ _ st j g hg (by cases g <;> simp_all [UserGeom.class])⟩

example (l : Layout) : ∃ s : EmbScene Single, embRun l .init [.addSpheres [svec 0 0 0] [sgl 1]] = .ok s ∧
    s.HasUser 0 (.sphere ⟨svec 0 0 0, sgl 1, 0⟩) := ⟨_, rfl, 0, rfl, rfl⟩

/-! ### C57 -/

/-- **C57** is false for every layout of the vector types: if the first vector is zero (as the padding is) and the second is not, Embree
does not see the second one. -/
theorem C57_false {A : Type} (l : Layout) (pad : A) (v : Vec3 A) (hv : v.y ≠ pad) :
    l.seen pad [⟨pad, pad, pad⟩, v] ≠ .ok [⟨pad, pad, pad⟩, v] := by
  intro h
  have h3 := l.three_le
  have h0 : ([⟨pad, pad, pad⟩, v] : List (Vec3 A))[0]? = some ⟨pad, pad, pad⟩ := rfl
  have hy : ∀ j, j < l.words → (l.memory pad [⟨pad, pad, pad⟩, v])[j]? = some pad := fun j hj => by
    have := memory_get l pad _ h0 hj
    rw [Nat.mul_zero, Nat.zero_add] at this
    rw [this]
    unfold Layout.cell
    rw [show ([pad, pad, pad] : List A) = List.replicate 3 pad from rfl, List.replicate_append_replicate, List.getElem?_replicate,
      if_pos (by omega)]
  obtain ⟨w, hw⟩ := readShared_ok l pad [⟨pad, pad, pad⟩, v] (i := 1) (by simp)
  have h1 := seen_get h (i := 1) (by simp) hw
  simp only [List.getElem?_cons_succ, List.getElem?_cons_zero, Option.some.injEq] at h1
  subst h1
  unfold readShared at hw
  rw [byteStride_words, run_bind_eq_ok] at hw
  obtain ⟨x, _, hw⟩ := hw
  rw [run_bind_eq_ok] at hw
  obtain ⟨y, hyy, hw⟩ := hw
  rw [lookup_eq_ok, hy _ (by omega)] at hyy
  cases hyy
  rw [run_bind_eq_ok] at hw
  obtain ⟨z, _, hw⟩ := hw
  cases hw
  exact hv rfl

/-- **C57** is false: with 8 or 16 words per vector (AVX, AVX-512; any even number from 6 on), Embree finds zero at all odd positions and
the vector number `k` at position `2k`; the second half of the vectors is never seen. -/
theorem C57_wide {A : Type} (l : Layout) (h : Nat) (h3 : 3 ≤ h) (hw : l.words = 2 * h) (pad : A) (vs : List (Vec3 A)) :
    ∃ ws, l.seen pad vs = .ok ws ∧ ∀ i, i < vs.length → ws[i]? = if i % 2 = 0 then vs[i / 2]? else some ⟨pad, pad, pad⟩ := by
  obtain ⟨ws, hs⟩ := seen_ok l pad vs
  refine ⟨ws, hs, fun i hi => ?_⟩
  have hv : vs[i / 2]? = some vs[i / 2] := List.getElem?_eq_getElem (by omega)
  split
  · rename_i he
    obtain ⟨k, rfl⟩ : ∃ k, i = 2 * k := ⟨i / 2, by omega⟩
    rw [hv]
    refine seen_get hs hi (readShared_even l pad vs hw ?_)
    rw [← hv]; congr 1; omega
  · obtain ⟨k, rfl⟩ : ∃ k, i = 2 * k + 1 := ⟨i / 2, by omega⟩
    have hk : (2 * k + 1) / 2 = k := by omega
    simp only [hk] at hv
    have e : l.words / 2 * (2 * k + 1) = l.words * k + h := by rw [hw, Nat.mul_div_cancel_left _ (by norm_num)]; ring
    refine seen_get hs hi (readShared_eq l pad vs _ ?_ ?_ ?_)
    · rw [e, memory_get l pad vs hv (by omega), cell_pad _ _ _ (by omega) (by omega)]
    · rw [e, Nat.add_assoc, memory_get l pad vs hv (by omega), cell_pad _ _ _ (by omega) (by omega)]
    · rw [e, Nat.add_assoc, memory_get l pad vs hv (by omega), cell_pad _ _ _ (by omega) (by omega)]

/-- **C57** is false: with 4 words per vector (SSE), the vector at the odd position `2k+1` is put together from the last component of
number `k`, zero, and the first component of number `k+1`. -/
theorem C57_sse {A : Type} (l : Layout) (hw : l.words = 4) (pad : A) (vs : List (Vec3 A)) :
    ∃ ws, l.seen pad vs = .ok ws ∧ (∀ k v, 2 * k < vs.length → vs[k]? = some v → ws[2 * k]? = some v) ∧
      ∀ k v v', 2 * k + 1 < vs.length → vs[k]? = some v → vs[k + 1]? = some v' → ws[2 * k + 1]? = some ⟨v.z, pad, v'.x⟩ := by
  obtain ⟨ws, hs⟩ := seen_ok l pad vs
  refine ⟨ws, hs, fun k v hk hv => seen_get hs hk (readShared_even l pad vs (h := 2) hw hv), fun k v v' hk hv hv' => ?_⟩
  have e : l.words / 2 * (2 * k + 1) = l.words * k + 2 := by rw [hw]; ring
  refine seen_get hs hk (readShared_eq l pad vs _ ?_ ?_ ?_)
  · rw [e, memory_get l pad vs hv (by omega)]; rfl
  · rw [e, Nat.add_assoc, memory_get l pad vs hv (by omega), cell_pad _ _ _ (by omega) (by omega)]
  · have : l.words * k + 2 + 2 = l.words * (k + 1) + 0 := by rw [hw]; ring
    rw [e, this, memory_get l pad vs hv' (by omega)]; rfl

/-- The effect on a mesh of one triangle `A`, `B`, `C`: with 8 or 16 words, Embree sees the triangle `A`, `0`, `B`. -/
theorem C57_triangle (l : Layout) (h : Nat) (h3 : 3 ≤ h) (hw : l.words = 2 * h) (s : EmbScene T) (A B C : Vec3 T) :
    s.addMesh l [A, B, C] [⟨0, 1, 2⟩] =
      .ok ({ s with attached := s.attached ++ [.mesh [A, ⟨nat 0, nat 0, nat 0⟩, B] [⟨0, 1, 2⟩]] }, s.attached.length) := by
  obtain ⟨ws, h1, h2⟩ := C57_wide l h h3 hw (nat 0 : T) [A, B, C]
  obtain ⟨fs, g1, g2⟩ := C57_wide l h h3 hw 0 [(⟨0, 1, 2⟩ : Vec3 Nat)]
  have l1 := mapM_length _ _ _ h1
  have l2 := mapM_length _ _ _ g1
  have e0 := h2 0 (by simp)
  have e1 := h2 1 (by simp)
  have e2 := h2 2 (by simp)
  have f0 := g2 0 (by simp)
  simp only [List.length_range, List.length_cons, List.length_nil] at l1 l2
  have hws : ws = [A, ⟨nat 0, nat 0, nat 0⟩, B] := by
    match ws, l1 with
    | [a, b, c], _ => simp at e0 e1 e2; rw [e0, e1, e2]
  have hfs : fs = [⟨0, 1, 2⟩] := by
    match fs, l2 with
    | [a], _ => simp at f0; rw [f0]
  simp [EmbScene.addMesh, h1, g1, hws, hfs]

/-- **C57**, what is true: for every layout, reading stays within the buffers, as many vectors are seen as were passed, and the first one
is right. -/
theorem C57_first_partial {A : Type} (l : Layout) (pad : A) (vs : List (Vec3 A)) :
    ∃ ws, l.seen pad vs = .ok ws ∧ ws.length = vs.length ∧ ws[0]? = vs[0]? := by
  obtain ⟨ws, hs⟩ := seen_ok l pad vs
  have hl := mapM_length _ _ _ hs
  rw [List.length_range] at hl
  refine ⟨ws, hs, hl, ?_⟩
  cases vs with
  | nil => match ws, hl with | [], _ => rfl
  | cons v vs => exact seen_get hs (by simp) (readShared_zero l pad v vs)

/-- for example a triangle -/
example (A B C : Vec3 Nat) : Layout.sse.seen 0 [A, B, C] = .ok [A, ⟨A.z, 0, B.x⟩, B] ∧
    Layout.avx.seen 0 [A, B, C] = .ok [A, ⟨0, 0, 0⟩, B] := by
  constructor <;>
  simp [Layout.seen, Layout.sse, Layout.avx, List.range_succ, readShared, Layout.memory, Layout.byteStride, lookup, List.replicate]

end Blazert
