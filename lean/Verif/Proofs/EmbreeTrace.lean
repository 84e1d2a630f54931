/- Helper lemmas: hits of whole Embree scenes. -/
import Verif.Proofs.Embree
import Verif.Proofs.EmbreeApi
import Verif.Props.Sphere
import Verif.Props.Plane

set_option autoImplicit false
set_option linter.unusedSectionVars false

namespace Blazert
open Scalar

/-! ### the bounds Embree knows are those of the objects -/

section
variable {T : Type} [Scalar T]

/-- what is known to Embree is nothing, or the bounds of the geometries, or out of date -/
def KnownOk (s : EmbScene T) : Prop :=
  s.known = none ∨ ∃ b, s.known = some b ∧ b.length ≤ s.attached.length ∧
    (b.length = s.attached.length → s.attached.mapM s.rtcBounds = .ok b)

theorem mapM_get {A B : Type} (f : A → Run B) (l : List A) (r : List B) (h : l.mapM f = .ok r) (i : Nat) (a : A)
    (ha : l[i]? = some a) : ∃ b, r[i]? = some b ∧ f a = .ok b := by
  induction l generalizing r i with
  | nil => simp at ha
  | cons a' l ih =>
    rw [List.mapM_cons, run_bind_eq_ok] at h
    obtain ⟨b, hb, h⟩ := h
    rw [run_bind_eq_ok] at h
    obtain ⟨bs, hbs, h⟩ := h
    cases h
    cases i with
    | zero =>
      simp at ha
      subst ha
      exact ⟨b, rfl, hb⟩
    | succ i => exact ih bs hbs i (by simpa using ha)

theorem KnownOk.exec {l : Layout} {s s' : EmbScene T} {c : EmbCall T} (H : KnownOk s) (h : c.exec l s = .ok s') : KnownOk s' := by
  cases hc : c.isCommit with
  | false =>
    have hs : s'.known = s.known ∧ s'.attached.length = s.attached.length + 1 := by
      rcases exec_callStep hc h with ⟨_, v, f, rfl⟩ | ⟨k, _, g, h⟩
      · exact ⟨rfl, by simp⟩
      · exact ⟨h.known, by rw [h.attached]; simp⟩
    rcases H with H | ⟨b, h1, h2, h3⟩
    · exact .inl (hs.1.trans H)
    · exact .inr ⟨b, hs.1.trans h1, by rw [hs.2]; omega, fun hl => by rw [hs.2] at hl; omega⟩
  | true =>
    cases c <;> try cases hc
    change s.commit = _ at h
    unfold EmbScene.commit at h
    split at h
    · cases h; exact H
    · rw [run_bind_eq_ok] at h
      obtain ⟨b, hb, h⟩ := h
      cases h
      exact .inr ⟨b, rfl, (mapM_length _ _ _ hb).le, fun _ => hb⟩

theorem knownOk_of_run {l : Layout} {s s' : EmbScene T} {calls : List (EmbCall T)} (H : KnownOk s) (h : embRun l s calls = .ok s') :
    KnownOk s' := by
  induction calls generalizing s with
  | nil => cases h; exact H
  | cons c cs ih =>
    unfold embRun at h
    rw [List.foldlM_cons, run_bind_eq_ok] at h
    obtain ⟨s1, h1, h⟩ := h
    exact ih (H.exec h1) h

/-- after any calls: if the scene is up to date, Embree knows the bounds of all objects, which exist -/
theorem upToDate_of_run {l : Layout} {s : EmbScene T} {calls : List (EmbCall T)} (h : embRun l .init calls = .ok s) (hu : s.UpToDate) :
    s.Alive ∧ ∃ b, s.known = some b ∧ b.length = s.attached.length ∧ (∀ i g, s.HasUser i g → b[i]? = some (some g.bounds)) ∧
      (∀ i v f, s.HasMesh i v f → b[i]? = some none) := by
  obtain ⟨b, hb, hl⟩ := hu
  rcases knownOk_of_run (.inl rfl) h with H | ⟨b', h1, -, h3⟩
  · rw [H] at hb; cases hb
  · rw [hb] at h1; cases h1
    have hm := h3 hl
    refine ⟨fun p hp => ?_, b, hb, hl, ?_, ?_⟩
    · obtain ⟨i, hi, he⟩ := List.mem_iff_getElem.1 hp
      obtain ⟨x, _, hx⟩ := mapM_get _ _ _ hm i _ (by rw [List.getElem?_eq_getElem hi, he])
      simp only [EmbScene.rtcBounds, run_bind_eq_ok] at hx
      obtain ⟨g, hg, -⟩ := hx
      unfold EmbScene.deref at hg
      split at hg
      · rename_i g' hg'; exact ⟨g', hg'⟩
      · cases hg
    · rintro i g ⟨p, k1, k2⟩
      obtain ⟨x, hx, hx'⟩ := mapM_get _ _ _ hm i _ k1
      simp only [EmbScene.rtcBounds, EmbScene.deref, k2, run_bind_ok] at hx'
      cases hx'
      exact hx
    · intro i v f k
      obtain ⟨x, hx, hx'⟩ := mapM_get _ _ _ hm i _ k
      cases hx'
      exact hx

end

/-! ### closest hits -/

section
variable {F : Fmt ℝ}

/-- the state of the ray after some callbacks -/
structure Progress (s : EmbScene (XF F)) (o u : Vec3 ℝ) (m M M' : ℝ) (rh : RtcRayHit (XF F)) : Prop where
  ray : rh.ray.For o u m M'
  none : rh.hit.geomID = invalidId → M' = M
  some : rh.hit.geomID ≠ invalidId → M' ≤ M ∧ s.HitAt o u m rh.hit.geomID rh.hit.primID M'

theorem RtcRay.For.set {r : RtcRay (XF F)} {o u : Vec3 ℝ} {m M M' : ℝ} {x : XF F} (h : r.For o u m M) (hx : x.Is M') :
    (⟨r.org, r.dir, r.tnear, x⟩ : RtcRay (XF F)).For o u m M' := ⟨h.org, h.dir, h.near, hx, h.unit, h.nonneg⟩

theorem isM_unique {x : Mat3 (XF F)} {a b : Mat3 ℝ} (h : IsM x a) (h' : IsM x b) : a = b := by
  cases a; cases b
  simp only [Mat3.mk.injEq]
  exact ⟨h.1.unique h'.1, h.2.1.unique h'.2.1, h.2.2.unique h'.2.2⟩

/-- one callback on a sphere or plane -/
theorem UserGeom.step (hF : F.Exact) {g : UserGeom (XF F)} (hg : g.Plain) {rh : RtcRayHit (XF F)} {o u : Vec3 ℝ} {m M : ℝ}
    (hr : rh.ray.For o u m M) (inst : Nat) :
    (g.intersect inst rh = rh ∧ ∀ t, g.HitAt o u m t → M ≤ t) ∨
    ∃ t x n, x.Is t ∧ g.HitAt o u m t ∧ t < M ∧ Records rh (g.intersect inst rh) g.geomID x n ∧ ∀ t', g.HitAt o u m t' → t ≤ t' := by
  cases g with
  | sphere s =>
    obtain ⟨c, r, hs⟩ := hg
    have hu : ∀ {t}, (UserGeom.sphere s).HitAt o u m t → m < t ∧ OnSphere c r (along o u t) := by
      rintro t ⟨c', r', hs', h1, h2⟩
      rw [hs.center.unique hs'.center, hs.radius.unique hs'.radius]
      exact ⟨h1, h2⟩
    rcases EmbSphere.intersect_cases hF inst hs hr (Ray.make' rh.ray.org rh.ray.dir) with ⟨h, -, h'⟩ | ⟨t, x, n, h1, h2, h3, h4, h5, h6, -⟩
    · refine .inl ⟨h, fun t ht => ?_⟩
      by_contra hlt
      exact h' t (hu ht).1 (not_le.1 hlt) (hu ht).2
    · exact .inr ⟨t, x, n, h1, ⟨c, r, hs, h2, h4⟩, h3, h6, fun t' ht' => h5 t' (hu ht').1 (hu ht').2⟩
  | plane p =>
    obtain ⟨c, dx, dy, R, hp⟩ := hg
    have hu : ∀ {t}, (UserGeom.plane p).HitAt o u m t → m < t ∧ Vec3.dot (perp R) u ≠ 0 ∧ InRect c dx dy R (along o u t) := by
      rintro t ⟨c', dx', dy', R', hp', h1, h2, h3⟩
      rw [hp.center.unique hp'.center, hp.d1.unique hp'.d1, hp.d2.unique hp'.d2, isM_unique hp.rot hp'.rot]
      exact ⟨h1, h2, h3⟩
    rcases EmbPlane.intersect_cases hF inst hp hr with ⟨h, h'⟩ | ⟨hz, t, x, n, h1, h2, h3, h4, h5⟩
    · refine .inl ⟨h, fun t ht => ?_⟩
      by_contra hlt
      exact h' (hu ht).2.1 t (hu ht).1 (not_le.1 hlt) (hu ht).2.2
    · exact .inr ⟨t, x, n, h1, ⟨c, dx, dy, R, hp, h2, hz, h4⟩, h3, h5, fun t' ht' => (rect_unique hp.orth hz h4 (hu ht').2.2).le⟩
  | cylinder y => exact hg.elim

/-- hits are within the bounds -/
theorem UserGeom.hit_in_bounds (hF : F.Exact) {g : UserGeom (XF F)} (hg : g.Plain) (o u : Vec3 ℝ) (m : ℝ) :
    ∃ mn mx, IsV g.bounds.1 mn ∧ IsV g.bounds.2 mx ∧ ∀ t, g.HitAt o u m t → InBox mn mx (along o u t) := by
  cases g with
  | sphere s =>
    obtain ⟨c, r, hs⟩ := hg
    obtain ⟨mn, mx, h1, h2, -, h3, -⟩ := C27_sphere_box hF s.center s.radius c r hs.center hs.radius hs.nonneg
    refine ⟨mn, mx, h1, h2, ?_⟩
    rintro t ⟨c', r', hs', -, h⟩
    rw [← hs.center.unique hs'.center, ← hs.radius.unique hs'.radius] at h
    exact h3 _ (le_of_eq h)
  | plane p =>
    obtain ⟨c, dx, dy, R, hp⟩ := hg
    obtain ⟨mn, mx, h1, h2, -, h3⟩ := C35_plane_box hF p.center p.d1 p.d2 p.rot c dx dy R hp.center hp.d1 hp.d2 hp.rot hp.dx_pos.le
      hp.dy_pos.le
    refine ⟨mn, mx, h1, h2, ?_⟩
    rintro t ⟨c', dx', dy', R', hp', -, -, h⟩
    rw [← hp.center.unique hp'.center, ← hp.d1.unique hp'.d1, ← hp.d2.unique hp'.d2, ← isM_unique hp.rot hp'.rot] at h
    exact h3 _ h
  | cylinder y => exact hg.elim

theorem UserGeom.HitAt.lt {g : UserGeom (XF F)} {o u : Vec3 ℝ} {m t : ℝ} (h : g.HitAt o u m t) : m < t := by
  cases g with
  | sphere s => obtain ⟨_, _, _, h, _⟩ := h; exact h
  | plane p => obtain ⟨_, _, _, _, _, h, _⟩ := h; exact h
  | cylinder y => exact h.elim

theorem EmbScene.HasUser.unique {T : Type} {s : EmbScene T} {i : Nat} {g g' : UserGeom T} (h : s.HasUser i g) (h' : s.HasUser i g') :
    g = g' := by
  obtain ⟨p, h1, h2⟩ := h
  obtain ⟨p', h1', h2'⟩ := h'
  rw [h1] at h1'; cases h1'
  rw [h2] at h2'; cases h2'
  rfl

theorem EmbScene.HasUser.not_mesh {T : Type} {s : EmbScene T} {i : Nat} {g : UserGeom T} (h : s.HasUser i g) {v : List (Vec3 T)}
    {f : List (Vec3 Nat)} : ¬ s.HasMesh i v f := by
  obtain ⟨p, h1, h2⟩ := h
  intro h'
  unfold EmbScene.HasMesh at h'
  rw [h1] at h'; cases h'

theorem EmbScene.HitAt.user {s : EmbScene (XF F)} {o u : Vec3 ℝ} {m t : ℝ} {i k : Nat} (h : s.HitAt o u m i k t) {g : UserGeom (XF F)}
    (hg : s.HasUser i g) : k = 0 ∧ g.HitAt o u m t := by
  rcases h with ⟨hk, g', h1, h2⟩ | ⟨v, f, h1, h2⟩
  · rw [hg.unique h1]; exact ⟨hk, h2⟩
  · exact absurd h1 hg.not_mesh

theorem EmbScene.HitAt.mesh {s : EmbScene (XF F)} {o u : Vec3 ℝ} {m t : ℝ} {i k : Nat} (h : s.HitAt o u m i k t) {v : List (Vec3 (XF F))}
    {f : List (Vec3 Nat)} (hm : s.HasMesh i v f) : FaceHit v f o u m k t := by
  rcases h with ⟨hk, g', h1, h2⟩ | ⟨v', f', h1, h2⟩
  · exact absurd hm h1.not_mesh
  · unfold EmbScene.HasMesh at hm h1
    rw [hm] at h1; cases h1
    exact h2

theorem EmbScene.HitAt.lt_length {s : EmbScene (XF F)} {o u : Vec3 ℝ} {m t : ℝ} {i k : Nat} (h : s.HitAt o u m i k t) :
    i < s.attached.length := by
  rcases h with ⟨_, g', ⟨p, h1, _⟩, _⟩ | ⟨v', f', h1, _⟩
  · exact (List.getElem?_eq_some_iff.1 h1).1
  · exact (List.getElem?_eq_some_iff.1 h1).1

/-- processing one geometry -/
theorem Progress.process (hF : F.Exact) {s : EmbScene (XF F)} {rtc : Rtc (XF F)} (hrtc : rtc.Sound) (hlen : s.attached.length ≤ invalidId)
    (hids : ∀ i g, s.HasUser i g → g.geomID = i) (hplain : ∀ i g, s.HasUser i g → g.Plain) {o u : Vec3 ℝ} {m M M' : ℝ}
    {rh rh' : RtcRayHit (XF F)} (H : Progress s o u m M M' rh) {i : Nat} (hi : i < s.attached.length) (h : s.process rtc i rh = .ok rh') :
    ∃ M'', M'' ≤ M' ∧ Progress s o u m M M'' rh' ∧ ∀ k t, s.HitAt o u m i k t → m < t → M'' ≤ t := by
  have hM : M' ≤ M := by
    by_cases hn : rh.hit.geomID = invalidId
    · exact (H.none hn).le
    · exact (H.some hn).1
  have hne : i ≠ invalidId := by omega
  rcases process_cases h with ⟨g, hg, rfl⟩ | ⟨v, f, hm, rfl⟩
  · rcases UserGeom.step hF (hplain i g hg) H.ray invalidId with ⟨h1, h2⟩ | ⟨t, x, n, h1, h2, h3, h4, h5⟩
    · rw [h1]
      exact ⟨M', le_rfl, H, fun k t ht _ => h2 t (ht.user hg).2⟩
    · rw [hids i g hg] at h4
      refine ⟨t, h3.le, ⟨by rw [h4.ray]; exact H.ray.set h1, fun hc => absurd (h4.geom.symm.trans hc) hne, fun _ => ?_⟩,
        fun k t' ht' _ => h5 t' (ht'.user hg).2⟩
      rw [h4.geom, h4.prim]
      exact ⟨h3.le.trans hM, .inl ⟨rfl, g, hg, h2⟩⟩
  · rcases hrtc.mesh v f i rh o u m M' H.ray with ⟨h1, h2⟩ | ⟨k, t, x, h1, h2, h3, h4, h5, h6, h7⟩
    · rw [h1]
      exact ⟨M', le_rfl, H, fun k t ht hmt => h2 k t (ht.mesh hm) hmt⟩
    · refine ⟨t, h3, ⟨by rw [h5]; exact H.ray.set h1, fun hc => absurd (h6.symm.trans hc) hne, fun _ => ?_⟩,
        fun k t' ht' hmt => h4 k t' (ht'.mesh hm) hmt⟩
      rw [h6, h7]
      exact ⟨h3.trans hM, .inr ⟨v, f, hm, h2⟩⟩

/-- any schedule -/
theorem RtcTrace.progress (hF : F.Exact) {s : EmbScene (XF F)} {rtc : Rtc (XF F)} (hrtc : rtc.Sound) (hlen : s.attached.length ≤ invalidId)
    (hids : ∀ i g, s.HasUser i g → g.geomID = i) (hplain : ∀ i g, s.HasUser i g → g.Plain) (halive : s.Alive)
    {bounds : List (Option (Vec3 (XF F) × Vec3 (XF F)))} (hb : ∀ i g, s.HasUser i g → bounds[i]? = some (some g.bounds))
    (hb' : ∀ i v f, s.HasMesh i v f → bounds[i]? = some none)
    {o u : Vec3 ℝ} {m M : ℝ} {order : List Nat} {rh : RtcRayHit (XF F)} {r : Run (RtcRayHit (XF F))}
    (htr : RtcTrace (s.process rtc) (EmbScene.MaySkip rtc bounds) order rh r) (ho : ∀ i ∈ order, i < s.attached.length) :
    ∀ M', Progress s o u m M M' rh → ∃ rh' M'', r = .ok rh' ∧ M'' ≤ M' ∧ Progress s o u m M M'' rh' ∧
      ∀ i ∈ order, ∀ k t, s.HitAt o u m i k t → m < t → M'' ≤ t := by
  induction htr with
  | done rh => exact fun M' H => ⟨rh, M', rfl, le_rfl, H, fun i hi => (by simp at hi)⟩
  | call h rest ih =>
    intro M' H
    obtain ⟨M1, h1, H1, k1⟩ := H.process hF hrtc hlen hids hplain (ho _ (by simp)) h
    obtain ⟨rh', M2, e, h2, H2, k2⟩ := ih (fun i hi => ho i (by simp [hi])) M1 H1
    refine ⟨rh', M2, e, h2.trans h1, H2, fun i hi k t ht hmt => ?_⟩
    rcases List.mem_cons.1 hi with rfl | hi
    · exact h2.trans (k1 k t ht hmt)
    · exact k2 i hi k t ht hmt
  | fail h =>
    obtain ⟨b, hb⟩ := process_ok (rtc := rtc) halive (ho _ List.mem_cons_self) _
    rw [hb] at h; cases h
  | @skip i is rh r h rest ih =>
    intro M' H
    obtain ⟨rh', M2, e, h2, H2, k2⟩ := ih (fun i hi => ho i (by simp [hi])) M' H
    refine ⟨rh', M2, e, h2, H2, fun j hj k t ht hmt => ?_⟩
    rcases List.mem_cons.1 hj with rfl | hj
    · obtain ⟨b, h1, hmiss⟩ := h
      rcases ht with ⟨_, g, hg, ht⟩ | ⟨v, f, hm, _⟩
      · rw [hb j g hg] at h1
        cases h1
        obtain ⟨mn, mx, q1, q2, q3⟩ := UserGeom.hit_in_bounds hF (hplain j g hg) o u m
        refine h2.trans ?_
        by_contra hlt
        exact hrtc.miss _ _ hmiss o u m M' mn mx H.ray q1 q2 t hmt.le (not_le.1 hlt).le (q3 t ht)
      · rw [hb' j v f hm] at h1
        cases h1
    · exact k2 j hj k t ht hmt

end
end Blazert
