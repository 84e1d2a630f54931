/- The Embree scene as a whole: callbacks, traces, the sequence of API calls.  Everything here holds in any arithmetic. -/
import Verif.Spec.Embree
import Verif.Proofs.Basic
import Mathlib.Data.List.Nodup

set_option autoImplicit false
set_option linter.unusedSectionVars false

namespace Blazert
open Scalar

variable {T : Type} [Scalar T]

/-! ### callbacks change the record in one way only -/

/-- `rh'` is `rh`, or `rh` with a hit on `g` recorded -/
def MayRecord (rh rh' : RtcRayHit T) (g : Nat) : Prop := rh' = rh ∨ ∃ t n, Records rh rh' g t n

theorem MayRecord.set (rh rh' : RtcRayHit T) (g inst : Nat) (n : Vec3 T) (t : T) (h : MayRecord rh rh' g) :
    MayRecord rh (rh'.set n 0 g inst t) g := by
  refine .inr ⟨t, n, ?_, rfl, rfl, rfl⟩
  rcases h with h | ⟨_, _, h⟩
  · rw [h]; rfl
  · simp [RtcRayHit.set, h.ray]

theorem MayRecord.refl (rh : RtcRayHit T) (g : Nat) : MayRecord rh rh g := .inl rfl

theorem MayRecord.ite {rh a b : RtcRayHit T} {g : Nat} {c : Bool} (ha : MayRecord rh a g) (hb : MayRecord rh b g) :
    MayRecord rh (if c then a else b) g := by cases c <;> assumption

theorem EmbSphere.intersect_mayRecord (s : EmbSphere T) (inst : Nat) (rh : RtcRayHit T) :
    MayRecord rh (s.intersect inst rh) s.geomID := by
  unfold EmbSphere.intersect
  extract_lets org dir v A B C D Q rcpA t0 t1 rh'
  have h' : MayRecord rh rh' s.geomID := .ite (.set _ _ _ _ _ _ (.refl _ _)) (.refl _ _)
  exact .ite (.refl _ _) (.ite (.set _ _ _ _ _ _ h') h')

theorem EmbPlane.setEdge_mayRecord (p : EmbPlane T) (inst : Nat) (rh : RtcRayHit T) (n : Vec3 T) (t : T) :
    MayRecord rh (p.setEdge inst rh n t) p.geomID := .set _ _ _ _ _ _ (.refl _ _)

theorem EmbPlane.intersect_mayRecord (p : EmbPlane T) (inst : Nat) (rh : RtcRayHit T) :
    MayRecord rh (p.intersect inst rh) p.geomID := by
  unfold EmbPlane.intersect
  extract_lets inv org dir t1 q tnear tfar xmin xmax ymin ymax s d
  refine .ite (.set _ _ _ _ _ _ (.refl _ _)) ?_
  iterate 8 refine .ite (p.setEdge_mayRecord ..) ?_
  exact .refl _ _

theorem EmbCyl.setAt_mayRecord (c : EmbCyl T) (inst : Nat) {rh rh' : RtcRayHit T} (n : Vec3 T) (t : T) (dir : Vec3 T)
    (h : MayRecord rh rh' c.geomID) : MayRecord rh (c.setAt inst rh' n t dir) c.geomID := .set _ _ _ _ _ _ h

theorem EmbCyl.lateral_mayRecord (c : EmbCyl T) (inst : Nat) (zlow : T) (swap : Bool) (org dir : Vec3 T) {rh rh' : RtcRayHit T}
    (h : MayRecord rh rh' c.geomID) : MayRecord rh (c.lateral inst zlow swap org dir rh') c.geomID := by
  unfold EmbCyl.lateral
  extract_lets a b hh
  generalize cylABC a b org dir = x
  obtain ⟨A, B, C⟩ := x
  exact .ite h (.ite (c.setAt_mayRecord _ _ _ _ (.ite (c.setAt_mayRecord _ _ _ _ h) h)) (.ite (c.setAt_mayRecord _ _ _ _ h) h))

theorem EmbCyl.aboveBelow_mayRecord (c : EmbCyl T) (inst : Nat) (cap nz : T) (swap : Bool) (org dir : Vec3 T) {rh rh' : RtcRayHit T}
    (h : MayRecord rh rh' c.geomID) : MayRecord rh (c.aboveBelow inst cap nz swap org dir rh') c.geomID := by
  unfold EmbCyl.aboveBelow
  exact .ite h (.ite h (.ite (c.setAt_mayRecord _ _ _ _ h) (c.lateral_mayRecord _ _ _ _ _ h)))

theorem EmbCyl.caps_mayRecord (c : EmbCyl T) (inst : Nat) (org dir : Vec3 T) {rh rh' : RtcRayHit T}
    (h : MayRecord rh rh' c.geomID) : MayRecord rh (c.caps inst org dir rh') c.geomID := by
  unfold EmbCyl.caps
  extract_lets hh rh2
  have h' : MayRecord rh rh2 c.geomID := .ite (c.setAt_mayRecord _ _ _ _ h) h
  exact .ite (c.setAt_mayRecord _ _ _ _ h') h'

theorem EmbCyl.inside_mayRecord (c : EmbCyl T) (inst : Nat) (org dir : Vec3 T) {rh rh' : RtcRayHit T}
    (h : MayRecord rh rh' c.geomID) : MayRecord rh (c.inside inst org dir rh') c.geomID := by
  unfold EmbCyl.inside
  extract_lets a b hh x0 y0 z0 j k l
  generalize cylABC a b org dir = x
  obtain ⟨A, B, C⟩ := x
  refine .ite (.ite h (.ite h (.ite (c.setAt_mayRecord _ _ _ _ (.ite (c.setAt_mayRecord _ _ _ _ h) h))
    (.ite (c.setAt_mayRecord _ _ _ _ h) h)))) (.ite (.ite h (c.caps_mayRecord _ _ _ h)) (.ite h ?_))
  exact .ite (c.setAt_mayRecord _ _ _ _ h) (.ite (c.setAt_mayRecord _ _ _ _ h) (c.caps_mayRecord _ _ _ h))

theorem EmbCyl.intersect_mayRecord (c : EmbCyl T) (inst : Nat) (rh : RtcRayHit T) :
    MayRecord rh (c.intersect inst rh) c.geomID := by
  unfold EmbCyl.intersect
  extract_lets a b h inv org dir x0 y0 z0 rh2
  have h' : MayRecord rh rh2 c.geomID := .ite (c.lateral_mayRecord _ _ _ _ _ (.refl _ _)) (.refl _ _)
  exact .ite (c.aboveBelow_mayRecord _ _ _ _ _ _ (.refl _ _)) (.ite (c.aboveBelow_mayRecord _ _ _ _ _ _ (.refl _ _))
    (.ite (c.inside_mayRecord _ _ _ h') h'))

theorem UserGeom.intersect_mayRecord (g : UserGeom T) (inst : Nat) (rh : RtcRayHit T) :
    MayRecord rh (g.intersect inst rh) g.geomID := by
  cases g with
  | sphere s => exact s.intersect_mayRecord inst rh
  | plane p => exact p.intersect_mayRecord inst rh
  | cylinder c => exact c.intersect_mayRecord inst rh

/-! ### what is copied back -/

theorem copyTo_false {rh : RtcRayHit T} {x y : RayHit T} (h : rh.copyTo x = (false, y)) : y = x := by
  unfold RtcRayHit.copyTo at h; split at h
  · simp at h
  · simpa using h.symm

theorem copyTo_fst (rh : RtcRayHit T) (x y : RayHit T) : (rh.copyTo x).1 = (rh.copyTo y).1 := by
  unfold RtcRayHit.copyTo; split <;> rfl

theorem copyTo_geomId (rh : RtcRayHit T) (x : RayHit T) : (rh.copyTo x).2.geomId = x.geomId := by
  unfold RtcRayHit.copyTo; split <;> rfl

theorem copyTo_same (rh : RtcRayHit T) (x y : RayHit T) (h : (rh.copyTo x).1 = true) :
    SameAnswer (rh.copyTo x).2 (rh.copyTo y).2 := by
  unfold RtcRayHit.copyTo at h ⊢
  split
  · exact ⟨rfl, rfl, rfl, rfl⟩
  · simp_all

/-- the shape of the relation when the scene is up to date -/
theorem intersect1_iff {rtc : Rtc T} {s : EmbScene T} {ray : Ray T} {rayhit : RayHit T} {r : Run (Bool × RayHit T)}
    {bounds : List (Option (Vec3 T × Vec3 T))} (hk : s.known = some bounds) (hl : bounds.length = s.attached.length) :
    s.Intersect1 rtc ray rayhit r ↔ ∃ order r', order.Perm (List.range s.attached.length) ∧
      RtcTrace (s.process rtc) (EmbScene.MaySkip rtc bounds) order ray.toRtc r' ∧ r = r'.map (·.copyTo rayhit) := by
  unfold EmbScene.Intersect1
  rw [hk]
  simp [hl]

theorem intersect1_stale {rtc : Rtc T} {s : EmbScene T} (h : ¬ s.UpToDate) (ray : Ray T) (rayhit : RayHit T)
    (r : Run (Bool × RayHit T)) : s.Intersect1 rtc ray rayhit r ↔ r = .error .notCommitted := by
  unfold EmbScene.Intersect1
  split
  · rfl
  · rename_i b hb
    rw [if_pos (fun hl => h ⟨b, hb, hl⟩)]

theorem intersect1_cases {rtc : Rtc T} {s : EmbScene T} {ray : Ray T} {rayhit : RayHit T} {r : Run (Bool × RayHit T)}
    (h : s.Intersect1 rtc ray rayhit r) :
    (r = .error .notCommitted ∧ ¬ s.UpToDate) ∨ ∃ bounds, s.known = some bounds ∧ bounds.length = s.attached.length ∧
      ∃ order r', order.Perm (List.range s.attached.length) ∧
      RtcTrace (s.process rtc) (EmbScene.MaySkip rtc bounds) order ray.toRtc r' ∧ r = r'.map (·.copyTo rayhit) := by
  by_cases hu : s.UpToDate
  · obtain ⟨b, hb, hl⟩ := hu
    exact .inr ⟨b, hb, hl, (intersect1_iff hb hl).1 h⟩
  · exact .inl ⟨(intersect1_stale hu ..).1 h, hu⟩

/-! ### invariants of traces -/

theorem RtcTrace.invariant {process : Nat → RtcRayHit T → Run (RtcRayHit T)} {skip : Nat → RtcRay T → Prop}
    (P : RtcRayHit T → Prop) {order : List Nat} {rh : RtcRayHit T} {r : Run (RtcRayHit T)} (h : RtcTrace process skip order rh r)
    (h0 : P rh) (step : ∀ i ∈ order, ∀ a b, P a → process i a = .ok b → P b) : ∀ x, r = .ok x → P x := by
  induction h with
  | done rh => intro x hx; cases hx; exact h0
  | call hp rest ih =>
    exact ih (step _ (by simp) _ _ h0 hp) fun i hi a b => step i (by simp [hi]) a b
  | fail hp => intro x hx; cases hx
  | skip hs rest ih => exact ih h0 fun i hi a b => step i (by simp [hi]) a b

theorem RtcTrace.ok_of {process : Nat → RtcRayHit T → Run (RtcRayHit T)} {skip : Nat → RtcRay T → Prop} {order : List Nat}
    {rh : RtcRayHit T} {r : Run (RtcRayHit T)} (h : RtcTrace process skip order rh r)
    (step : ∀ i ∈ order, ∀ a, ∃ b, process i a = .ok b) : ∃ x, r = .ok x := by
  induction h with
  | done rh => exact ⟨rh, rfl⟩
  | call hp rest ih => exact ih fun i hi => step i (by simp [hi])
  | fail hp =>
    obtain ⟨b, hb⟩ := step _ List.mem_cons_self _
    rw [hb] at hp; cases hp
  | skip hs rest ih => exact ih fun i hi => step i (by simp [hi])

theorem RtcTrace.exists_ok {process : Nat → RtcRayHit T → Run (RtcRayHit T)} (skip : Nat → RtcRay T → Prop) (order : List Nat)
    (rh : RtcRayHit T) (step : ∀ i ∈ order, ∀ a, ∃ b, process i a = .ok b) : ∃ x, RtcTrace process skip order rh (.ok x) := by
  induction order generalizing rh with
  | nil => exact ⟨rh, .done rh⟩
  | cons i is ih =>
    obtain ⟨b, hb⟩ := step i (by simp) rh
    obtain ⟨x, hx⟩ := ih b fun j hj => step j (by simp [hj])
    exact ⟨x, .call hb hx⟩

theorem process_ok {rtc : Rtc T} {s : EmbScene T} (ha : s.Alive) {i : Nat} (hi : i < s.attached.length) (rh : RtcRayHit T) :
    ∃ b, s.process rtc i rh = .ok b := by
  unfold EmbScene.process
  rw [lookup_ok_of_lt hi]
  simp only [run_bind_ok]
  split
  · rename_i p hp
    obtain ⟨g, hg⟩ := ha p (by rw [← hp]; exact List.getElem_mem hi)
    exact ⟨_, by simp [EmbScene.deref, hg]; rfl⟩
  · exact ⟨_, rfl⟩

theorem process_user {rtc : Rtc T} {s : EmbScene T} {i : Nat} {g : UserGeom T} (h : s.HasUser i g) (rh : RtcRayHit T) :
    s.process rtc i rh = .ok (g.intersect invalidId rh) := by
  obtain ⟨p, h1, h2⟩ := h
  simp [EmbScene.process, lookup_eq_ok.2 h1, EmbScene.deref, h2]

theorem process_mesh {rtc : Rtc T} {s : EmbScene T} {i : Nat} {v : List (Vec3 T)} {f : List (Vec3 Nat)} (h : s.HasMesh i v f)
    (rh : RtcRayHit T) : s.process rtc i rh = .ok (rtc.tri v f i rh) := by
  simp [EmbScene.process, lookup_eq_ok.2 h]

theorem process_cases {rtc : Rtc T} {s : EmbScene T} {i : Nat} {rh rh' : RtcRayHit T} (h : s.process rtc i rh = .ok rh') :
    (∃ g, s.HasUser i g ∧ rh' = g.intersect invalidId rh) ∨ ∃ v f, s.HasMesh i v f ∧ rh' = rtc.tri v f i rh := by
  unfold EmbScene.process at h
  rw [run_bind_eq_ok] at h
  obtain ⟨g, hg, h⟩ := h
  rw [lookup_eq_ok] at hg
  split at h
  · rw [run_bind_eq_ok] at h
    obtain ⟨o, ho, h⟩ := h
    unfold EmbScene.deref at ho
    split at ho
    · rename_i o' ho'
      cases ho
      exact .inl ⟨o, ⟨_, hg, ho'⟩, by simpa using h.symm⟩
    · cases ho
  · exact .inr ⟨_, _, hg, by simpa using h.symm⟩

/-- a query of a scene with a single object -/
theorem intersect1_single {rtc : Rtc T} {s : EmbScene T} {g : UserGeom T} (h1 : s.attached.length = 1) (hu : s.UpToDate)
    (hg : s.HasUser 0 g) (ray : Ray T) (rayhit : RayHit T) :
    s.Intersect1 rtc ray rayhit (.ok ((g.intersect invalidId ray.toRtc).copyTo rayhit)) ∧
    ∀ r, s.Intersect1 rtc ray rayhit r → r = .ok ((g.intersect invalidId ray.toRtc).copyTo rayhit) ∨ r = .ok (false, rayhit) := by
  obtain ⟨b, hb, hl⟩ := hu
  have hp := process_user (rtc := rtc) hg ray.toRtc
  refine ⟨(intersect1_iff hb hl).2 ⟨[0], _, by rw [h1]; exact .refl _, .call hp (.done _), rfl⟩, fun r hr => ?_⟩
  obtain ⟨order, r', hperm, htr, rfl⟩ := (intersect1_iff hb hl).1 hr
  rw [h1] at hperm
  have : order = [0] := List.perm_singleton.1 hperm
  subst this
  cases htr with
  | call h rest => rw [hp] at h; cases h; cases rest; exact .inl rfl
  | fail h => rw [hp] at h; cases h
  | skip h rest => cases rest; exact .inr (by simp [Except.map, RtcRayHit.copyTo, Ray.toRtc])

/-! ### adding -/

/-- the scene's pointers by number -/
def EmbScene.ptr (s : EmbScene T) (k : Fin 3) : Option Nat := if k = 0 then s.sphere else if k = 1 then s.plane else s.cylinder

/-- the effect of adding an object of class `k` -/
structure AddStep (s : EmbScene T) (k : Fin 3) (g : UserGeom T) (s' : EmbScene T) : Prop where
  heap : s'.heap = freeOld (s.heap ++ [some g]) (s.ptr k)
  attached : s'.attached = s.attached ++ [.user s.heap.length]
  ptr : ∀ j, s'.ptr j = if j = k then some s.heap.length else s.ptr j
  committed : s'.committed = s.committed
  known : s'.known = s.known
  id : g.geomID = s.attached.length

/-- the effect of a call other than `commit` -/
inductive CallStep (s : EmbScene T) (c : EmbCall T) (s' : EmbScene T) : Prop
  | mesh (hc : c.pointer = none) (v : List (Vec3 T)) (f : List (Vec3 Nat)) (h : s' = { s with attached := s.attached ++ [.mesh v f] })
  | user (k : Fin 3) (hc : c.pointer = some k) (g : UserGeom T) (h : AddStep s k g s')

theorem exec_callStep {l : Layout} {s s' : EmbScene T} {c : EmbCall T} (hc : c.isCommit = false) (h : c.exec l s = .ok s') :
    CallStep s c s' := by
  cases c with
  | commit => cases hc
  | addMesh v f =>
    simp only [EmbCall.exec, EmbScene.addMesh, run_bind_eq_ok] at h
    obtain ⟨_, ⟨v', _, f', _, h1⟩, h⟩ := h
    cases h1; cases h
    exact .mesh rfl v' f' rfl
  | addSpheres cs rs =>
    simp only [EmbCall.exec, EmbScene.addSpheres, run_bind_eq_ok] at h
    obtain ⟨_, ⟨x, _, r, _, h1⟩, h⟩ := h
    cases h1; cases h
    refine .user 0 rfl _ ⟨rfl, rfl, ?_, rfl, rfl, rfl⟩
    intro j; fin_cases j <;> rfl
  | addPlanes cs dxs dys rs =>
    simp only [EmbCall.exec, EmbScene.addPlanes, run_bind_eq_ok] at h
    obtain ⟨_, ⟨x, _, r, _, _, _, _, _, h1⟩, h⟩ := h
    cases h1; cases h
    refine .user 1 rfl _ ⟨rfl, rfl, ?_, rfl, rfl, rfl⟩
    intro j; fin_cases j <;> rfl
  | addCylinders cs as bs hs rs =>
    simp only [EmbCall.exec, EmbScene.addCylinders, run_bind_eq_ok] at h
    obtain ⟨_, ⟨x, _, r, _, _, _, _, _, _, _, h1⟩, h⟩ := h
    cases h1; cases h
    refine .user 2 rfl _ ⟨rfl, rfl, ?_, rfl, rfl, rfl⟩
    intro j; fin_cases j <;> rfl

theorem addSpheres_step (s : EmbScene T) (c : Vec3 T) (r : T) (cs : List (Vec3 T)) (rs : List T) :
    ∃ s', s.addSpheres (c :: cs) (r :: rs) = .ok (s', s.attached.length) ∧ AddStep s 0 (.sphere ⟨c, r, s.attached.length⟩) s' :=
  ⟨_, rfl, rfl, rfl, fun j => by fin_cases j <;> rfl, rfl, rfl, rfl⟩

theorem addPlanes_step (s : EmbScene T) (c : Vec3 T) (x y : T) (m : Mat3 T) (cs : List (Vec3 T)) (xs ys : List T) (ms : List (Mat3 T)) :
    ∃ s', s.addPlanes (c :: cs) (x :: xs) (y :: ys) (m :: ms) = .ok (s', s.attached.length) ∧
      AddStep s 1 (.plane ⟨c, x, y, m, s.attached.length⟩) s' :=
  ⟨_, rfl, rfl, rfl, fun j => by fin_cases j <;> rfl, rfl, rfl, rfl⟩

theorem addCylinders_step (s : EmbScene T) (c : Vec3 T) (a b h : T) (m : Mat3 T) (cs : List (Vec3 T)) (as bs hs : List T)
    (ms : List (Mat3 T)) : ∃ s', s.addCylinders (c :: cs) (a :: as) (b :: bs) (h :: hs) (m :: ms) = .ok (s', s.attached.length) ∧
      AddStep s 2 (.cylinder ⟨c, a, b, h, m, s.attached.length⟩) s' :=
  ⟨_, rfl, rfl, rfl, fun j => by fin_cases j <;> rfl, rfl, rfl, rfl⟩

/-! ### the state after a sequence of calls -/

/-- What is true of the scene after calls whose user geometries were of the classes `ks`. -/
structure EmbInv (s : EmbScene T) (ks : List (Fin 3)) : Prop where
  attached : ∀ p, .user p ∈ s.attached ↔ p < s.heap.length
  nodup : ∀ (i j : Nat) p, s.attached[i]? = some (.user p) → s.attached[j]? = some (.user p) → i = j
  ptr_none : ∀ k, s.ptr k = none ↔ k ∉ ks
  ptr_some : ∀ k p, s.ptr k = some p → ∃ g, s.heap[p]? = some (some g)
  ptr_inj : ∀ j k p, s.ptr j = some p → s.ptr k = some p → j = k
  dead : (∃ p : Nat, s.heap[p]? = some none) ↔ ¬ ks.Nodup
  ids : ∀ i g, s.HasUser i g → g.geomID = i

theorem EmbInv.init : EmbInv (EmbScene.init (T := T)) [] where
  attached p := by simp [EmbScene.init]
  nodup i j p h := by simp [EmbScene.init] at h
  ptr_none k := by fin_cases k <;> simp [EmbScene.init, EmbScene.ptr]
  ptr_some k p h := by fin_cases k <;> simp [EmbScene.init, EmbScene.ptr] at h
  ptr_inj j k p h := by fin_cases j <;> simp [EmbScene.init, EmbScene.ptr] at h
  dead := by simp [EmbScene.init]
  ids i g h := by obtain ⟨p, h, _⟩ := h; simp [EmbScene.init] at h

theorem freeOld_length (heap : List (Option (UserGeom T))) (p : Option Nat) : (freeOld heap p).length = heap.length := by
  cases p <;> simp [freeOld]

theorem freeOld_get (heap : List (Option (UserGeom T))) (p : Option Nat) (q : Nat) (g : UserGeom T) :
    (freeOld heap p)[q]? = some (some g) ↔ heap[q]? = some (some g) ∧ p ≠ some q := by
  cases p with
  | none => simp [freeOld]
  | some a =>
    by_cases h : a = q
    · subst h
      simp only [freeOld, List.getElem?_set]
      simp
    · simp only [freeOld, List.getElem?_set, if_neg h]
      simp [h]

theorem freeOld_dead (heap : List (Option (UserGeom T))) (p : Option Nat) (q : Nat) :
    (freeOld heap p)[q]? = some none ↔ heap[q]? = some none ∨ (p = some q ∧ q < heap.length) := by
  cases p with
  | none => simp [freeOld]
  | some a =>
    by_cases h : a = q
    · subst h
      simp only [freeOld, List.getElem?_set]
      simp
      intro h
      exact (List.getElem?_eq_some_iff.1 h).1
    · simp only [freeOld, List.getElem?_set, if_neg h]
      simp [h]

theorem get_append_one {A : Type} (l : List A) (a b : A) (i : Nat) :
    (l ++ [a])[i]? = some b ↔ l[i]? = some b ∨ (i = l.length ∧ a = b) := by
  rcases lt_trichotomy i l.length with h | h | h
  · rw [List.getElem?_append_left h]
    simp [Nat.ne_of_lt h]
  · subst h
    simp
  · have h2 : l.length ≤ i := Nat.le_of_lt h
    rw [List.getElem?_append_right h2, List.getElem?_eq_none h2]
    have : i - l.length ≠ 0 := by omega
    simp [this, Nat.ne_of_gt h]

theorem EmbInv.mesh {s : EmbScene T} {ks : List (Fin 3)} (H : EmbInv s ks) (v : List (Vec3 T)) (f : List (Vec3 Nat)) :
    EmbInv { s with attached := s.attached ++ [.mesh v f] } ks where
  attached p := by simpa using H.attached p
  nodup i j p h1 h2 := by
    simp only [get_append_one] at h1 h2
    simp at h1 h2
    exact H.nodup i j p h1 h2
  ptr_none := H.ptr_none
  ptr_some := H.ptr_some
  ptr_inj := H.ptr_inj
  dead := H.dead
  ids i g h := by
    obtain ⟨p, h1, h2⟩ := h
    simp only [get_append_one] at h1
    simp at h1
    exact H.ids i g ⟨p, h1, h2⟩

theorem EmbInv.user {s s' : EmbScene T} {ks : List (Fin 3)} (H : EmbInv s ks) {k : Fin 3} {g : UserGeom T}
    (h : AddStep s k g s') : EmbInv s' (ks ++ [k]) := by
  have hlen : s'.heap.length = s.heap.length + 1 := by rw [h.heap, freeOld_length]; simp
  have hlt : ∀ j p, s.ptr j = some p → p < s.heap.length := fun j p hp =>
    (H.ptr_some j p hp).elim fun g hg => (List.getElem?_eq_some_iff.1 hg).1
  have hnot : ∀ i : Nat, s.attached[i]? ≠ some (.user s.heap.length) := fun i hi => by
    have := (H.attached s.heap.length).1 (List.mem_of_getElem? hi)
    omega
  refine ⟨?_, ?_, ?_, ?_, ?_, ?_, ?_⟩
  · intro p
    rw [h.attached, hlen]
    simp only [List.mem_append, List.mem_singleton, H.attached, RtcGeom.user.injEq]
    omega
  · intro i j p h1 h2
    rw [h.attached] at h1 h2
    rw [get_append_one] at h1 h2
    rcases h1 with h1 | ⟨rfl, h1⟩ <;> rcases h2 with h2 | ⟨rfl, h2⟩
    · exact H.nodup i j p h1 h2
    · cases h2; exact absurd h1 (hnot i)
    · cases h1; exact absurd h2 (hnot j)
    · rfl
  · intro j
    rw [h.ptr]
    by_cases hj : j = k
    · simp [hj]
    · simp [hj, H.ptr_none]
  · intro j p hp
    rw [h.ptr] at hp
    by_cases hj : j = k
    · rw [if_pos hj] at hp
      cases hp
      refine ⟨g, ?_⟩
      rw [h.heap, freeOld_get, get_append_one]
      exact ⟨.inr ⟨rfl, rfl⟩, fun hc => absurd (hlt k _ hc) (by omega)⟩
    · rw [if_neg hj] at hp
      obtain ⟨g', hg'⟩ := H.ptr_some j p hp
      refine ⟨g', ?_⟩
      rw [h.heap, freeOld_get, get_append_one]
      exact ⟨.inl hg', fun hc => hj (H.ptr_inj j k p hp hc)⟩
  · intro i j p hi hj
    rw [h.ptr] at hi hj
    by_cases h1 : i = k <;> by_cases h2 : j = k
    · rw [h1, h2]
    · rw [if_pos h1] at hi; rw [if_neg h2] at hj
      cases hi; exact absurd (hlt j _ hj) (by omega)
    · rw [if_neg h1] at hi; rw [if_pos h2] at hj
      cases hj; exact absurd (hlt i _ hi) (by omega)
    · rw [if_neg h1] at hi; rw [if_neg h2] at hj
      exact H.ptr_inj i j p hi hj
  · have : (ks ++ [k]).Nodup ↔ ks.Nodup ∧ k ∉ ks := by
      rw [List.nodup_append]
      simp only [List.nodup_cons, List.not_mem_nil, not_false_eq_true, List.nodup_nil, and_self, List.mem_singleton,
        forall_eq, true_and]
      constructor
      · rintro ⟨h1, h2⟩; exact ⟨h1, fun hk => h2 k hk rfl⟩
      · rintro ⟨h1, h2⟩; exact ⟨h1, fun a ha hak => h2 (hak ▸ ha)⟩
    rw [this, h.heap, not_and_or, not_not, ← H.dead]
    simp only [freeOld_dead, get_append_one]
    constructor
    · rintro ⟨p, (h1 | ⟨_, h1⟩) | ⟨h1, _⟩⟩
      · exact .inl ⟨p, h1⟩
      · cases h1
      · by_contra hc
        rw [not_or] at hc
        have := (H.ptr_none k).2 hc.2
        rw [this] at h1; cases h1
    · rintro (⟨p, h1⟩ | h1)
      · exact ⟨p, .inl (.inl h1)⟩
      · cases hp : s.ptr k with
        | none => exact absurd h1 ((H.ptr_none k).1 hp)
        | some p => exact ⟨p, .inr ⟨rfl, by have := hlt k p hp; simp; omega⟩⟩
  · rintro i g' ⟨p, h1, h2⟩
    rw [h.attached, get_append_one] at h1
    rw [h.heap, freeOld_get, get_append_one] at h2
    rcases h1 with h1 | ⟨rfl, h1⟩
    · rcases h2.1 with h2 | ⟨rfl, _⟩
      · exact H.ids i g' ⟨p, h1, h2⟩
      · exact absurd h1 (hnot i)
    · cases h1
      rcases h2.1 with h2 | ⟨_, h2⟩
      · exact absurd (List.getElem?_eq_some_iff.1 h2).1 (by omega)
      · cases h2; exact h.id

theorem EmbInv.commit {s s' : EmbScene T} {ks : List (Fin 3)} (H : EmbInv s ks) (h : s.commit = .ok s') : EmbInv s' ks := by
  unfold EmbScene.commit at h
  split at h
  · cases h; exact H
  · rw [run_bind_eq_ok] at h
    obtain ⟨b, _, h⟩ := h
    cases h
    exact ⟨H.attached, H.nodup, H.ptr_none, H.ptr_some, H.ptr_inj, H.dead, H.ids⟩

/-- the classes of user geometries in a list of calls -/
def classes (calls : List (EmbCall T)) : List (Fin 3) := calls.filterMap EmbCall.pointer

theorem EmbInv.exec {l : Layout} {s s' : EmbScene T} {ks : List (Fin 3)} {c : EmbCall T} (H : EmbInv s ks)
    (h : c.exec l s = .ok s') : EmbInv s' (ks ++ classes [c]) := by
  by_cases hc : c.isCommit = true
  · cases c with
    | commit =>
      have : classes [EmbCall.commit (T := T)] = [] := rfl
      rw [this, List.append_nil]
      exact H.commit h
    | _ => cases hc
  · rcases exec_callStep (by simpa using hc) h with ⟨hp, v, f, rfl⟩ | ⟨k, hp, g, hg⟩
    · simpa [classes, hp] using H.mesh v f
    · simpa [classes, hp] using H.user hg

theorem EmbInv.run {l : Layout} {s s' : EmbScene T} {ks : List (Fin 3)} {calls : List (EmbCall T)} (H : EmbInv s ks)
    (h : embRun l s calls = .ok s') : EmbInv s' (ks ++ classes calls) := by
  induction calls generalizing s ks with
  | nil => cases h; simpa [classes] using H
  | cons c cs ih =>
    simp only [embRun, List.foldlM_cons, run_bind_eq_ok] at h
    obtain ⟨s1, h1, h2⟩ := h
    have := ih (H.exec h1) h2
    rw [List.append_assoc] at this
    rwa [show classes (c :: cs) = classes [c] ++ classes cs by
      simp only [classes]; rw [← List.filterMap_append]; rfl]

theorem embInv_of_run {l : Layout} {s : EmbScene T} {calls : List (EmbCall T)} (h : embRun l .init calls = .ok s) :
    EmbInv s (classes calls) := by simpa using EmbInv.init.run h

theorem EmbInv.alive_iff {s : EmbScene T} {ks : List (Fin 3)} (H : EmbInv s ks) : s.Alive ↔ ks.Nodup := by
  rw [← not_iff_not, ← H.dead]
  unfold EmbScene.Alive
  push Not
  constructor
  · rintro ⟨p, hp, h⟩
    have hlt := (H.attached p).1 hp
    refine ⟨p, ?_⟩
    cases hh : s.heap[p]? with
    | none => rw [List.getElem?_eq_none_iff] at hh; omega
    | some o =>
      cases o with
      | none => rfl
      | some g => exact absurd hh (h g)
  · rintro ⟨p, hp⟩
    refine ⟨p, (H.attached p).2 (List.getElem?_eq_some_iff.1 hp).1, fun g hg => ?_⟩
    rw [hp] at hg; cases hg

/-- the class of an object -/
def UserGeom.class : UserGeom T → Fin 3
  | .sphere _ => 0
  | .plane _ => 1
  | .cylinder _ => 2

theorem exec_class {l : Layout} {s s' : EmbScene T} {c : EmbCall T} (hc : c.isCommit = false) (h : c.exec l s = .ok s') :
    ∀ k, c.pointer = some k → ∀ g, s'.heap[s.heap.length]? = some (some g) → g.class = k := by
  intro k hk g hg
  cases c with
  | commit => cases hc
  | addMesh v f => cases hk
  | addSpheres cs rs =>
    simp only [EmbCall.exec, EmbScene.addSpheres, run_bind_eq_ok] at h
    obtain ⟨_, ⟨x, _, r, _, h1⟩, h⟩ := h
    cases h1; cases h; cases hk
    simp only [freeOld_get, List.getElem?_concat_length, Option.some.injEq] at hg
    rw [← hg.1]; rfl
  | addPlanes cs dxs dys rs =>
    simp only [EmbCall.exec, EmbScene.addPlanes, run_bind_eq_ok] at h
    obtain ⟨_, ⟨x, _, r, _, _, _, _, _, h1⟩, h⟩ := h
    cases h1; cases h; cases hk
    simp only [freeOld_get, List.getElem?_concat_length, Option.some.injEq] at hg
    rw [← hg.1]; rfl
  | addCylinders cs as bs hs rs =>
    simp only [EmbCall.exec, EmbScene.addCylinders, run_bind_eq_ok] at h
    obtain ⟨_, ⟨x, _, r, _, _, _, _, _, _, _, h1⟩, h⟩ := h
    cases h1; cases h; cases hk
    simp only [freeOld_get, List.getElem?_concat_length, Option.some.injEq] at hg
    rw [← hg.1]; rfl

theorem embClasses_of_run {l : Layout} {s : EmbScene T} {calls : List (EmbCall T)} (h : embRun l .init calls = .ok s) :
    ∀ k p g, s.ptr k = some p → s.heap[p]? = some (some g) → g.class = k := by
  induction calls using List.reverseRecOn generalizing s with
  | nil =>
    cases h
    intro k p g hk
    fin_cases k <;> simp [EmbScene.init, EmbScene.ptr] at hk
  | append_singleton cs c ih =>
    simp only [embRun, List.foldlM_append, List.foldlM_cons, List.foldlM_nil, run_bind_eq_ok] at h
    obtain ⟨a, ha, b, hb, h⟩ := h
    cases h
    have ih := ih (s := a) ha
    by_cases hc : c.isCommit = true
    · cases c with
      | commit =>
        simp only [EmbCall.exec, EmbScene.commit] at hb
        split at hb
        · cases hb; exact ih
        · rw [run_bind_eq_ok] at hb
          obtain ⟨x, _, hb⟩ := hb
          cases hb; exact ih
      | _ => cases hc
    · have hcl := exec_class (by simpa using hc) hb
      rcases exec_callStep (by simpa using hc) hb with ⟨hp, v, f, rfl⟩ | ⟨k, hp, g, hg⟩
      · exact ih
      · have H := embInv_of_run ha
        intro j p g' hj hp'
        rw [hg.ptr] at hj
        by_cases hjk : j = k
        · rw [if_pos hjk] at hj
          cases hj
          rw [hjk]
          exact hcl k hp g' hp'
        · rw [if_neg hjk] at hj
          obtain ⟨g2, h2⟩ := H.ptr_some j p hj
          rw [hg.heap, freeOld_get, get_append_one] at hp'
          rcases hp'.1 with h3 | ⟨h3, _⟩
          · exact ih j p g' hj h3
          · exact absurd (List.getElem?_eq_some_iff.1 h2).1 (by omega)

/-! ### reading the shared buffers never leaves them -/

theorem memory_length {A : Type} (l : Layout) (pad : A) (vs : List (Vec3 A)) : (l.memory pad vs).length = vs.length * l.words := by
  unfold Layout.memory
  induction vs with
  | nil => simp
  | cons v vs ih =>
    rw [List.flatMap_cons, List.length_append, ih]
    have := l.three_le
    simp only [List.length_append, List.length_cons, List.length_nil, List.length_replicate]
    rw [Nat.add_mul]
    omega

theorem byteStride_words (l : Layout) (i : Nat) : l.byteStride * i / 4 = l.words / 2 * i := by
  have : l.byteStride = l.words / 2 * 4 := by
    have := l.three_le
    unfold Layout.byteStride; omega
  rw [this, Nat.mul_right_comm, Nat.mul_div_cancel _ (by norm_num)]

theorem readShared_ok {A : Type} (l : Layout) (pad : A) (vs : List (Vec3 A)) {i : Nat} (hi : i < vs.length) :
    ∃ v, readShared (l.memory pad vs) l.byteStride i = .ok v := by
  have h3 := l.three_le
  have hlen := memory_length l pad vs
  have hb : l.words / 2 * i + 2 < (l.memory pad vs).length := by
    rw [hlen]
    obtain ⟨m, hm⟩ : ∃ m, vs.length = i + 1 + m := ⟨vs.length - i - 1, by omega⟩
    rw [hm]
    have h1 : l.words / 2 * i ≤ i * l.words := by
      rw [Nat.mul_comm]; exact Nat.mul_le_mul_left _ (Nat.div_le_self ..)
    have h2 : (i + 1 + m) * l.words = i * l.words + l.words + m * l.words := by ring
    omega
  unfold readShared
  rw [byteStride_words, lookup_ok_of_lt (by omega), lookup_ok_of_lt (by omega), lookup_ok_of_lt hb]
  exact ⟨_, rfl⟩

theorem seen_ok {A : Type} (l : Layout) (pad : A) (vs : List (Vec3 A)) : ∃ ws, l.seen pad vs = .ok ws :=
  mapM_ok_of_forall _ _ fun _ hi => readShared_ok l pad vs (List.mem_range.1 hi)

/-- the words of a vector in memory -/
def Layout.cell {A : Type} (l : Layout) (pad : A) (v : Vec3 A) : List A := [v.x, v.y, v.z] ++ List.replicate (l.words - 3) pad

theorem cell_length {A : Type} (l : Layout) (pad : A) (v : Vec3 A) : (l.cell pad v).length = l.words := by
  have := l.three_le
  simp [Layout.cell]; omega

theorem cell_pad {A : Type} (l : Layout) (pad : A) (v : Vec3 A) {j : Nat} (h3 : 3 ≤ j) (hj : j < l.words) :
    (l.cell pad v)[j]? = some pad := by
  unfold Layout.cell
  rw [List.getElem?_append_right (by simpa using h3), List.getElem?_replicate, if_pos (by simp; omega)]

theorem memory_get {A : Type} (l : Layout) (pad : A) (vs : List (Vec3 A)) {i j : Nat} {v : Vec3 A} (hi : vs[i]? = some v)
    (hj : j < l.words) : (l.memory pad vs)[l.words * i + j]? = (l.cell pad v)[j]? := by
  induction vs generalizing i with
  | nil => simp at hi
  | cons w vs ih =>
    have e : l.memory pad (w :: vs) = l.cell pad w ++ l.memory pad vs := rfl
    rw [e]
    cases i with
    | zero =>
      simp at hi; subst hi
      rw [List.getElem?_append_left (by rw [cell_length]; omega)]; simp
    | succ i =>
      have : l.words * (i + 1) + j = (l.cell pad w).length + (l.words * i + j) := by rw [cell_length]; ring
      rw [this, List.getElem?_append_right (by omega), Nat.add_sub_cancel_left]
      exact ih (by simpa using hi)

theorem readShared_eq {A : Type} (l : Layout) (pad : A) (vs : List (Vec3 A)) (i : Nat) {x y z : A}
    (hx : (l.memory pad vs)[l.words / 2 * i]? = some x) (hy : (l.memory pad vs)[l.words / 2 * i + 1]? = some y)
    (hz : (l.memory pad vs)[l.words / 2 * i + 2]? = some z) : readShared (l.memory pad vs) l.byteStride i = .ok ⟨x, y, z⟩ := by
  unfold readShared
  rw [byteStride_words, lookup_eq_ok.2 hx, lookup_eq_ok.2 hy, lookup_eq_ok.2 hz]; rfl

/-- the `k`-th vector is read at the even position `2k`, if the number of words is even -/
theorem readShared_even {A : Type} (l : Layout) (pad : A) (vs : List (Vec3 A)) {h k : Nat} (hw : l.words = 2 * h) {v : Vec3 A}
    (hv : vs[k]? = some v) : readShared (l.memory pad vs) l.byteStride (2 * k) = .ok v := by
  have h3 := l.three_le
  have e : l.words / 2 * (2 * k) = l.words * k := by rw [hw, Nat.mul_div_cancel_left _ (by norm_num)]; ring
  refine readShared_eq l pad vs _ ?_ ?_ ?_
  · have := memory_get l pad vs hv (j := 0) (by omega)
    rw [e]; simpa [Layout.cell] using this
  · have := memory_get l pad vs hv (j := 1) (by omega)
    rw [e]; simpa [Layout.cell] using this
  · have := memory_get l pad vs hv (j := 2) (by omega)
    rw [e]; simpa [Layout.cell] using this

theorem readShared_zero {A : Type} (l : Layout) (pad : A) (v : Vec3 A) (vs : List (Vec3 A)) :
    readShared (l.memory pad (v :: vs)) l.byteStride 0 = .ok v := by
  have h3 := l.three_le
  have hv : (v :: vs)[0]? = some v := rfl
  refine readShared_eq l pad _ _ ?_ ?_ ?_
  · simpa [Layout.cell] using memory_get l pad _ hv (j := 0) (by omega)
  · simpa [Layout.cell] using memory_get l pad _ hv (j := 1) (by omega)
  · simpa [Layout.cell] using memory_get l pad _ hv (j := 2) (by omega)

theorem seen_get {A : Type} {l : Layout} {pad : A} {vs ws : List (Vec3 A)} (h : l.seen pad vs = .ok ws) {i : Nat} {w : Vec3 A}
    (hi : i < vs.length) (hr : readShared (l.memory pad vs) l.byteStride i = .ok w) : ws[i]? = some w := by
  have h2 := mapM_ok_forall₂ _ _ _ h
  have hl := mapM_length _ _ _ h
  rw [List.length_range] at hl
  have := (List.forall₂_iff_get.1 h2).2 i (by simpa using hi) (by omega)
  simp only [List.get_eq_getElem, List.getElem_range] at this
  rw [hr] at this
  cases this
  rw [List.getElem?_eq_getElem (by omega)]

/-! ### calls that succeed -/

theorem lookup_zero {A : Type} {u : UB} {l : List A} (h : l ≠ []) : ∃ a, lookup u l 0 = .ok a :=
  ⟨_, lookup_ok_of_lt (List.length_pos_of_ne_nil h)⟩

theorem exec_ok {l : Layout} {s : EmbScene T} {c : EmbCall T} (hc : c.isCommit = false) (hn : c.Nonempty) :
    ∃ s', c.exec l s = .ok s' := by
  cases c with
  | commit => cases hc
  | addMesh v f =>
    obtain ⟨v', hv⟩ := seen_ok l (nat 0 : T) v
    obtain ⟨f', hf⟩ := seen_ok l 0 f
    exact ⟨_, by simp [EmbCall.exec, EmbScene.addMesh, hv, hf]; rfl⟩
  | addSpheres cs rs =>
    obtain ⟨h1, h2⟩ := hn
    obtain ⟨a1, e1⟩ := lookup_zero (u := .oobIndex) h1
    obtain ⟨a2, e2⟩ := lookup_zero (u := .oobIndex) h2
    exact ⟨_, by simp [EmbCall.exec, EmbScene.addSpheres, e1, e2]; rfl⟩
  | addPlanes cs dxs dys rs =>
    obtain ⟨h1, h2, h3, h4⟩ := hn
    obtain ⟨a1, e1⟩ := lookup_zero (u := .oobIndex) h1
    obtain ⟨a2, e2⟩ := lookup_zero (u := .oobIndex) h2
    obtain ⟨a3, e3⟩ := lookup_zero (u := .oobIndex) h3
    obtain ⟨a4, e4⟩ := lookup_zero (u := .oobIndex) h4
    exact ⟨_, by simp [EmbCall.exec, EmbScene.addPlanes, e1, e2, e3, e4]; rfl⟩
  | addCylinders cs as bs hs rs =>
    obtain ⟨h1, h2, h3, h4, h5⟩ := hn
    obtain ⟨a1, e1⟩ := lookup_zero (u := .oobIndex) h1
    obtain ⟨a2, e2⟩ := lookup_zero (u := .oobIndex) h2
    obtain ⟨a3, e3⟩ := lookup_zero (u := .oobIndex) h3
    obtain ⟨a4, e4⟩ := lookup_zero (u := .oobIndex) h4
    obtain ⟨a5, e5⟩ := lookup_zero (u := .oobIndex) h5
    exact ⟨_, by simp [EmbCall.exec, EmbScene.addCylinders, e1, e2, e3, e4, e5]; rfl⟩

theorem CallStep.frame {s s' : EmbScene T} {c : EmbCall T} (h : CallStep s c s') :
    s'.committed = s.committed ∧ s'.known = s.known ∧ s'.attached.length = s.attached.length + 1 := by
  rcases h with ⟨_, v, f, rfl⟩ | ⟨k, _, g, h⟩
  · simp
  · exact ⟨h.committed, h.known, by rw [h.attached]; simp⟩

theorem embRun_append (l : Layout) (s : EmbScene T) (a b : List (EmbCall T)) :
    embRun l s (a ++ b) = (embRun l s a >>= fun s' => embRun l s' b) := by
  simp [embRun, List.foldlM_append]

theorem embRun_adds {l : Layout} {s : EmbScene T} {calls : List (EmbCall T)} (hc : ∀ c ∈ calls, c.isCommit = false)
    (hn : ∀ c ∈ calls, c.Nonempty) : ∃ s', embRun l s calls = .ok s' ∧ s'.committed = s.committed ∧ s'.known = s.known ∧
      s'.attached.length = s.attached.length + calls.length := by
  induction calls generalizing s with
  | nil => exact ⟨s, rfl, rfl, rfl, rfl⟩
  | cons c cs ih =>
    obtain ⟨s1, h1⟩ := exec_ok (l := l) (s := s) (hc c (by simp)) (hn c (by simp))
    obtain ⟨f1, f2, f3⟩ := (exec_callStep (hc c (by simp)) h1).frame
    obtain ⟨s2, h2, g1, g2, g3⟩ := ih (s := s1) (fun c h => hc c (by simp [h])) fun c h => hn c (by simp [h])
    exact ⟨s2, by simpa [embRun, h1] using h2, g1.trans f1, g2.trans f2, by simp [g3, f3]; omega⟩

theorem bounds_ok {s : EmbScene T} (h : s.Alive) : ∃ b, s.attached.mapM s.rtcBounds = .ok b :=
  mapM_ok_of_forall _ _ fun g hg => by
    cases g with
    | user p =>
      obtain ⟨o, ho⟩ := h p hg
      exact ⟨_, by simp [EmbScene.rtcBounds, EmbScene.deref, ho]; rfl⟩
    | mesh v f => exact ⟨_, rfl⟩

theorem mapM_error_of_exists {A B : Type} (f : A → Run B) (e : UB) (l : List A) (h : ∃ a ∈ l, f a = .error e)
    (hall : ∀ a ∈ l, ∀ e', f a = .error e' → e' = e) : l.mapM f = .error e := by
  induction l with
  | nil => simp at h
  | cons a l ih =>
    rw [mapM_cons_run]
    cases hf : f a with
    | error e' => rw [hall a (by simp) e' hf]; rfl
    | ok b =>
      obtain ⟨x, hx, hxe⟩ := h
      rcases List.mem_cons.1 hx with rfl | hx
      · rw [hf] at hxe; cases hxe
      · rw [run_bind_ok, ih ⟨x, hx, hxe⟩ fun y hy => hall y (by simp [hy])]; rfl

theorem commit_alive {s : EmbScene T} (hc : s.committed = false) (h : s.Alive) :
    ∃ s', s.commit = .ok s' ∧ s'.UpToDate ∧ s'.Alive ∧ s'.attached = s.attached ∧ s'.heap = s.heap := by
  obtain ⟨b, hb⟩ := bounds_ok h
  refine ⟨{ s with committed := true, known := some b }, by simp [EmbScene.commit, hc, hb], ⟨b, rfl, mapM_length _ _ _ hb⟩, h, rfl, rfl⟩

theorem commit_dead {s : EmbScene T} (hc : s.committed = false) (h : ¬ s.Alive) : s.commit = .error .dangling := by
  have : s.attached.mapM s.rtcBounds = .error .dangling := by
    unfold EmbScene.Alive at h
    push Not at h
    obtain ⟨p, hp, hg⟩ := h
    refine mapM_error_of_exists _ _ _ ⟨_, hp, ?_⟩ ?_
    · have : s.deref p = .error .dangling := by
        unfold EmbScene.deref
        split
        · rename_i g h; exact absurd h (hg g)
        · rfl
      simp [EmbScene.rtcBounds, this]
    · intro a _ e he
      cases a with
      | mesh v f => cases he
      | user q =>
        cases hd : s.deref q with
        | ok g => simp [EmbScene.rtcBounds, hd] at he
        | error e' =>
          have h1 : e' = .dangling := by
            unfold EmbScene.deref at hd
            split at hd <;> cases hd; rfl
          simp [EmbScene.rtcBounds, hd] at he
          rw [← he, h1]
  simp [EmbScene.commit, hc, this]

end Blazert
