/- Helper lemmas: an Embree scene that refers to the caller's containers behaves like one that copies them, as long as the containers are
left alone; and what happens otherwise. -/
import Verif.Proofs.EmbreeApi
import Verif.Proofs.MemoryScene
import Verif.Spec.EmbreeMemory

set_option autoImplicit false
set_option linter.unusedSectionVars false

namespace Blazert
open Scalar

variable {T : Type}

/-- the reference refers to `a`, an element of one of the containers `xs` -/
def ElemRef.To {α : Type} (s : Store α) (xs : List Nat) (r : ElemRef) (a : α) : Prop :=
  ∃ x ∈ xs, ∃ b l, s.data x = .ok (b, l) ∧ r.buf = b ∧ l[r.idx]? = some a

theorem ElemRef.To.deref {α : Type} {s : Store α} {xs : List Nat} {r : ElemRef} {a : α} (h : r.To s xs a) : s.deref r = .ok a := by
  obtain ⟨x, -, b, l, hd, hr⟩ := h
  exact Store.deref_ok hd hr

theorem ElemRef.To.mono {α : Type} {s s' : Store α} {xs ys : List Nat} {r : ElemRef} {a : α} (h : r.To s xs a)
    (hs : ∀ x ∈ xs, Same s s' x) (hx : ∀ x ∈ xs, x ∈ ys) : r.To s' ys a := by
  obtain ⟨x, hm, b, l, hd, hr⟩ := h
  exact ⟨x, hx x hm, b, l, (hs x hm).data hd, hr⟩

/-- the object refers to what the other one copied -/
inductive UserSim (m : Memory T) (h : EmbHeld) : UserRef T → UserGeom T → Prop
  | sphere {q : EmbSphereRef T} {c : Vec3 T} (hc : q.center.To m.vecs h.vecs c) :
      UserSim m h (.sphere q) (.sphere ⟨c, q.radius, q.geomID⟩)
  | plane {q : EmbPlaneRef T} {c : Vec3 T} {r : Mat3 T} (hc : q.center.To m.vecs h.vecs c) (hr : q.rot.To m.mats h.mats r) :
      UserSim m h (.plane q) (.plane ⟨c, q.d1, q.d2, r, q.geomID⟩)
  | cylinder {q : EmbCylRef T} {c : Vec3 T} {r : Mat3 T} (hc : q.center.To m.vecs h.vecs c) (hr : q.rot.To m.mats h.mats r) :
      UserSim m h (.cylinder q) (.cylinder ⟨c, q.a, q.b, q.height, r, q.geomID⟩)

/-- the same for heap cells -/
inductive CellSim (m : Memory T) (h : EmbHeld) : Option (UserRef T) → Option (UserGeom T) → Prop
  | none : CellSim m h none none
  | some {q : UserRef T} {g : UserGeom T} (hq : UserSim m h q g) : CellSim m h (some q) (some g)

/-- a larger set of containers -/
structure EmbHeld.Le (h h' : EmbHeld) : Prop where
  vecs : ∀ x ∈ h.vecs, x ∈ h'.vecs
  mats : ∀ x ∈ h.mats, x ∈ h'.mats
  faces : ∀ x ∈ h.faces, x ∈ h'.faces

theorem EmbHeld.Le.next (h : EmbHeld) (e : EmbEvent T) : h.Le (h.next e) := by
  cases e <;> constructor <;> intro x hx <;> simp only [EmbHeld.next, List.mem_cons] <;> first | exact hx | exact .inr hx

theorem EmbHeld.Le.refl (h : EmbHeld) : h.Le h := ⟨fun _ h => h, fun _ h => h, fun _ h => h⟩

theorem EmbHeld.Kept.refl (h : EmbHeld) (m : Memory T) : h.Kept m m :=
  ⟨fun _ _ => ⟨rfl, fun _ _ => rfl⟩, fun _ _ => ⟨rfl, fun _ _ => rfl⟩, fun _ _ => ⟨rfl, fun _ _ => rfl⟩⟩

section
variable [Scalar T]

/-- the attached geometry stands for the other one -/
inductive GeomSim (l : Layout) (m : Memory T) (h : EmbHeld) : RtcGeomRef → RtcGeom T → Prop
  | user (p : Nat) : GeomSim l m h (.user p) (.user p)
  | mesh {x y v f : Nat} {vl vs : List (Vec3 T)} {fl fs : List (Vec3 Nat)} (hx : x ∈ h.vecs) (hy : y ∈ h.faces)
      (hv : m.vecs.data x = .ok (v, vl)) (hf : m.faces.data y = .ok (f, fl)) (hvs : l.seen (nat 0) vl = .ok vs)
      (hfs : l.seen 0 fl = .ok fs) : GeomSim l m h (.mesh v vl.length f fl.length) (.mesh vs fs)

/-- the scene refers to what the other one copied -/
structure EmbSim (l : Layout) (m : Memory T) (h : EmbHeld) (r : EmbRefScene T) (s : EmbScene T) : Prop where
  heap : List.Forall₂ (CellSim m h) r.heap s.heap
  attached : List.Forall₂ (GeomSim l m h) r.attached s.attached
  sphere : r.sphere = s.sphere
  plane : r.plane = s.plane
  cylinder : r.cylinder = s.cylinder
  committed : r.committed = s.committed
  known : r.known = s.known

variable {l : Layout} {m m' : Memory T} {h h' : EmbHeld} {r : EmbRefScene T} {s : EmbScene T}

theorem UserSim.mono {q : UserRef T} {g : UserGeom T} (hk : h.Kept m m') (hl : h.Le h') (hq : UserSim m h q g) : UserSim m' h' q g := by
  cases hq with
  | sphere hc => exact .sphere (hc.mono hk.vecs hl.vecs)
  | plane hc hr => exact .plane (hc.mono hk.vecs hl.vecs) (hr.mono hk.mats hl.mats)
  | cylinder hc hr => exact .cylinder (hc.mono hk.vecs hl.vecs) (hr.mono hk.mats hl.mats)

theorem CellSim.mono {q : Option (UserRef T)} {g : Option (UserGeom T)} (hk : h.Kept m m') (hl : h.Le h') (hq : CellSim m h q g) :
    CellSim m' h' q g := by
  cases hq with
  | none => exact .none
  | some hq => exact .some (hq.mono hk hl)

theorem GeomSim.mono {q : RtcGeomRef} {g : RtcGeom T} (hk : h.Kept m m') (hl : h.Le h') (hq : GeomSim l m h q g) :
    GeomSim l m' h' q g := by
  cases hq with
  | user p => exact .user p
  | mesh hx hy hv hf hvs hfs =>
    exact .mesh (hl.vecs _ hx) (hl.faces _ hy) ((hk.vecs _ hx).data hv) ((hk.faces _ hy).data hf) hvs hfs

theorem EmbSim.mono (hk : h.Kept m m') (hl : h.Le h') (hs : EmbSim l m h r s) : EmbSim l m' h' r s :=
  ⟨hs.heap.imp fun _ _ hq => hq.mono hk hl, hs.attached.imp fun _ _ hq => hq.mono hk hl, hs.sphere, hs.plane, hs.cylinder, hs.committed,
    hs.known⟩

theorem EmbSim.init (l : Layout) (m : Memory T) : EmbSim l m EmbHeld.nothing EmbRefScene.init EmbScene.init :=
  ⟨.nil, .nil, rfl, rfl, rfl, rfl, rfl⟩

theorem freeOld_rel {qs : List (Option (UserRef T))} {gs : List (Option (UserGeom T))} (hq : List.Forall₂ (CellSim m h) qs gs)
    (o : Option Nat) : List.Forall₂ (CellSim m h) (freeOldRef qs o) (freeOld gs o) := by
  cases o with
  | none => exact hq
  | some a => exact forall₂_set hq .none a

/-! ### Reading -/

theorem UserSim.load {q : UserRef T} {g : UserGeom T} (hq : UserSim m h q g) : q.load m = .ok g := by
  cases hq with
  | sphere hc => simp only [UserRef.load, hc.deref]; rfl
  | plane hc hr => simp only [UserRef.load, hc.deref, hr.deref]; rfl
  | cylinder hc hr => simp only [UserRef.load, hc.deref, hr.deref]; rfl

theorem EmbSim.deref (hs : EmbSim l m h r s) (p : Nat) : r.deref m p = s.deref p := by
  unfold EmbRefScene.deref EmbScene.deref
  have := List.forall₂_iff_get.1 hs.heap
  by_cases hp : p < r.heap.length
  · have hp' : p < s.heap.length := by rw [← this.1]; exact hp
    have hc := this.2 p hp hp'
    simp only [List.get_eq_getElem] at hc
    rw [List.getElem?_eq_getElem hp, List.getElem?_eq_getElem hp']
    generalize r.heap[p] = a at hc
    generalize s.heap[p] = b at hc
    cases hc with
    | none => rfl
    | some hq => simp only [hq.load]
  · have hp' : ¬ p < s.heap.length := by rw [← this.1]; exact hp
    rw [List.getElem?_eq_none (by omega), List.getElem?_eq_none (by omega)]

theorem seenIn_eq {A : Type} {l : Layout} {pad : A} {st : Store (Vec3 A)} {x b : Nat} {vl : List (Vec3 A)}
    (hd : st.data x = .ok (b, vl)) : l.seenIn pad st b vl.length = l.seen pad vl := by
  unfold Layout.seenIn Layout.seen
  rw [(Store.data_ok.1 hd).2]

theorem EmbSim.rtcBounds (hs : EmbSim l m h r s) {q : RtcGeomRef} {g : RtcGeom T} (hq : GeomSim l m h q g) :
    r.rtcBounds l m q = s.rtcBounds g := by
  cases hq with
  | user p => simp only [EmbRefScene.rtcBounds, EmbScene.rtcBounds, hs.deref]
  | mesh hx hy hv hf hvs hfs => simp only [EmbRefScene.rtcBounds, EmbScene.rtcBounds, seenIn_eq hv, seenIn_eq hf, hvs, hfs]; rfl

theorem mapM_forall₂ {α β γ : Type} {R : α → β → Prop} {f : α → Run γ} {g : β → Run γ} {as : List α} {bs : List β}
    (ha : List.Forall₂ R as bs) (hf : ∀ a b, R a b → f a = g b) : as.mapM f = bs.mapM g := by
  induction ha with
  | nil => rfl
  | cons hab _ ih => rw [List.mapM_cons, List.mapM_cons, hf _ _ hab, ih]

theorem EmbSim.commit (hs : EmbSim l m h r s) : RunRel (EmbSim l m h) (r.commit l m) s.commit := by
  unfold EmbRefScene.commit EmbScene.commit
  rw [hs.committed]
  by_cases hc : s.committed = true
  · rw [if_pos hc, if_pos hc]; exact .ok hs
  · rw [if_neg hc, if_neg hc, mapM_forall₂ hs.attached fun a b hab => hs.rtcBounds hab]
    exact .bindEq _ fun b => .ok ⟨hs.heap, hs.attached, hs.sphere, hs.plane, hs.cylinder, rfl, rfl⟩

theorem EmbSim.process (hs : EmbSim l m h r s) (rtc : Rtc T) : r.process l rtc m = s.process rtc := by
  funext id rh
  unfold EmbRefScene.process EmbScene.process
  refine RunRel.eq ((lookup_rel hs.attached .oobIndex id).bind fun q g hq => ?_)
  cases hq with
  | user p => simp only [hs.deref]; exact .refl _
  | mesh hx hy hv hf hvs hfs => simp only [seenIn_eq hv, seenIn_eq hf, hvs, hfs]; exact .refl _

theorem EmbSim.intersect1 (hs : EmbSim l m h r s) (rtc : Rtc T) (ray : Ray T) (rh : RayHit T) (o : Run (Bool × RayHit T)) :
    r.Intersect1 l rtc m ray rh o ↔ s.Intersect1 rtc ray rh o := by
  unfold EmbRefScene.Intersect1 EmbScene.Intersect1
  rw [hs.known, hs.process, hs.attached.length_eq]
  cases s.known <;> exact Iff.rfl

/-! ### Adding -/

theorem readThen {α β γ : Type} {S : β → γ → Prop} (st : Store α) (x : Nat) {f : List α → Run β} {g : List α → Run γ}
    (hf : ∀ b l, st.data x = .ok (b, l) → RunRel S (f l) (g l)) : RunRel S (st.read x >>= f) (st.read x >>= g) := by
  cases hr : st.read x with
  | error e => exact .error e
  | ok l =>
    obtain ⟨b, hd⟩ := Store.of_read hr
    exact hf b l hd

theorem elemRefThen {α β γ : Type} {S : β → γ → Prop} {st : Store α} {x b : Nat} {l : List α} (hd : st.data x = .ok (b, l)) (xs : List Nat)
    {f : ElemRef → Run β} {g : α → Run γ} (hf : ∀ q a, q.To st (x :: xs) a → RunRel S (f q) (g a)) :
    RunRel S (st.elemRef x 0 >>= f) (lookup .oobIndex l 0 >>= g) :=
  (Store.elemRef_rel hd 0).bind fun q a hq => hf q a ⟨x, List.mem_cons_self .., b, l, hd, hq⟩

theorem elemThen {α β γ : Type} {S : β → γ → Prop} {st : Store α} {x b : Nat} {l : List α} (hd : st.data x = .ok (b, l))
    {f : α → Run β} {g : α → Run γ} (hf : ∀ a, RunRel S (f a) (g a)) :
    RunRel S (st.elem x 0 >>= f) (lookup .oobIndex l 0 >>= g) := by
  rw [Store.elem_ok hd]; exact .bindEq _ hf

/-- the relation between states of both executions -/
def EmbStates (l : Layout) (h : EmbHeld) (a : Memory T × EmbRefScene T) (b : Memory T × EmbScene T) : Prop :=
  a.1 = b.1 ∧ EmbSim l a.1 h a.2 b.2

theorem EmbSim.addMesh (hs : EmbSim l m h r s) (v f : Nat) :
    RunRel (EmbStates l (h.next (T := T) (.addMesh v f))) (EmbEvent.exec l (m, r) (.addMesh v f))
      (EmbEvent.execCopy l (m, s) (.addMesh v f)) := by
  have hn := hs.mono (EmbHeld.Kept.refl h m) (EmbHeld.Le.next (T := T) h (.addMesh v f))
  simp only [EmbEvent.exec, EmbEvent.execCopy, EmbRefScene.addMesh, EmbScene.addMesh, Store.read, bind_assoc, pure_bind]
  refine .bindOk _ fun vd hv => ?_
  refine .bindOk _ fun fd hf => ?_
  obtain ⟨vs, hvs⟩ := seen_ok l (nat 0 : T) vd.2
  obtain ⟨fs, hfs⟩ := seen_ok l 0 fd.2
  rw [hvs, hfs]
  refine .ok ⟨rfl, hn.heap, List.rel_append hn.attached (.cons ?_ .nil), hn.sphere, hn.plane, hn.cylinder, hn.committed, hn.known⟩
  exact .mesh (x := v) (y := f) (List.mem_cons_self ..) (List.mem_cons_self ..) hv hf hvs hfs

theorem EmbSim.addSpheres (hs : EmbSim l m h r s) (c d : Nat) :
    RunRel (EmbStates l (h.next (T := T) (.addSpheres c d))) (EmbEvent.exec l (m, r) (.addSpheres c d))
      (EmbEvent.execCopy l (m, s) (.addSpheres c d)) := by
  have hn := hs.mono (EmbHeld.Kept.refl h m) (EmbHeld.Le.next (T := T) h (.addSpheres c d))
  simp only [EmbEvent.exec, EmbEvent.execCopy, EmbRefScene.addSpheres, EmbScene.addSpheres, bind_assoc]
  refine readThen _ _ fun b1 l1 h1 => readThen _ _ fun b2 l2 h2 => elemRefThen h1 h.vecs fun q a hq => elemThen h2 fun x => ?_
  refine .ok ⟨rfl, ?_, List.rel_append hn.attached (.cons ?_ .nil), ?_, hn.plane, hn.cylinder, hn.committed, hn.known⟩
  · simp only [hn.attached.length_eq, hn.sphere]
    exact freeOld_rel (List.rel_append hn.heap (.cons (.some (.sphere (q := ⟨q, x, _⟩) hq)) .nil)) _
  · rw [hn.heap.length_eq]; exact .user _
  · simp only [hn.heap.length_eq]

theorem EmbSim.addPlanes (hs : EmbSim l m h r s) (c x y d : Nat) :
    RunRel (EmbStates l (h.next (T := T) (.addPlanes c x y d))) (EmbEvent.exec l (m, r) (.addPlanes c x y d))
      (EmbEvent.execCopy l (m, s) (.addPlanes c x y d)) := by
  have hn := hs.mono (EmbHeld.Kept.refl h m) (EmbHeld.Le.next (T := T) h (.addPlanes c x y d))
  simp only [EmbEvent.exec, EmbEvent.execCopy, EmbRefScene.addPlanes, EmbScene.addPlanes, bind_assoc]
  refine readThen _ _ fun b1 l1 h1 => readThen _ _ fun b2 l2 h2 => readThen _ _ fun b3 l3 h3 => readThen _ _ fun b4 l4 h4 =>
    elemRefThen h1 h.vecs fun q a hq => elemThen h2 fun dx => elemThen h3 fun dy => elemRefThen h4 h.mats fun q' a' hq' => ?_
  refine .ok ⟨rfl, ?_, List.rel_append hn.attached (.cons ?_ .nil), hn.sphere, ?_, hn.cylinder, hn.committed, hn.known⟩
  · simp only [hn.attached.length_eq, hn.plane]
    exact freeOld_rel (List.rel_append hn.heap (.cons (.some (.plane (q := ⟨q, dx, dy, q', _⟩) hq hq')) .nil)) _
  · rw [hn.heap.length_eq]; exact .user _
  · simp only [hn.heap.length_eq]

theorem EmbSim.addCylinders (hs : EmbSim l m h r s) (c x y z d : Nat) :
    RunRel (EmbStates l (h.next (T := T) (.addCylinders c x y z d))) (EmbEvent.exec l (m, r) (.addCylinders c x y z d))
      (EmbEvent.execCopy l (m, s) (.addCylinders c x y z d)) := by
  have hn := hs.mono (EmbHeld.Kept.refl h m) (EmbHeld.Le.next (T := T) h (.addCylinders c x y z d))
  simp only [EmbEvent.exec, EmbEvent.execCopy, EmbRefScene.addCylinders, EmbScene.addCylinders, bind_assoc]
  refine readThen _ _ fun b1 l1 h1 => readThen _ _ fun b2 l2 h2 => readThen _ _ fun b3 l3 h3 => readThen _ _ fun b4 l4 h4 =>
    readThen _ _ fun b5 l5 h5 => elemRefThen h1 h.vecs fun q a hq => elemThen h2 fun e1 => elemThen h3 fun e2 =>
    elemThen h4 fun e3 => elemRefThen h5 h.mats fun q' a' hq' => ?_
  refine .ok ⟨rfl, ?_, List.rel_append hn.attached (.cons ?_ .nil), hn.sphere, hn.plane, ?_, hn.committed, hn.known⟩
  · simp only [hn.attached.length_eq, hn.cylinder]
    exact freeOld_rel (List.rel_append hn.heap (.cons (.some (.cylinder (q := ⟨q, e1, e2, e3, q', _⟩) hq hq')) .nil)) _
  · rw [hn.heap.length_eq]; exact .user _
  · simp only [hn.heap.length_eq]

/-! ### Programs -/

theorem EmbSim.run {es : List (EmbEvent T)} (ha : EmbLeftAlone m h es) : ∀ {r : EmbRefScene T} {s : EmbScene T}, EmbSim l m h r s →
    RunRel (EmbStates l (es.foldl EmbHeld.next h)) (runEmb l (m, r) es) (runEmbCopies l (m, s) es) := by
  induction ha with
  | nil m h => intro r s hs; exact .ok ⟨rfl, hs⟩
  | change m m' h es hk _ ih =>
    intro r s hs
    unfold runEmb runEmbCopies
    rw [List.foldlM_cons, List.foldlM_cons]
    exact ih (hs.mono hk (EmbHeld.Le.refl h))
  | call m h e es he _ ih =>
    intro r s hs
    unfold runEmb runEmbCopies
    rw [List.foldlM_cons, List.foldlM_cons]
    have step : RunRel (EmbStates l (h.next e)) (EmbEvent.exec l (m, r) e) (EmbEvent.execCopy l (m, s) e) := by
      cases e with
      | change m' => exact absurd rfl (he m')
      | addMesh v f => exact hs.addMesh v f
      | addSpheres c d => exact hs.addSpheres c d
      | addPlanes c x y d => exact hs.addPlanes c x y d
      | addCylinders c x y z d => exact hs.addCylinders c x y z d
      | commit =>
        simp only [EmbEvent.exec, EmbEvent.execCopy]
        exact hs.commit.bind fun a b hab => .ok ⟨rfl, hab⟩
    have keep : ∀ st, EmbEvent.exec l (m, r) e = .ok st → st.1 = m := by
      intro st hst
      cases e with
      | change m' => exact absurd rfl (he m')
      | _ => simp only [EmbEvent.exec] at hst; obtain ⟨x, -, hx⟩ := run_bind_eq_ok.1 hst; cases hx; rfl
    generalize EmbEvent.execCopy l (m, s) e = y at step ⊢
    generalize EmbEvent.exec l (m, r) e = x at step keep ⊢
    cases step with
    | error e => exact .error _
    | @ok a b hst =>
      have hm := keep a rfl
      obtain ⟨m1, r1⟩ := a
      obtain ⟨m2, s1⟩ := b
      obtain rfl : m1 = m := hm
      obtain ⟨rfl, h2⟩ := hst
      exact ih h2

/-! ### Reading something else -/

theorem process_congr {rtc : Rtc T} (hq : EmbSameForQueries r m m') : r.process l rtc m' = r.process l rtc m := by
  funext id rh
  unfold EmbRefScene.process
  refine RunRel.eq (.bindOk _ fun g hg => ?_)
  have hg := List.mem_of_getElem? (lookup_eq_ok.1 hg)
  cases g with
  | user p =>
    have : r.deref m' p = r.deref m p := by
      unfold EmbRefScene.deref
      cases hp : r.heap[p]? with
      | none => rfl
      | some c =>
        have hm := List.mem_of_getElem? hp
        cases c with
        | none => rfl
        | some q =>
          cases q with
          | sphere q => simp only [UserRef.load, hq.sphere q hm]
          | plane q => simp only [UserRef.load, hq.plane q hm]
          | cylinder q => simp only [UserRef.load, hq.cylinder q hm]
    simp only [this]; exact .refl _
  | mesh v n f k =>
    obtain ⟨h1, h2⟩ := hq.mesh v n f k hg
    simp only [Layout.seenIn, h1, h2]; exact .refl _

/-- the buffers of the vectors of points that were passed are freed -/
def PointsFreed (h : EmbHeld) (m m' : Memory T) : Prop := ∀ x ∈ h.vecs, ∀ b, m.vecs.buffer x = some b → m'.vecs.elems b = none

theorem ElemRef.To.freed {xs : List Nat} {q : ElemRef} {a : Vec3 T} (hq : q.To m.vecs xs a)
    (hf : ∀ x ∈ xs, ∀ b, m.vecs.buffer x = some b → m'.vecs.elems b = none) : m'.vecs.deref q = .error .dangling := by
  obtain ⟨x, hx, b, l, hd, rfl, -⟩ := hq
  unfold Store.deref
  rw [hf x hx _ (Store.data_ok.1 hd).1]

theorem EmbSim.deref_freed (hs : EmbSim l m h r s) (hf : PointsFreed h m m') (p : Nat) : r.deref m' p = .error .dangling := by
  unfold EmbRefScene.deref
  cases hp : r.heap[p]? with
  | none => rfl
  | some c =>
    cases c with
    | none => rfl
    | some q =>
      have := List.forall₂_iff_get.1 hs.heap
      obtain ⟨hlt, he⟩ := List.getElem?_eq_some_iff.1 hp
      have hc := this.2 p hlt (by rw [← this.1]; exact hlt)
      simp only [List.get_eq_getElem, he] at hc
      generalize s.heap[p]'_ = g at hc
      cases hc with
      | some hq =>
        cases hq with
        | sphere hc => simp only [UserRef.load, hc.freed hf]; rfl
        | plane hc hr => simp only [UserRef.load, hc.freed hf]; rfl
        | cylinder hc hr => simp only [UserRef.load, hc.freed hf]; rfl

theorem EmbSim.geom_freed (hs : EmbSim l m h r s) (hf : PointsFreed h m m') {i : Nat} {q : RtcGeomRef} (hi : r.attached[i]? = some q) :
    (∃ p, q = .user p) ∨ ∃ v n f k, q = .mesh v n f k ∧ m'.vecs.elems v = none := by
  have := List.forall₂_iff_get.1 hs.attached
  obtain ⟨hlt, he⟩ := List.getElem?_eq_some_iff.1 hi
  have hc := this.2 i hlt (by rw [← this.1]; exact hlt)
  simp only [List.get_eq_getElem, he] at hc
  generalize s.attached[i]'_ = g at hc
  cases hc with
  | user p => exact .inl ⟨p, rfl⟩
  | mesh hx hy hv hfc hvs hfs => exact .inr ⟨_, _, _, _, rfl, hf _ hx _ (Store.data_ok.1 hv).1⟩

theorem EmbSim.process_freed (hs : EmbSim l m h r s) (hf : PointsFreed h m m') (rtc : Rtc T) {i : Nat} (hi : i < r.attached.length)
    (rh : RtcRayHit T) : r.process l rtc m' i rh = .error .dangling := by
  unfold EmbRefScene.process
  rw [lookup_ok_of_lt hi]
  simp only [run_bind_ok]
  rcases hs.geom_freed hf (List.getElem?_eq_getElem hi) with ⟨p, hp⟩ | ⟨v, n, f, k, hp, hv⟩
  · simp only [hp, hs.deref_freed hf]; rfl
  · simp only [hp, Layout.seenIn, hv]; rfl

theorem EmbSim.rtcBounds_freed (hs : EmbSim l m h r s) (hf : PointsFreed h m m') {i : Nat} {q : RtcGeomRef}
    (hi : r.attached[i]? = some q) : r.rtcBounds l m' q = .error .dangling := by
  rcases hs.geom_freed hf hi with ⟨p, rfl⟩ | ⟨v, n, f, k, rfl, hv⟩
  · simp only [EmbRefScene.rtcBounds, hs.deref_freed hf]; rfl
  · simp only [EmbRefScene.rtcBounds, Layout.seenIn, hv]; rfl

theorem EmbSim.commit_freed (hs : EmbSim l m h r s) (hf : PointsFreed h m m') (hc : r.committed = false) (hne : r.attached ≠ []) :
    r.commit l m' = .error .dangling := by
  unfold EmbRefScene.commit
  rw [if_neg (by rw [hc]; exact Bool.false_ne_true)]
  cases ha : r.attached with
  | nil => exact absurd ha hne
  | cons q qs =>
    have := hs.rtcBounds_freed hf (i := 0) (q := q) (by rw [ha]; rfl)
    rw [List.mapM_cons, this]; rfl

/-- a trace in which every callback fails -/
theorem RtcTrace.dangling {process : Nat → RtcRayHit T → Run (RtcRayHit T)} {skip : Nat → RtcRay T → Prop} {order : List Nat}
    {rh : RtcRayHit T} {o : Run (RtcRayHit T)} (ht : RtcTrace process skip order rh o)
    (hp : ∀ i ∈ order, ∀ rh, process i rh = .error .dangling) : o = .error .dangling ∨ o = .ok rh := by
  induction ht with
  | done rh => exact .inr rfl
  | call h _ _ => rw [hp _ (List.mem_cons_self ..)] at h; cases h
  | fail h => rw [hp _ (List.mem_cons_self ..)] at h; cases h; exact .inl rfl
  | skip _ _ ih => exact ih fun i hi => hp i (List.mem_cons_of_mem _ hi)

/-- the first callback that was called before fails -/
theorem RtcTrace.to_dangling {process process' : Nat → RtcRayHit T → Run (RtcRayHit T)} {skip : Nat → RtcRay T → Prop} {order : List Nat}
    {rh : RtcRayHit T} {o : Run (RtcRayHit T)} (ht : RtcTrace process skip order rh o)
    (hp : ∀ i ∈ order, ∀ rh, process' i rh = .error .dangling) : o = .ok rh ∨ RtcTrace process' skip order rh (.error .dangling) := by
  induction ht with
  | done rh => exact .inl rfl
  | call _ _ _ => exact .inr (.fail (hp _ (List.mem_cons_self ..) _))
  | fail _ => exact .inr (.fail (hp _ (List.mem_cons_self ..) _))
  | skip hs _ ih =>
    rcases ih fun i hi => hp i (List.mem_cons_of_mem _ hi) with h | h
    · exact .inl h
    · exact .inr (.skip hs h)

theorem copyTo_toRtc (ray : Ray T) (rh : RayHit T) : ray.toRtc.copyTo rh = (false, rh) := by
  unfold RtcRayHit.copyTo Ray.toRtc; rw [if_neg (fun hn => hn rfl)]

theorem EmbSim.intersect1_freed (hs : EmbSim l m h r s) (hf : PointsFreed h m m') {rtc : Rtc T} {ray : Ray T} {rh : RayHit T}
    {o : Run (Bool × RayHit T)} (ho : r.Intersect1 l rtc m' ray rh o) :
    o = .error .dangling ∨ o = .error .notCommitted ∨ o = .ok (false, rh) := by
  unfold EmbRefScene.Intersect1 at ho
  cases hk : r.known with
  | none => rw [hk] at ho; exact .inr (.inl ho)
  | some b =>
    rw [hk] at ho
    simp only at ho
    by_cases hl : b.length ≠ r.attached.length
    · rw [if_pos hl] at ho; exact .inr (.inl ho)
    · rw [if_neg hl] at ho
      obtain ⟨order, r', hperm, ht, rfl⟩ := ho
      rcases ht.dangling fun i hi rh => hs.process_freed hf rtc (List.mem_range.1 (hperm.mem_iff.1 hi)) rh with rfl | rfl
      · exact .inl rfl
      · exact .inr (.inr (by simp only [Except.map, copyTo_toRtc]))

theorem EmbSim.hit_freed (hs : EmbSim l m h r s) (hf : PointsFreed h m m') {rtc : Rtc T} {ray : Ray T} {rh out : RayHit T}
    (ho : r.Intersect1 l rtc m ray rh (.ok (true, out))) : r.Intersect1 l rtc m' ray rh (.error .dangling) := by
  unfold EmbRefScene.Intersect1 at ho ⊢
  cases hk : r.known with
  | none => rw [hk] at ho; cases ho
  | some b =>
    rw [hk] at ho
    simp only at ho ⊢
    by_cases hl : b.length ≠ r.attached.length
    · rw [if_pos hl] at ho; cases ho
    · rw [if_neg hl] at ho ⊢
      obtain ⟨order, r', hperm, ht, he⟩ := ho
      rcases ht.to_dangling (process' := r.process l rtc m')
        fun i hi rh => hs.process_freed hf rtc (List.mem_range.1 (hperm.mem_iff.1 hi)) rh with rfl | h1
      · simp only [Except.map, copyTo_toRtc] at he; cases he
      · exact ⟨order, _, hperm, h1, rfl⟩

/-! ### Writing before the commit -/

theorem SameShape.data {α β γ : Type} {st st' : Store α} (hs : SameShape st st') (x : Nat) {S : β → γ → Prop}
    {f : Nat × List α → Run β} {g : Nat × List α → Run γ} (hf : ∀ b l l', l'.length = l.length → RunRel S (f (b, l)) (g (b, l'))) :
    RunRel S (st.data x >>= f) (st'.data x >>= g) := by
  unfold Store.data
  rw [hs.1]
  cases st.buffer x with
  | none => exact .error _
  | some b =>
    have := hs.2 b
    cases h1 : st.elems b with
    | none =>
      cases h2 : st'.elems b with
      | none => simp only [h1, h2]; exact .error _
      | some l' => rw [h1, h2] at this; cases this
    | some l =>
      cases h2 : st'.elems b with
      | none => rw [h1, h2] at this; cases this
      | some l' =>
        rw [h1, h2] at this
        simp only [h1, h2]
        exact hf b l l' (by simpa using this)

theorem SameShape.read {α β γ : Type} {st st' : Store α} (hs : SameShape st st') (x : Nat) {S : β → γ → Prop}
    {f : List α → Run β} {g : List α → Run γ} (hf : ∀ l l', RunRel S (f l) (g l')) :
    RunRel S (st.read x >>= f) (st'.read x >>= g) := by
  unfold Store.read
  simp only [bind_assoc, pure_bind]
  exact hs.data x fun b l l' _ => hf l l'

theorem SameShape.elemRef {α β γ : Type} {st st' : Store α} (hs : SameShape st st') (x i : Nat) {S : β → γ → Prop}
    {f : ElemRef → Run β} {g : ElemRef → Run γ} (hf : ∀ q, RunRel S (f q) (g q)) :
    RunRel S (st.elemRef x i >>= f) (st'.elemRef x i >>= g) := by
  unfold Store.elemRef
  simp only [bind_assoc, pure_bind]
  refine hs.data x fun b l l' hl => ?_
  unfold lookup
  simp only
  by_cases hi : i < l.length
  · rw [List.getElem?_eq_getElem hi, List.getElem?_eq_getElem (by rw [hl]; exact hi)]; exact hf _
  · rw [List.getElem?_eq_none (by omega), List.getElem?_eq_none (by omega)]; exact .error _

/-- adding does the same if the numbers are the same and everything else has the same shape -/
theorem exec_shape (hv : SameShape m.vecs m'.vecs) (hm : SameShape m.mats m'.mats) (hf : SameShape m.faces m'.faces)
    (hn : m'.nums = m.nums) (r : EmbRefScene T) {e : EmbEvent T} (he : e.Adds) :
    RunRel (fun a b => a.1 = m ∧ b.1 = m' ∧ a.2 = b.2) (EmbEvent.exec l (m, r) e) (EmbEvent.exec l (m', r) e) := by
  cases e with
  | change _ => exact he.elim
  | commit => exact he.elim
  | addMesh v f =>
    simp only [EmbEvent.exec, EmbRefScene.addMesh, bind_assoc, pure_bind]
    refine hv.data v fun b l1 l1' h1 => hf.data f fun c l2 l2' h2 => ?_
    simp only [h1, h2]
    exact .ok ⟨rfl, rfl, rfl⟩
  | addSpheres c d =>
    simp only [EmbEvent.exec, EmbRefScene.addSpheres, bind_assoc, pure_bind, hn]
    exact hv.read c fun _ _ => .bindEq _ fun _ => hv.elemRef c 0 fun q => .bindEq _ fun _ => .ok ⟨rfl, rfl, rfl⟩
  | addPlanes c x y d =>
    simp only [EmbEvent.exec, EmbRefScene.addPlanes, bind_assoc, pure_bind, hn]
    exact hv.read c fun _ _ => .bindEq _ fun _ => .bindEq _ fun _ => hm.read d fun _ _ => hv.elemRef c 0 fun q => .bindEq _ fun _ =>
      .bindEq _ fun _ => hm.elemRef d 0 fun q' => .ok ⟨rfl, rfl, rfl⟩
  | addCylinders c x y z d =>
    simp only [EmbEvent.exec, EmbRefScene.addCylinders, bind_assoc, pure_bind, hn]
    exact hv.read c fun _ _ => .bindEq _ fun _ => .bindEq _ fun _ => .bindEq _ fun _ => hm.read d fun _ _ => hv.elemRef c 0 fun q =>
      .bindEq _ fun _ => .bindEq _ fun _ => .bindEq _ fun _ => hm.elemRef d 0 fun q' => .ok ⟨rfl, rfl, rfl⟩

theorem run_shape (hv : SameShape m.vecs m'.vecs) (hm : SameShape m.mats m'.mats) (hf : SameShape m.faces m'.faces)
    (hn : m'.nums = m.nums) (es : List (EmbEvent T)) : ∀ (r : EmbRefScene T), (∀ e ∈ es, e.Adds) →
    RunRel (fun a b => a.1 = m ∧ b.1 = m' ∧ a.2 = b.2) (runEmb l (m, r) es) (runEmb l (m', r) es) := by
  induction es with
  | nil => intro r _; exact .ok ⟨rfl, rfl, rfl⟩
  | cons e es ih =>
    intro r he
    unfold runEmb
    rw [List.foldlM_cons, List.foldlM_cons]
    refine (exec_shape hv hm hf hn r (he e (List.mem_cons_self ..))).bind fun a b hab => ?_
    obtain ⟨m1, r1⟩ := a
    obtain ⟨m2, r2⟩ := b
    obtain ⟨h1, h2, h3⟩ := hab
    simp only at h1 h2 h3
    rw [h1, h2, ← h3]
    exact ih r1 fun e h => he e (List.mem_cons_of_mem _ h)

/-! ### Copying scenes -/

theorem execCopy_run {calls : List (EmbCall T)} {st st' : Memory T × EmbScene T} (hr : embRun l .init calls = .ok st.2) {e : EmbEvent T}
    (he : EmbEvent.execCopy l st e = .ok st') : ∃ calls', embRun l .init calls' = .ok st'.2 := by
  have snoc : ∀ c s', EmbCall.exec l st.2 c = .ok s' → embRun l .init (calls ++ [c]) = .ok s' := by
    intro c s' hc
    unfold embRun at hr ⊢
    rw [List.foldlM_append, hr, run_bind_ok, List.foldlM_cons, hc]; rfl
  obtain ⟨m1, s1⟩ := st
  cases e with
  | change _ => cases he; exact ⟨calls, hr⟩
  | commit =>
    simp only [EmbEvent.execCopy] at he
    obtain ⟨s2, h1, h2⟩ := run_bind_eq_ok.1 he
    cases h2
    exact ⟨_, snoc .commit s2 h1⟩
  | addMesh v f =>
    simp only [EmbEvent.execCopy] at he
    obtain ⟨vs, -, he⟩ := run_bind_eq_ok.1 he
    obtain ⟨fs, -, he⟩ := run_bind_eq_ok.1 he
    obtain ⟨q, h1, h2⟩ := run_bind_eq_ok.1 he
    cases h2
    exact ⟨_, snoc (.addMesh vs fs) q.1 (by simp only [EmbCall.exec, h1]; rfl)⟩
  | addSpheres c d =>
    simp only [EmbEvent.execCopy] at he
    obtain ⟨vs, -, he⟩ := run_bind_eq_ok.1 he
    obtain ⟨fs, -, he⟩ := run_bind_eq_ok.1 he
    obtain ⟨q, h1, h2⟩ := run_bind_eq_ok.1 he
    cases h2
    exact ⟨_, snoc (.addSpheres vs fs) q.1 (by simp only [EmbCall.exec, h1]; rfl)⟩
  | addPlanes c x y d =>
    simp only [EmbEvent.execCopy] at he
    obtain ⟨v1, -, he⟩ := run_bind_eq_ok.1 he
    obtain ⟨v2, -, he⟩ := run_bind_eq_ok.1 he
    obtain ⟨v3, -, he⟩ := run_bind_eq_ok.1 he
    obtain ⟨v4, -, he⟩ := run_bind_eq_ok.1 he
    obtain ⟨q, h1, h2⟩ := run_bind_eq_ok.1 he
    cases h2
    exact ⟨_, snoc (.addPlanes v1 v2 v3 v4) q.1 (by simp only [EmbCall.exec, h1]; rfl)⟩
  | addCylinders c x y z d =>
    simp only [EmbEvent.execCopy] at he
    obtain ⟨v1, -, he⟩ := run_bind_eq_ok.1 he
    obtain ⟨v2, -, he⟩ := run_bind_eq_ok.1 he
    obtain ⟨v3, -, he⟩ := run_bind_eq_ok.1 he
    obtain ⟨v4, -, he⟩ := run_bind_eq_ok.1 he
    obtain ⟨v5, -, he⟩ := run_bind_eq_ok.1 he
    obtain ⟨q, h1, h2⟩ := run_bind_eq_ok.1 he
    cases h2
    exact ⟨_, snoc (.addCylinders v1 v2 v3 v4 v5) q.1 (by simp only [EmbCall.exec, h1]; rfl)⟩

theorem runEmbCopies_run : ∀ (es : List (EmbEvent T)) (st st' : Memory T × EmbScene T), (∃ calls, embRun l .init calls = .ok st.2) →
    runEmbCopies l st es = .ok st' → ∃ calls, embRun l .init calls = .ok st'.2
  | [], st, st', hc, hr => by cases hr; exact hc
  | e :: es, st, st', ⟨calls, hc⟩, hr => by
    unfold runEmbCopies at hr
    rw [List.foldlM_cons] at hr
    obtain ⟨st1, h1, h2⟩ := run_bind_eq_ok.1 hr
    exact runEmbCopies_run es st1 st' (execCopy_run hc h1) h2

end
end Blazert
