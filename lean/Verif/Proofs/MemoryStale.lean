/- Helper lemmas: what happens to a scene whose containers are changed, freed or extended. -/
import Verif.Proofs.MemoryScene
import Verif.Proofs.Safe

set_option autoImplicit false
set_option linter.unusedSectionVars false

namespace Blazert
open Scalar

variable {T P Q I : Type} [Scalar T]

/-! ### What queries read -/

theorem intersectLeafR_congr (ix : Intersector T P I) {load load' : Q → Run P} (ray : Ray T) (qs : List Q)
    (h : ∀ q ∈ qs, load' q = load q) : ∀ s hit, intersectLeafR ix load' ray qs s hit = intersectLeafR ix load ray qs s hit := by
  induction qs with
  | nil => intro s hit; rfl
  | cons q qs ih =>
    intro s hit
    unfold intersectLeafR
    simp only [h q (List.mem_cons_self ..), ih fun p hp => h p (List.mem_cons_of_mem _ hp)]

theorem traverseR_congr (ix ix' : Intersector T P I) {load load' : Q → Run P} (nodes : List (Node T Q)) (ray : Ray T) (rh : RayHit T)
    (h : ∀ n ∈ nodes, ∀ q ∈ n.prims, load' q = load q) (hi : ix' = ix) :
    traverseR ix' load' nodes ray rh = traverseR ix load nodes ray rh := by
  subst hi
  have hs : ∀ st, traverseStepR ix' load' nodes ray st = traverseStepR ix' load nodes ray st := by
    intro st
    unfold traverseStepR
    refine RunRel.eq (.bindEq _ fun top => .bindOk _ fun n hn => .bindEq _ fun stack => ?_)
    rw [intersectLeafR_congr ix' ray n.prims (h n (List.mem_of_getElem? (lookup_eq_ok.1 hn)))]
    exact .refl _
  have hl : ∀ fuel st, traverseLoopR ix' load' nodes ray fuel st = traverseLoopR ix' load nodes ray fuel st := by
    intro fuel
    induction fuel with
    | zero => intro st; unfold traverseLoopR; rfl
    | succ n ih =>
      intro st
      unfold traverseLoopR
      simp only [hs, ih]
  unfold traverseR
  simp only [hl]

theorem intersectRefs_congr {C : Type} {f f' : C → Intersector T P I} {load load' : Q → Run P} {always : Bool} {ray : Ray T}
    {o : Option (Part C T Q)} (h : ∀ p, o = some p → (∀ n ∈ p.nodes, ∀ q ∈ n.prims, load' q = load q) ∧ f' p.coll = f p.coll)
    (st : RayHit T × RayHit T × Bool) : intersectRefs f' load' always ray o st = intersectRefs f load always ray o st := by
  cases o with
  | none => rfl
  | some p =>
    obtain ⟨t, r, b⟩ := st
    simp only [intersectRefs, traverseR_congr _ _ p.nodes ray t (h p rfl).1 (h p rfl).2]

/-! ### Freed elements -/

theorem traverseLoopR_dangling (ix : Intersector T P I) {load load' : Q → Run P} (nodes : List (Node T Q)) (ray : Ray T)
    (h : ∀ n ∈ nodes, ∀ q ∈ n.prims, load' q = .error .dangling) (fuel : Nat) : ∀ st i,
    traverseLoopR ix load nodes ray fuel st = .ok i →
      i = st.isect ∧ traverseLoopR ix load' nodes ray fuel st = .ok i ∨
        traverseLoopR ix load' nodes ray fuel st = .error .dangling := by
  induction fuel with
  | zero =>
    intro st i hi
    unfold traverseLoopR at hi ⊢
    split at hi
    · cases hi
    · rename_i hs
      cases hi; exact .inl ⟨rfl, by rw [if_neg hs]⟩
  | succ fuel ih =>
    intro st i hi
    unfold traverseLoopR at hi ⊢
    by_cases hs : st.stack.size > 0
    · rw [if_pos hs] at hi ⊢
      simp only at hi ⊢
      obtain ⟨⟨st1, brk⟩, h1, h2⟩ := run_bind_eq_ok.1 hi
      -- the step either reads a primitive or does the same without changing the intersector
      have key : (traverseStepR ix load' nodes ray st = .ok (st1, brk) ∧ st1.isect = st.isect) ∨
          traverseStepR ix load' nodes ray st = .error .dangling := by
        unfold traverseStepR at h1 ⊢
        obtain ⟨top, e1, h1⟩ := run_bind_eq_ok.1 h1
        rw [e1, run_bind_ok]
        obtain ⟨n, e2, h1⟩ := run_bind_eq_ok.1 h1
        rw [e2, run_bind_ok]
        obtain ⟨stack, e3, h1⟩ := run_bind_eq_ok.1 h1
        rw [e3, run_bind_ok]
        have hn := h n (List.mem_of_getElem? (lookup_eq_ok.1 e2))
        split
        · rename_i hnode
          rw [if_pos hnode] at h1
          split
          · rename_i hleaf
            rw [if_pos hleaf] at h1
            obtain ⟨near, e4, h1⟩ := run_bind_eq_ok.1 h1
            rw [e4, run_bind_ok]
            obtain ⟨s1, e5, h1⟩ := run_bind_eq_ok.1 h1
            rw [e5, run_bind_ok]
            obtain ⟨s2, e6, h1⟩ := run_bind_eq_ok.1 h1
            rw [e6, run_bind_ok]
            cases h1
            exact .inl ⟨rfl, rfl⟩
          · rename_i hleaf
            rw [if_neg hleaf] at h1
            cases hp : n.prims with
            | nil =>
              rw [hp] at h1
              simp only [intersectLeafR, run_bind_ok] at h1 ⊢
              cases h1
              exact .inl ⟨rfl, rfl⟩
            | cons q qs =>
              refine .inr ?_
              unfold intersectLeafR
              rw [hn q (by rw [hp]; exact List.mem_cons_self ..)]
              rfl
        · rename_i hnode
          rw [if_neg hnode] at h1
          cases h1
          exact .inl ⟨rfl, rfl⟩
      rcases key with ⟨k1, k2⟩ | k
      · rw [k1, run_bind_ok]
        simp only at h2 ⊢
        cases brk with
        | true =>
          simp only [if_true] at h2
          cases h2
          exact .inl ⟨k2, rfl⟩
        | false =>
          simp only [Bool.false_eq_true, if_false] at h2 ⊢
          rw [← k2]
          exact ih st1 i h2
      · rw [k]
        exact .inr rfl
    · rw [if_neg hs] at hi ⊢
      cases hi
      exact .inl ⟨rfl, rfl⟩

/-- with dangling references, a query that reported a hit is undefined, and another one is undefined or as before -/
theorem traverseR_dangling (hlt : IrreflLt T) (ix ix' : Intersector T P I) (hp : ∀ ray, ix.hitDistance (ix.prepare ray) = ray.maxHit)
    (h1 : ix'.prepare = ix.prepare) (h2 : ix'.isect = ix.isect) (h3 : ix'.hitDistance = ix.hitDistance) {load load' : Q → Run P}
    (nodes : List (Node T Q)) (ray : Ray T) (h : ∀ n ∈ nodes, ∀ q ∈ n.prims, load' q = .error .dangling) {rh rh' : RayHit T}
    {b : Bool} (hr : traverseR ix load nodes ray rh = .ok (b, rh')) :
    traverseR ix' load' nodes ray rh = .error .dangling ∨ b = false ∧ traverseR ix' load' nodes ray rh = .ok (b, rh') := by
  -- `ix` and `ix'` run the same loop
  have hl : ∀ q p, intersectLeafR ix' load' ray q p = intersectLeafR ix load' ray q p := by
    intro qs
    induction qs with
    | nil => intro s; rfl
    | cons q qs ih =>
      intro s
      funext hit
      unfold intersectLeafR
      simp only [h2, ih]
  have hs : ∀ st, traverseStepR ix' load' nodes ray st = traverseStepR ix load' nodes ray st := by
    intro st
    unfold traverseStepR
    simp only [hl, h3]
  have hloop : ∀ fuel st, traverseLoopR ix' load' nodes ray fuel st = traverseLoopR ix load' nodes ray fuel st := by
    intro fuel
    induction fuel with
    | zero => intro st; unfold traverseLoopR; rfl
    | succ n ih =>
      intro st
      unfold traverseLoopR
      simp only [hs, ih]
  unfold traverseR at hr ⊢
  have hinit : traverseInit ix' ray = traverseInit ix ray := by unfold traverseInit; rw [h1]
  rw [hinit]
  obtain ⟨st, e1, hr⟩ := run_bind_eq_ok.1 hr
  rw [e1, run_bind_ok]
  obtain ⟨i, e2, hr⟩ := run_bind_eq_ok.1 hr
  rw [hloop]
  rcases traverseLoopR_dangling ix nodes ray h _ st i e2 with ⟨e, e'⟩ | e
  · have hm : lt ray.maxHit ray.maxHit = false := hlt _
    unfold traverseInit at e1
    obtain ⟨stk, -, e1⟩ := run_bind_eq_ok.1 e1
    cases e1
    subst e
    unfold traverseFinish at hr
    simp only [hp, hm, Bool.false_eq_true, if_false] at hr
    cases hr
    refine .inr ⟨rfl, ?_⟩
    rw [e', run_bind_ok]
    unfold traverseFinish
    simp only [h3, hp, hm, Bool.false_eq_true, if_false]
    rfl
  · exact .inl (by rw [e]; rfl)

theorem intersectRefs_dangling (hlt : IrreflLt T) {C : Type} {f f' : C → Intersector T P I}
    (hp : ∀ c ray, (f c).hitDistance ((f c).prepare ray) = ray.maxHit) (h1 : ∀ c, (f' c).prepare = (f c).prepare)
    (h2 : ∀ c, (f' c).isect = (f c).isect) (h3 : ∀ c, (f' c).hitDistance = (f c).hitDistance)
    {load load' : Q → Run P} {always : Bool} {ray : Ray T} {o : Option (Part C T Q)}
    (h : ∀ p, o = some p → ∀ n ∈ p.nodes, ∀ q ∈ n.prims, load' q = .error .dangling) {st st' : RayHit T × RayHit T × Bool}
    (hr : intersectRefs f load always ray o st = .ok st') :
    intersectRefs f' load' always ray o st = .error .dangling ∨
      st'.2.2 = st.2.2 ∧ intersectRefs f' load' always ray o st = .ok st' := by
  cases o with
  | none => cases hr; exact .inr ⟨rfl, rfl⟩
  | some p =>
    obtain ⟨t, r, b⟩ := st
    simp only [intersectRefs] at hr ⊢
    obtain ⟨⟨b1, t1⟩, e1, hr⟩ := run_bind_eq_ok.1 hr
    rcases traverseR_dangling hlt (f p.coll) (f' p.coll) (hp _) (h1 _) (h2 _) (h3 _) p.nodes ray (h p rfl) e1 with e | ⟨e, e'⟩
    · exact .inl (by rw [e]; rfl)
    · rw [e', run_bind_ok]
      subst e
      refine .inr ?_
      simp only [Bool.false_and, Bool.false_eq_true, if_false] at hr ⊢
      cases hr
      exact ⟨rfl, rfl⟩

theorem forall₂_left {α β : Type} {R : α → β → Prop} {l : List α} {l' : List β} (h : List.Forall₂ R l l') {good : α → Prop}
    (hg : ∀ a b, R a b → good a) : ∀ a ∈ l, good a := by
  induction h with
  | nil => intro a ha; cases ha
  | cons hab _ ih =>
    intro a ha
    rcases List.mem_cons.1 ha with rfl | ha
    · exact hg _ _ hab
    · exact ih a ha

theorem nodesRel_prims {R : Q → P → Prop} {ns : List (Node T Q)} {ns' : List (Node T P)} (h : NodesRel R ns ns') {good : Q → Prop}
    (hg : ∀ q p, R q p → good q) : ∀ n ∈ ns, ∀ q ∈ n.prims, good q := by
  induction h with
  | nil => intro n hn; cases hn
  | cons hn _ ih =>
    intro n hm
    rcases List.mem_cons.1 hm with rfl | hm
    · exact forall₂_left hn.prims hg
    · exact ih n hm

theorem Store.deref_freed {α : Type} {s : Store α} {r : ElemRef} (h : s.elems r.buf = none) : s.deref r = .error .dangling := by
  unfold Store.deref; rw [h]

theorem SceneSim.freed (hlt : IrreflLt T) {m m' : Memory T} {h : Held} {r : RefScene T} {s : Scene T} (hs : SceneSim m h r s)
    (hf : ∀ c b, h.points c → m.vecs.buffer c = some b → m'.vecs.elems b = none) {ray : Ray T} {rh rh' : RayHit T}
    (hr : r.intersect1 m ray rh = .ok (true, rh')) : r.intersect1 m' ray rh = .error .dangling := by
  have gm : ∀ p, r.mesh = some p → ∀ n ∈ p.nodes, ∀ q ∈ n.prims, TriRef.load m' q = .error .dangling := by
    intro p hp
    have := hs.mesh
    rw [hp] at this
    cases hq : s.mesh with
    | none => rw [hq] at this; cases this
    | some q =>
      cases hh : h.mesh with
      | none => rw [hq, hh] at this; cases this
      | some v =>
        rw [hq, hh] at this
        cases this with
        | some hx =>
          obtain ⟨⟨b, d, hx⟩, rfl⟩ := hx
          refine nodesRel_prims hx.nodes fun q t hqt => ?_
          have := hf _ _ (.inl ⟨_, hh⟩) (Store.data_ok.1 hx.vertices).1
          unfold TriRef.load
          rw [Store.deref_freed (by rw [hqt.1.1]; exact this)]; rfl
  have gs : ∀ p, r.spheres = some p → ∀ n ∈ p.nodes, ∀ q ∈ n.prims, SphereRef.load m' q = .error .dangling := by
    intro p hp
    have := hs.spheres
    rw [hp] at this
    cases hq : s.spheres with
    | none => rw [hq] at this; cases this
    | some q =>
      cases hh : h.spheres with
      | none => rw [hq, hh] at this; cases this
      | some v =>
        rw [hq, hh] at this
        cases this with
        | some hx =>
          obtain ⟨⟨b, d, hx⟩, rfl⟩ := hx
          refine nodesRel_prims hx.nodes fun q t hqt => ?_
          have := hf _ _ (.inr (.inl ⟨_, hh⟩)) (Store.data_ok.1 hx.centers).1
          unfold SphereRef.load
          rw [Store.deref_freed (by rw [hqt.1.1]; exact this)]; rfl
  have gp : ∀ p, r.planes = some p → ∀ n ∈ p.nodes, ∀ q ∈ n.prims, PlaneRef.load m' q = .error .dangling := by
    intro p hp
    have := hs.planes
    rw [hp] at this
    cases hq : s.planes with
    | none => rw [hq] at this; cases this
    | some q =>
      cases hh : h.planes with
      | none => rw [hq, hh] at this; cases this
      | some v =>
        rw [hq, hh] at this
        cases this with
        | some hx =>
          obtain ⟨⟨b, d1, d2, d, hx⟩, rfl⟩ := hx
          refine nodesRel_prims hx.nodes fun q t hqt => ?_
          have := hf _ _ (.inr (.inr (.inl ⟨_, _, _, hh⟩))) (Store.data_ok.1 hx.centers).1
          unfold PlaneRef.load
          rw [Store.deref_freed (by rw [hqt.1.1]; exact this)]; rfl
  have gc : ∀ p, r.cylinders = some p → ∀ n ∈ p.nodes, ∀ q ∈ n.prims, CylRef.load m' q = .error .dangling := by
    intro p hp
    have := hs.cylinders
    rw [hp] at this
    cases hq : s.cylinders with
    | none => rw [hq] at this; cases this
    | some q =>
      cases hh : h.cylinders with
      | none => rw [hq, hh] at this; cases this
      | some v =>
        rw [hq, hh] at this
        cases this with
        | some hx =>
          obtain ⟨⟨b, d1, d2, d3, d, hx⟩, rfl⟩ := hx
          refine nodesRel_prims hx.nodes fun q t hqt => ?_
          have := hf _ _ (.inr (.inr (.inr ⟨_, _, _, _, hh⟩))) (Store.data_ok.1 hx.centers).1
          unfold CylRef.load
          rw [Store.deref_freed (by rw [hqt.1.1]; exact this)]; rfl
  unfold RefScene.intersect1 at hr ⊢
  simp only at hr ⊢
  obtain ⟨s1, e1, hr⟩ := run_bind_eq_ok.1 hr
  obtain ⟨s2, e2, hr⟩ := run_bind_eq_ok.1 hr
  obtain ⟨s3, e3, hr⟩ := run_bind_eq_ok.1 hr
  obtain ⟨s4, e4, hr⟩ := run_bind_eq_ok.1 hr
  have hb : s4.2.2 = true := congrArg Prod.fst (Except.ok.inj hr : ((s4.2.2, s4.2.1) : Bool × RayHit T) = (true, rh'))
  rcases intersectRefs_dangling hlt (f := MeshRefs.ix m) (f' := MeshRefs.ix m') (fun _ _ => rfl) (fun _ => rfl) (fun _ => rfl) (fun _ => rfl) gm e1 with
    e | ⟨f1, e⟩
  · rw [e, run_bind_error]
  rw [e, run_bind_ok]
  rcases intersectRefs_dangling hlt (f := SphereRefs.ix m) (f' := SphereRefs.ix m') (fun _ _ => rfl) (fun _ => rfl) (fun _ => rfl) (fun _ => rfl) gs e2 with
    e | ⟨f2, e⟩
  · rw [e, run_bind_error]
  rw [e, run_bind_ok]
  rcases intersectRefs_dangling hlt (f := fun _ => planeIx) (f' := fun _ => planeIx) (fun _ _ => rfl) (fun _ => rfl) (fun _ => rfl) (fun _ => rfl) gp e3 with
    e | ⟨f3, e⟩
  · rw [e, run_bind_error]
  rw [e, run_bind_ok]
  rcases intersectRefs_dangling hlt (f := fun _ => cylIx) (f' := fun _ => cylIx) (fun _ _ => rfl) (fun _ => rfl) (fun _ => rfl) (fun _ => rfl) gc e4 with
    e | ⟨f4, e⟩
  · rw [e, run_bind_error]
  rw [f4, f3, f2, f1] at hb
  cases hb

/-! ### Extended containers -/

theorem boundingBox_oob {boxes : List (Vec3 T × Vec3 T)} {c : Collection T P} (hc : c.box = lookup .oobIndex boxes) (l : List Nat)
    (h : ∃ i ∈ l, boxes.length ≤ i) : computeBoundingBox c l = .error .oobIndex := by
  unfold computeBoundingBox
  rw [hc]
  generalize ((Vec3.const maxVal, Vec3.const (-maxVal)) : Vec3 T × Vec3 T) = acc
  induction l generalizing acc with
  | nil => obtain ⟨i, hi, -⟩ := h; cases hi
  | cons j l ih =>
    rw [List.foldlM_cons]
    cases hj : boxes[j]? with
    | none => simp only [lookup, hj, run_bind_error]
    | some b =>
      simp only [lookup, hj, run_bind_ok]
      refine ih ?_ _
      obtain ⟨i, hi, hle⟩ := h
      rcases List.mem_cons.1 hi with rfl | hi
      · rw [List.getElem?_eq_none hle] at hj; cases hj
      · exact ⟨i, hi, hle⟩

theorem build_oob {boxes : List (Vec3 T × Vec3 T)} {c : Collection T P} (hc : c.box = lookup .oobIndex boxes)
    (h : boxes.length < c.size) (part : StdPartition) (o : BuildOptions) (nodes : List (Node T P)) :
    build part c o nodes = .error .oobIndex := by
  have hb := boundingBox_oob hc (List.range c.size) ⟨boxes.length, List.mem_range.2 h, le_refl _⟩
  unfold build buildRecursive
  simp only [hb, run_bind_error]

theorem sphereMake_boxes {cs : List (Vec3 T)} {rs : List T} {c : SphereColl T} (h : SphereColl.make cs rs = .ok c) :
    c.boxes.length = cs.length := by
  unfold SphereColl.make at h
  obtain ⟨bs, h1, h⟩ := run_bind_eq_ok.1 h
  cases h
  rw [mapM_length _ _ _ h1, List.length_range]

theorem planeMake_boxes {cs : List (Vec3 T)} {xs ys : List T} {rs : List (Mat3 T)} {c : PlaneColl T}
    (h : PlaneColl.make cs xs ys rs = .ok c) : c.boxes.length = cs.length := by
  unfold PlaneColl.make at h
  obtain ⟨bs, h1, h⟩ := run_bind_eq_ok.1 h
  cases h
  rw [mapM_length _ _ _ h1, List.length_range]

theorem cylMake_boxes {cs : List (Vec3 T)} {va vb hs : List T} {rs : List (Mat3 T)} {c : CylColl T}
    (h : CylColl.make cs va vb hs rs = .ok c) : c.boxes.length = cs.length := by
  unfold CylColl.make at h
  obtain ⟨bs, h1, h⟩ := run_bind_eq_ok.1 h
  cases h
  rw [mapM_length _ _ _ h1, List.length_range]

theorem meshMake_boxes {vs : List (Vec3 T)} {fs : List (Vec3 Nat)} {c : MeshColl T}
    (h : MeshColl.make vs fs = .ok c) : c.boxes.length = fs.length := by
  unfold MeshColl.make at h
  have key : ∀ (l : List (Vec3 Nat)) (a b : MeshColl T), l.foldlM (meshFace vs) a = .ok b →
      b.boxes.length = a.boxes.length + l.length := by
    intro l
    induction l with
    | nil => intro a b hab; cases hab; rfl
    | cons f l ih =>
      intro a b hab
      rw [List.foldlM_cons] at hab
      obtain ⟨a', ha, hab⟩ := run_bind_eq_ok.1 hab
      rw [ih _ _ hab]
      unfold meshFace at ha
      obtain ⟨_, -, ha⟩ := run_bind_eq_ok.1 ha
      obtain ⟨_, -, ha⟩ := run_bind_eq_ok.1 ha
      obtain ⟨_, -, ha⟩ := run_bind_eq_ok.1 ha
      obtain ⟨_, -, ha⟩ := run_bind_eq_ok.1 ha
      obtain ⟨_, -, ha⟩ := run_bind_eq_ok.1 ha
      obtain ⟨_, -, ha⟩ := run_bind_eq_ok.1 ha
      cases ha
      simp only [List.length_append, List.length_cons, List.length_nil]
      omega
  have := key _ _ _ h
  simpa using this

theorem commitRefs_oob {C : Type} {toColl : C → Run (Collection T P)} {p : Part C T P} {boxes : List (Vec3 T × Vec3 T)}
    (h : ∃ coll, toColl p.coll = .ok coll ∧ coll.box = lookup .oobIndex boxes ∧ boxes.length < coll.size) (part : StdPartition)
    (o : BuildOptions) : commitRefs part o toColl (some p) = .error .oobIndex := by
  obtain ⟨coll, h1, h2, h3⟩ := h
  simp only [commitRefs, h1, run_bind_ok, build_oob h2 h3, run_bind_error]

theorem extended_spheres {m m' : Memory T} {c d : Nat} {st : Memory T × RefScene T} {l l' : List (Vec3 T)}
    (h : runEvents (m, RefScene.init) [.addSpheres c d] = .ok st) (h1 : m.vecs.read c = .ok l)
    (h2 : m'.vecs.read c = .ok l') (hlt : l.length < l'.length) (part : StdPartition) :
    runEvents (m, RefScene.init) [.addSpheres c d, .change m', .commit part] = .error .oobIndex := by
  unfold runEvents at h ⊢
  rw [List.foldlM_cons] at h ⊢
  obtain ⟨⟨m1, r⟩, e1, -⟩ := run_bind_eq_ok.1 h
  rw [e1, run_bind_ok, List.foldlM_cons]
  simp only [Event.exec, run_bind_ok, List.foldlM_cons]
  simp only [Event.exec, RefScene.addSpheres, RefScene.init, Option.isNone_none, Bool.not_false, Bool.and_self, if_true] at e1
  obtain ⟨⟨r1, g⟩, e2, e3⟩ := run_bind_eq_ok.1 e1
  cases e3
  obtain ⟨_, k0, e2⟩ := run_bind_eq_ok.1 e2
  obtain ⟨_, k1, e2⟩ := run_bind_eq_ok.1 e2
  rw [h1] at k0
  cases k0
  obtain ⟨c1, kc, e2⟩ := run_bind_eq_ok.1 e2
  cases e2
  have hl := sphereMake_boxes kc
  have hc := commitRefs_oob (toColl := SphereRefs.toCollection m') (boxes := c1.boxes)
    (p := (⟨⟨c, d, c1.boxes⟩, [], 0⟩ : Part (SphereRefs T) T (SphereRef T)))
    (by simp only [SphereRefs.toCollection, h2, run_bind_ok]; exact ⟨_, rfl, rfl, by rw [hl]; exact hlt⟩) part BuildOptions.default
  simp only [RefScene.commit, hc, run_bind_error]
  rfl

theorem extended_planes {m m' : Memory T} {c x y d : Nat} {st : Memory T × RefScene T} {l l' : List (Vec3 T)}
    (h : runEvents (m, RefScene.init) [.addPlanes c x y d] = .ok st) (h1 : m.vecs.read c = .ok l)
    (h2 : m'.vecs.read c = .ok l') (hlt : l.length < l'.length) (part : StdPartition) :
    runEvents (m, RefScene.init) [.addPlanes c x y d, .change m', .commit part] = .error .oobIndex := by
  unfold runEvents at h ⊢
  rw [List.foldlM_cons] at h ⊢
  obtain ⟨⟨m1, r⟩, e1, -⟩ := run_bind_eq_ok.1 h
  rw [e1, run_bind_ok, List.foldlM_cons]
  simp only [Event.exec, run_bind_ok, List.foldlM_cons]
  simp only [Event.exec, RefScene.addPlanes, RefScene.init, Option.isNone_none, Bool.not_false, Bool.and_self, if_true] at e1
  obtain ⟨⟨r1, g⟩, e2, e3⟩ := run_bind_eq_ok.1 e1
  cases e3
  obtain ⟨_, k0, e2⟩ := run_bind_eq_ok.1 e2
  obtain ⟨_, k1, e2⟩ := run_bind_eq_ok.1 e2
  obtain ⟨_, k2, e2⟩ := run_bind_eq_ok.1 e2
  obtain ⟨_, k3, e2⟩ := run_bind_eq_ok.1 e2
  rw [h1] at k0
  cases k0
  obtain ⟨c1, kc, e2⟩ := run_bind_eq_ok.1 e2
  cases e2
  have hl := planeMake_boxes kc
  have hc := commitRefs_oob (toColl := PlaneRefs.toCollection m') (boxes := c1.boxes)
    (p := (⟨⟨c, x, y, d, c1.boxes⟩, [], 0⟩ : Part (PlaneRefs T) T (PlaneRef T)))
    (by simp only [PlaneRefs.toCollection, h2, run_bind_ok]; exact ⟨_, rfl, rfl, by rw [hl]; exact hlt⟩) part BuildOptions.default
  simp only [RefScene.commit, hc, run_bind_error]
  rfl

theorem extended_cylinders {m m' : Memory T} {c x y z d : Nat} {st : Memory T × RefScene T} {l l' : List (Vec3 T)}
    (h : runEvents (m, RefScene.init) [.addCylinders c x y z d] = .ok st) (h1 : m.vecs.read c = .ok l)
    (h2 : m'.vecs.read c = .ok l') (hlt : l.length < l'.length) (part : StdPartition) :
    runEvents (m, RefScene.init) [.addCylinders c x y z d, .change m', .commit part] = .error .oobIndex := by
  unfold runEvents at h ⊢
  rw [List.foldlM_cons] at h ⊢
  obtain ⟨⟨m1, r⟩, e1, -⟩ := run_bind_eq_ok.1 h
  rw [e1, run_bind_ok, List.foldlM_cons]
  simp only [Event.exec, run_bind_ok, List.foldlM_cons]
  simp only [Event.exec, RefScene.addCylinders, RefScene.init, Option.isNone_none, Bool.not_false, Bool.and_self, if_true] at e1
  obtain ⟨⟨r1, g⟩, e2, e3⟩ := run_bind_eq_ok.1 e1
  cases e3
  obtain ⟨_, k0, e2⟩ := run_bind_eq_ok.1 e2
  obtain ⟨_, k1, e2⟩ := run_bind_eq_ok.1 e2
  obtain ⟨_, k2, e2⟩ := run_bind_eq_ok.1 e2
  obtain ⟨_, k3, e2⟩ := run_bind_eq_ok.1 e2
  obtain ⟨_, k4, e2⟩ := run_bind_eq_ok.1 e2
  rw [h1] at k0
  cases k0
  obtain ⟨c1, kc, e2⟩ := run_bind_eq_ok.1 e2
  cases e2
  have hl := cylMake_boxes kc
  have hc := commitRefs_oob (toColl := CylRefs.toCollection m') (boxes := c1.boxes)
    (p := (⟨⟨c, x, y, z, d, c1.boxes⟩, [], 0⟩ : Part (CylRefs T) T (CylRef)))
    (by simp only [CylRefs.toCollection, h2, run_bind_ok]; exact ⟨_, rfl, rfl, by rw [hl]; exact hlt⟩) part BuildOptions.default
  simp only [RefScene.commit, hc, run_bind_error]
  rfl

theorem extended_mesh {m m' : Memory T} {v f : Nat} {st : Memory T × RefScene T} {l l' : List (Vec3 Nat)}
    (h : runEvents (m, RefScene.init) [.addMesh v f] = .ok st) (h1 : m.faces.read f = .ok l)
    (h2 : m'.faces.read f = .ok l') (hlt : l.length < l'.length) (part : StdPartition) :
    runEvents (m, RefScene.init) [.addMesh v f, .change m', .commit part] = .error .oobIndex := by
  unfold runEvents at h ⊢
  rw [List.foldlM_cons] at h ⊢
  obtain ⟨⟨m1, r⟩, e1, -⟩ := run_bind_eq_ok.1 h
  rw [e1, run_bind_ok, List.foldlM_cons]
  simp only [Event.exec, run_bind_ok, List.foldlM_cons]
  simp only [Event.exec, RefScene.addMesh, RefScene.init, Option.isNone_none, Bool.not_false, Bool.and_self, if_true] at e1
  obtain ⟨⟨r1, g⟩, e2, e3⟩ := run_bind_eq_ok.1 e1
  cases e3
  obtain ⟨_, k0, e2⟩ := run_bind_eq_ok.1 e2
  obtain ⟨_, k1, e2⟩ := run_bind_eq_ok.1 e2
  rw [h1] at k1
  cases k1
  obtain ⟨c1, kc, e2⟩ := run_bind_eq_ok.1 e2
  cases e2
  have hl := meshMake_boxes kc
  have hc := commitRefs_oob (toColl := MeshRefs.toCollection m') (boxes := c1.boxes)
    (p := (⟨⟨v, f, c1.centers, c1.boxes, c1.faceNormals, c1.vertexNormals⟩, [], 0⟩ : Part (MeshRefs T) T (TriRef T)))
    (by simp only [MeshRefs.toCollection, h2, run_bind_ok]; exact ⟨_, rfl, rfl, by rw [hl]; exact hlt⟩) part BuildOptions.default
  simp only [RefScene.commit, hc, run_bind_error]

end Blazert
