/- Queries on committed scenes: which primitives the intersector sees, and that the lookups after the loop succeed. -/
import Verif.Proofs.Scene
import Verif.XF

set_option autoImplicit false
set_option linter.unusedSectionVars false

namespace Blazert
open Scalar

variable {T P I C : Type} [Scalar T]

theorem intersectLeaf_J (ix : Intersector T P I) (ray : Ray T) (J : I → Prop) (ps : List P)
    (h : ∀ p ∈ ps, ∀ s, J s → J (ix.isect s p ray).1) (s : I) (b : Bool) (hs : J s) :
    J (intersectLeaf ix ray ps s b).1 := by
  induction ps generalizing s b with
  | nil => exact hs
  | cons p ps ih =>
    simp only [intersectLeaf]
    have := h p (by simp) s hs
    split
    · exact this
    · exact ih (fun q hq => h q (by simp [hq])) _ _ this

/-- One step keeps an invariant of the intersector that the primitives below the stacked trees keep. -/
theorem traverseStep_J (ix : Intersector T P I) (nodes : List (Node T P)) (ray : Ray T) (J : I → Prop)
    (st st' : TState T I) (brk : Bool) (t : Tree T P) (ts : List (Tree T P))
    (hrep : List.Forall₂ (Represents nodes) st.stack.toList (t :: ts))
    (hss : st.stack.ss ≤ st.stack.cells.length)
    (hJ : ∀ q ∈ t :: ts, ∀ p ∈ q.prims, ∀ s, J s → J (ix.isect s p ray).1)
    (h0 : J st.isect) (h : traverseStep ix nodes ray st = .ok (st', brk)) :
    J st'.isect ∧ ∃ ts', List.Forall₂ (Represents nodes) st'.stack.toList ts' ∧
      st'.stack.ss ≤ st'.stack.cells.length ∧
      (∀ q ∈ ts', ∀ p ∈ q.prims, ∀ s, J s → J (ix.isect s p ray).1) := by
  obtain ⟨i, is, hl⟩ : ∃ i is, st.stack.toList = i :: is := by
    cases h : st.stack.toList with
    | nil => simp_all
    | cons i is => exact ⟨i, is, rfl⟩
  rw [hl] at hrep
  obtain ⟨hi, his⟩ := List.forall₂_cons.1 hrep
  have hback := Stack.back_spec _ _ _ hl hss
  have hJts : ∀ q ∈ ts, ∀ p ∈ q.prims, ∀ s, J s → J (ix.isect s p ray).1 := fun q hq => hJ q (by simp [hq])
  simp only [traverseStep, hback, run_bind_ok] at h
  rw [run_bind_eq_ok] at h
  obtain ⟨nd', hnd', h⟩ := h
  rw [run_bind_eq_ok] at h
  obtain ⟨sp, hpop, h⟩ := h
  obtain ⟨hsp, hsp1, hsp2⟩ := Stack.pop_ok hl hpop
  have stay : ∀ s, J s → ∀ st' : TState T I, st'.stack = sp → st'.isect = s → J st'.isect ∧ ∃ ts',
      List.Forall₂ (Represents nodes) st'.stack.toList ts' ∧ st'.stack.ss ≤ st'.stack.cells.length ∧
      (∀ q ∈ ts', ∀ p ∈ q.prims, ∀ s, J s → J (ix.isect s p ray).1) := by
    intro s hs st' h1 (h2 : st'.isect = s)
    exact ⟨by rw [h2]; exact hs, ts, by rw [h1, hsp]; exact his, by rw [h1]; omega, hJts⟩
  cases t with
  | leaf mn mx ps =>
    obtain ⟨nd, hnd, hleaf, hmn, hmx, hps⟩ := hi
    rw [(lookup_eq_ok (u := .oobNode)).2 hnd] at hnd'
    obtain rfl := Except.ok.inj hnd'
    have hJl : J (intersectLeaf ix ray nd.prims st.isect false).1 :=
      intersectLeaf_J ix ray J nd.prims
        (by rw [hps]; exact hJ (.leaf mn mx ps) (by simp) |> (by simpa [Tree.prims, Tree.leaves] using ·)) _ _ h0
    simp only [hleaf, Bool.not_true, Bool.false_eq_true, if_false] at h
    split at h
    · split at h
      · simp only [run_pure, Except.ok.injEq, Prod.mk.injEq] at h
        obtain ⟨rfl, rfl⟩ := h
        exact stay _ hJl _ rfl rfl
      · simp only [run_pure, Except.ok.injEq, Prod.mk.injEq] at h
        obtain ⟨rfl, rfl⟩ := h
        exact stay _ hJl _ rfl rfl
    · simp only [run_pure, Except.ok.injEq, Prod.mk.injEq] at h
      obtain ⟨rfl, rfl⟩ := h
      exact stay _ h0 _ rfl rfl
  | branch mn mx ax l r =>
    obtain ⟨nd, hnd, hleaf, hmn, hmx, hax, hax3, hl0, hr0⟩ := hi
    rw [(lookup_eq_ok (u := .oobNode)).2 hnd] at hnd'
    obtain rfl := Except.ok.inj hnd'
    have hprims : (Tree.branch mn mx ax l r).prims = l.prims ++ r.prims := by simp [Tree.prims, Tree.leaves]
    have hJb := hJ _ (List.mem_cons_self ..)
    rw [hprims] at hJb
    simp only [hleaf, Bool.not_false, if_true] at h
    split at h
    · rw [run_bind_eq_ok] at h
      obtain ⟨near, _, h⟩ := h
      rw [run_bind_eq_ok] at h
      obtain ⟨s1, h1, h⟩ := h
      rw [run_bind_eq_ok] at h
      obtain ⟨s2, h2, h⟩ := h
      simp only [run_pure, Except.ok.injEq, Prod.mk.injEq] at h
      obtain ⟨rfl, rfl⟩ := h
      obtain ⟨a1, a2, a3, a4⟩ := Stack.push_ok h1
      obtain ⟨b1, b2, b3, b4⟩ := Stack.push_ok h2
      refine ⟨h0, ?_⟩
      by_cases hn0 : near = 0
      · refine ⟨l :: r :: ts, ?_, by simp only; omega, ?_⟩
        · simp only [b1, a1, hsp, hn0, if_true]
          exact .cons hl0 (.cons hr0 his)
        · intro q hq
          simp only [List.mem_cons] at hq
          rcases hq with rfl | rfl | hq
          · exact fun p hp => hJb p (by simp [hp])
          · exact fun p hp => hJb p (by simp [hp])
          · exact hJts q hq
      · refine ⟨r :: l :: ts, ?_, by simp only; omega, ?_⟩
        · simp only [b1, a1, hsp, hn0, if_false]
          exact .cons hr0 (.cons hl0 his)
        · intro q hq
          simp only [List.mem_cons] at hq
          rcases hq with rfl | rfl | hq
          · exact fun p hp => hJb p (by simp [hp])
          · exact fun p hp => hJb p (by simp [hp])
          · exact hJts q hq
    · simp only [run_pure, Except.ok.injEq, Prod.mk.injEq] at h
      obtain ⟨rfl, rfl⟩ := h
      exact stay _ h0 _ rfl rfl

theorem traverseLoop_J (ix : Intersector T P I) (nodes : List (Node T P)) (ray : Ray T) (J : I → Prop) (fuel : Nat)
    (st : TState T I) (s : I) (ts : List (Tree T P))
    (hrep : List.Forall₂ (Represents nodes) st.stack.toList ts) (hss : st.stack.ss ≤ st.stack.cells.length)
    (hJ : ∀ q ∈ ts, ∀ p ∈ q.prims, ∀ s, J s → J (ix.isect s p ray).1)
    (h0 : J st.isect) (h : traverseLoop ix nodes ray fuel st = .ok s) : J s := by
  induction fuel generalizing st ts with
  | zero =>
    unfold traverseLoop at h
    split at h
    · simp at h
    · obtain rfl := Except.ok.inj h; exact h0
  | succ fuel ih =>
    unfold traverseLoop at h
    split at h
    · rename_i hpos
      simp only at h
      rw [run_bind_eq_ok] at h
      obtain ⟨⟨st', brk⟩, h1, h2⟩ := h
      cases ts with
      | nil =>
        have hl : st.stack.toList = [] := by cases h : st.stack.toList <;> simp_all
        have h0 : st.stack.ss = 0 := by rw [← Stack.toList_length _ hss, hl]; rfl
        simp [Stack.size, h0] at hpos
      | cons t ts =>
        obtain ⟨hj, ts', a1, a2, a3⟩ := traverseStep_J ix nodes ray J st st' brk t ts hrep hss hJ h0 h1
        simp only at h2
        split at h2
        · simp only [run_pure, Except.ok.injEq] at h2; rw [← h2]; exact hj
        · exact ih st' ts' a1 a2 a3 hj h2
    · obtain rfl := Except.ok.inj h; exact h0

/-- The traversal of a stored tree either overflows the stack or finishes with an intersector that satisfies every
invariant kept by the primitives of the tree. -/
theorem traverse_J (ix : Intersector T P I) (nodes : List (Node T P)) (ray : Ray T) (rayhit : RayHit T) (J : I → Prop)
    (t : Tree T P) (hrep : Represents nodes 0 t) (hn : t.numNodes ≤ nodes.length)
    (hJ : ∀ p ∈ t.prims, ∀ s, J s → J (ix.isect s p ray).1) (h0 : J (ix.prepare ray)) :
    traverse ix nodes ray rayhit = .error .oobStack ∨
      ∃ s, J s ∧ traverse ix nodes ray rayhit = traverseFinish ix ray rayhit s := by
  obtain ⟨s, h1, h2, h3, h4⟩ := Stack.empty_push maxTreeDepth (by decide) 0
  unfold traverse traverseInit
  simp only [h1, run_bind_ok, run_pure]
  have hss : s.ss ≤ s.cells.length := by rw [h3, h4]; decide
  rcases traverseLoop_terminates ix nodes ray (nodes.length + 1) ⟨s, ray.maxHit, ix.prepare ray⟩ [t]
    (by simp only [h2]; exact .cons hrep .nil) hss (by simp [totalNodes]; omega) with h | ⟨s', h⟩
  · left; simp [h]
  · right
    refine ⟨s', ?_, by simp [h]⟩
    exact traverseLoop_J ix nodes ray J (nodes.length + 1) ⟨s, ray.maxHit, ix.prepare ray⟩ s' [t]
      (by simp only [h2]; exact .cons hrep .nil) hss (by simpa using hJ) h0 h

/-- `a < a` is never true (this holds for IEEE types, NaN included) -/
def IrreflLt (T : Type) [Scalar T] : Prop := ∀ a : T, lt a a = false

theorem XF.irreflLt {K : Type} [Field K] [LinearOrder K] [FloorRing K] (F : Fmt K) : IrreflLt (XF F) := by
  intro a
  cases a with
  | fin v s => show decide (v < v) = false; simp
  | inf s => show (s && !s) = false; cases s <;> rfl
  | nan => rfl

/-- A committed part whose intersector only ever records ids of primitives, and whose epilogue succeeds for those. -/
theorem traverse_no_ub (hlt : IrreflLt T) (ix : Intersector T P I) (nodes : List (Node T P)) (ray : Ray T)
    (rayhit : RayHit T) (t : Tree T P) (hrep : Represents nodes 0 t) (hn : t.numNodes ≤ nodes.length)
    (primId : I → Nat) (Good : Nat → Prop)
    (hprep : ix.hitDistance (ix.prepare ray) = ray.maxHit)
    (hstep : ∀ p ∈ t.prims, ∀ s, (ix.isect s p ray).1 = s ∨ Good (primId (ix.isect s p ray).1))
    (hpost : ∀ s, Good (primId s) → ∃ rh, ix.post s rayhit = .ok rh) :
    traverse ix nodes ray rayhit = .error .oobStack ∨ ∃ r, traverse ix nodes ray rayhit = .ok r := by
  rcases traverse_J ix nodes ray rayhit (fun s => ix.hitDistance s = ray.maxHit ∨ Good (primId s)) t hrep hn
    (fun p hp s hs => by
      rcases hstep p hp s with h | h
      · rw [h]; exact hs
      · exact .inr h) (.inl hprep) with h | ⟨s, hs, h⟩
  · exact .inl h
  · right
    rw [h]
    unfold traverseFinish
    simp only
    split
    · rename_i hh
      rcases hs with hs | hs
      · rw [hs, hlt] at hh; simp at hh
      · obtain ⟨rh, e⟩ := hpost s hs
        exact ⟨(true, rh), by rw [e]; rfl⟩
    · exact ⟨_, rfl⟩

/-! ### the four kinds of primitives -/

/-- the primitives of a built tree come from the collection -/
theorem Built.prim_mem {p : Collection T P} {o : BuildOptions} {d : Nat} {idx : List Nat} {t : Tree T P}
    (h : Built p o d idx t) {q : P} (hq : q ∈ t.prims) : ∃ i ∈ idx, p.prim i = .ok q := by
  obtain ⟨ps, h1, h2⟩ := h.prims_perm
  have hf := mapM_ok_forall₂ _ _ _ h1
  obtain ⟨k, hk, rfl⟩ := List.mem_iff_getElem.1 (h2.mem_iff.1 hq)
  have hk' : k < idx.length := by rw [hf.length_eq]; exact hk
  exact ⟨idx[k], List.getElem_mem _, by simpa using (List.forall₂_iff_get.1 hf).2 k hk' hk⟩

/-- and every primitive of the collection is in the tree -/
theorem Built.mem_prim {p : Collection T P} {o : BuildOptions} {d : Nat} {idx : List Nat} {t : Tree T P}
    (h : Built p o d idx t) {i : Nat} (hi : i ∈ idx) : ∃ q ∈ t.prims, p.prim i = .ok q := by
  obtain ⟨ps, h1, h2⟩ := h.prims_perm
  have hf := mapM_ok_forall₂ _ _ _ h1
  obtain ⟨k, hk, rfl⟩ := List.mem_iff_getElem.1 hi
  have hk' : k < ps.length := by rw [← hf.length_eq]; exact hk
  exact ⟨ps[k], h2.mem_iff.2 (List.getElem_mem _), by simpa using (List.forall₂_iff_get.1 hf).2 k hk hk'⟩

theorem SphereColl.prim_ok {c : SphereColl T} {i : Nat} {p : Sphere T} (h : c.toCollection.prim i = .ok p) :
    p.primId = i ∧ i < c.centers.length ∧ c.centers[i]? = some p.center ∧ c.radii[i]? = some p.radius := by
  simp only [SphereColl.toCollection] at h
  rw [run_bind_eq_ok] at h
  obtain ⟨a, ha, h⟩ := h
  rw [run_bind_eq_ok] at h
  obtain ⟨b, hb, h⟩ := h
  simp only [run_pure, Except.ok.injEq] at h
  subst h
  exact ⟨rfl, lookup_lt ha, lookup_eq_ok.1 ha, lookup_eq_ok.1 hb⟩

theorem MeshColl.prim_ok {m : MeshColl T} {i : Nat} {p : Triangle T} (h : m.toCollection.prim i = .ok p) :
    ∃ f a b c, m.faces[i]? = some f ∧ m.vertices[f.x]? = some a ∧ m.vertices[f.y]? = some b ∧
      m.vertices[f.z]? = some c ∧ p = Triangle.make a b c i := by
  simp only [MeshColl.toCollection] at h
  rw [run_bind_eq_ok] at h
  obtain ⟨f, hf, h⟩ := h
  rw [run_bind_eq_ok] at h
  obtain ⟨a, ha, h⟩ := h
  rw [run_bind_eq_ok] at h
  obtain ⟨b, hb, h⟩ := h
  rw [run_bind_eq_ok] at h
  obtain ⟨c, hc, h⟩ := h
  simp only [run_pure, Except.ok.injEq] at h
  exact ⟨f, a, b, c, lookup_eq_ok.1 hf, lookup_eq_ok.1 ha, lookup_eq_ok.1 hb, lookup_eq_ok.1 hc, h.symm⟩

theorem addNormal_ok {l l' : List (Vec3 T)} {v : Nat} {n : Vec3 T} (h : addNormal l v n = .ok l') :
    l'.length = l.length ∧ v < l.length := by
  unfold addNormal at h
  rw [run_bind_eq_ok] at h
  obtain ⟨old, h1, h⟩ := h
  simp only [run_pure, Except.ok.injEq] at h
  subst h
  exact ⟨by simp, lookup_lt h1⟩

theorem meshFace_ok {vs : List (Vec3 T)} {m m' : MeshColl T} {f : Vec3 Nat} (h : meshFace vs m f = .ok m') :
    ∃ v0 v1 v2, vs[f.x]? = some v0 ∧ vs[f.y]? = some v1 ∧ vs[f.z]? = some v2 ∧
      m'.vertices = m.vertices ∧ m'.faces = m.faces ∧
      m'.centers = m.centers ++ [triCenter v0 v1 v2] ∧ m'.boxes = m.boxes ++ [triBox v0 v1 v2] ∧
      m'.faceNormals = m.faceNormals ++ [triNormal v0 v1 v2] ∧
      m'.vertexNormals.length = m.vertexNormals.length := by
  unfold meshFace at h
  rw [run_bind_eq_ok] at h
  obtain ⟨v0, h0, h⟩ := h
  rw [run_bind_eq_ok] at h
  obtain ⟨v1, h1, h⟩ := h
  rw [run_bind_eq_ok] at h
  obtain ⟨v2, h2, h⟩ := h
  simp only at h
  rw [run_bind_eq_ok] at h
  obtain ⟨n0, g0, h⟩ := h
  rw [run_bind_eq_ok] at h
  obtain ⟨n1, g1, h⟩ := h
  rw [run_bind_eq_ok] at h
  obtain ⟨n2, g2, h⟩ := h
  simp only [run_pure, Except.ok.injEq] at h
  subst h
  exact ⟨v0, v1, v2, lookup_eq_ok.1 h0, lookup_eq_ok.1 h1, lookup_eq_ok.1 h2, rfl, rfl, rfl, rfl, rfl,
    by simp only; rw [(addNormal_ok g2).1, (addNormal_ok g1).1, (addNormal_ok g0).1]⟩

/-- what the mesh constructor computes -/
theorem MeshColl.make_ok {vs : List (Vec3 T)} {fs : List (Vec3 Nat)} {m : MeshColl T} (h : MeshColl.make vs fs = .ok m) :
    m.vertices = vs ∧ m.faces = fs ∧ m.vertexNormals.length = vs.length ∧
    (∃ cs, m.centers = cs ∧ List.Forall₂ (fun f c => ∃ v0 v1 v2, vs[f.x]? = some v0 ∧ vs[f.y]? = some v1 ∧
      vs[f.z]? = some v2 ∧ c = (triCenter v0 v1 v2 : Vec3 T)) fs cs) ∧
    (∃ bs, m.boxes = bs ∧ List.Forall₂ (fun f b => ∃ v0 v1 v2, vs[f.x]? = some v0 ∧ vs[f.y]? = some v1 ∧
      vs[f.z]? = some v2 ∧ b = (triBox v0 v1 v2 : Vec3 T × Vec3 T)) fs bs) := by
  have gen : ∀ (fs : List (Vec3 Nat)) (m0 m : MeshColl T), fs.foldlM (meshFace vs) m0 = .ok m →
      m.vertices = m0.vertices ∧ m.faces = m0.faces ∧ m.vertexNormals.length = m0.vertexNormals.length ∧
      (∃ cs, m.centers = m0.centers ++ cs ∧ List.Forall₂ (fun f c => ∃ v0 v1 v2, vs[f.x]? = some v0 ∧
        vs[f.y]? = some v1 ∧ vs[f.z]? = some v2 ∧ c = (triCenter v0 v1 v2 : Vec3 T)) fs cs) ∧
      (∃ bs, m.boxes = m0.boxes ++ bs ∧ List.Forall₂ (fun f b => ∃ v0 v1 v2, vs[f.x]? = some v0 ∧
        vs[f.y]? = some v1 ∧ vs[f.z]? = some v2 ∧ b = (triBox v0 v1 v2 : Vec3 T × Vec3 T)) fs bs) := by
    intro fs
    induction fs with
    | nil =>
      intro m0 m h
      simp only [List.foldlM_nil, run_pure, Except.ok.injEq] at h
      subst h
      exact ⟨rfl, rfl, rfl, ⟨[], by simp, .nil⟩, ⟨[], by simp, .nil⟩⟩
    | cons f fs ih =>
      intro m0 m h
      rw [List.foldlM_cons, run_bind_eq_ok] at h
      obtain ⟨m1, h1, h⟩ := h
      obtain ⟨v0, v1, v2, a0, a1, a2, b1, b2, b3, b4, b5, b6⟩ := meshFace_ok h1
      obtain ⟨c1, c2, c3, ⟨cs, c4, c4'⟩, ⟨bs, c5, c5'⟩⟩ := ih m1 m h
      refine ⟨c1.trans b1, c2.trans b2, c3.trans b6, ⟨triCenter v0 v1 v2 :: cs, by rw [c4, b3]; simp, ?_⟩,
        ⟨triBox v0 v1 v2 :: bs, by rw [c5, b4]; simp, ?_⟩⟩
      · exact .cons ⟨v0, v1, v2, a0, a1, a2, rfl⟩ c4'
      · exact .cons ⟨v0, v1, v2, a0, a1, a2, rfl⟩ c5'
  obtain ⟨c1, c2, c3, ⟨cs, c4, c4'⟩, ⟨bs, c5, c5'⟩⟩ := gen fs _ m h
  exact ⟨c1, c2, by simpa using c3, ⟨cs, by simpa using c4, c4'⟩, ⟨bs, by simpa using c5, c5'⟩⟩

theorem sphereIntersect_id (s : SphereI T) (p : Sphere T) (ray : Ray T) :
    (sphereIntersect s p ray).1 = s ∨ (sphereIntersect s p ray).1.primId = p.primId := by
  unfold sphereIntersect
  dsimp only
  split_ifs <;> simp

theorem triIntersect_id (s : TriI T) (p : Triangle T) (ray : Ray T) :
    (triIntersect s p ray).1 = s ∨ (triIntersect s p ray).1.primId = p.primId := by
  unfold triIntersect
  dsimp only
  split_ifs <;> simp

/-- one part of `intersect1` when the traversal is well behaved -/
theorem intersectPart_no_ub (ix : C → Intersector T P I) (always : Bool) (ray : Ray T) (part : Option (Part C T P))
    (h : ∀ p rh, part = some p → traverse (ix p.coll) p.nodes ray rh = .error .oobStack ∨
      ∃ r, traverse (ix p.coll) p.nodes ray rh = .ok r) (st : RayHit T × RayHit T × Bool) :
    intersectPart ix always ray part st = .error .oobStack ∨ ∃ r, intersectPart ix always ray part st = .ok r := by
  obtain ⟨temp, rh, hit⟩ := st
  cases part with
  | none => exact .inr ⟨_, rfl⟩
  | some p =>
    simp only [intersectPart]
    rcases h p temp rfl with h | ⟨r, h⟩
    · left; simp [h]
    · right
      simp only [h, run_bind_ok]
      split <;> exact ⟨_, rfl⟩

/-- every traversal of a part of a committed scene -/
structure TraversesOk (s : Scene T) (ray : Ray T) (Q : Run (Bool × RayHit T) → Prop) : Prop where
  mesh : ∀ p rh, s.mesh = some p → Q (traverse (triIx p.coll) p.nodes ray rh)
  spheres : ∀ p rh, s.spheres = some p → Q (traverse (sphereIx p.coll) p.nodes ray rh)
  planes : ∀ p rh, s.planes = some p → Q (traverse planeIx p.nodes ray rh)
  cylinders : ∀ p rh, s.cylinders = some p → Q (traverse cylIx p.nodes ray rh)

theorem SceneOk.traverses (hlt : IrreflLt T) {s : Scene T} (h : SceneOk s) (hc : s.committed = true) (ray : Ray T) :
    TraversesOk s ray fun x => x = .error .oobStack ∨ ∃ r, x = .ok r := by
  have hm := h.mesh; have hs := h.spheres; have hp := h.planes; have hy := h.cylinders
  rw [hc] at hm hs hp hy
  refine ⟨?_, ?_, ?_, ?_⟩
  · intro p rh e
    rw [e] at hm
    obtain ⟨t, h1, h2, h3⟩ := hm.tree
    obtain ⟨v, f, hmake⟩ := (hm p rfl).1
    obtain ⟨e1, e2, e3, _⟩ := MeshColl.make_ok hmake
    refine traverse_no_ub hlt _ p.nodes ray rh t h2 h3 TriI.primId
      (fun i => ∃ q, p.coll.toCollection.prim i = .ok q) rfl ?_ ?_
    · intro q hq st
      refine (triIntersect_id st q ray).imp id fun he => ?_
      obtain ⟨i, _, hi⟩ := h1.prim_mem hq
      obtain ⟨_, _, _, _, _, _, _, _, rfl⟩ := MeshColl.prim_ok hi
      exact ⟨_, by show p.coll.toCollection.prim (triIntersect st _ ray).1.primId = _; rw [he]; exact hi⟩
    · intro st ⟨q, hq⟩
      obtain ⟨f, a, b, c, hf, ha, hb, hc, _⟩ := MeshColl.prim_ok hq
      have look : ∀ k x, p.coll.vertices[k]? = some x → ∃ n, lookup .oobIndex p.coll.vertexNormals k = .ok n := by
        intro k x hx
        have := (List.getElem?_eq_some_iff.1 hx).1
        rw [e1] at this
        exact ⟨_, lookup_ok_of_lt (by omega)⟩
      obtain ⟨n0, hn0⟩ := look _ _ ha
      obtain ⟨n1, hn1⟩ := look _ _ hb
      obtain ⟨n2, hn2⟩ := look _ _ hc
      exact ⟨_, by
        show triPost p.coll st rh = _
        unfold triPost
        rw [(lookup_eq_ok (u := .oobIndex)).2 hf]
        simp only [run_bind_ok, hn0, hn1, hn2]
        rfl⟩
  · intro p rh e
    rw [e] at hs
    obtain ⟨t, h1, h2, h3⟩ := hs.tree
    refine traverse_no_ub hlt _ p.nodes ray rh t h2 h3 SphereI.primId (fun i => i < p.coll.centers.length) rfl ?_ ?_
    · intro q hq st
      refine (sphereIntersect_id st q ray).imp id fun he => ?_
      obtain ⟨i, _, hi⟩ := h1.prim_mem hq
      obtain ⟨e1, e2, _⟩ := SphereColl.prim_ok hi
      show (sphereIntersect st q ray).1.primId < _
      rw [he, e1]; exact e2
    · intro st hst
      exact ⟨_, by
        show spherePost p.coll st rh = _
        unfold spherePost
        rw [lookup_ok_of_lt hst]
        rfl⟩
  · intro p rh e
    rw [e] at hp
    obtain ⟨t, h1, h2, h3⟩ := hp.tree
    exact traverse_no_ub hlt _ p.nodes ray rh t h2 h3 PlaneI.primId (fun _ => True) rfl (fun _ _ _ => .inr trivial)
      fun st _ => ⟨_, rfl⟩
  · intro p rh e
    rw [e] at hy
    obtain ⟨t, h1, h2, h3⟩ := hy.tree
    exact traverse_no_ub hlt _ p.nodes ray rh t h2 h3 PlaneI.primId (fun _ => True) rfl (fun _ _ _ => .inr trivial)
      fun st _ => ⟨_, rfl⟩

theorem TraversesOk.intersect1 {s : Scene T} {ray : Ray T}
    (h : TraversesOk s ray fun x => x = .error .oobStack ∨ ∃ r, x = .ok r) (rh : RayHit T) :
    s.intersect1 ray rh = .error .oobStack ∨ ∃ r, s.intersect1 ray rh = .ok r := by
  unfold Scene.intersect1
  simp only
  rcases intersectPart_no_ub triIx true ray s.mesh h.mesh (RayHit.fresh, rh, false) with e | ⟨a, e⟩
  · left; rw [e]; rfl
  rw [e]; simp only [run_bind_ok]
  rcases intersectPart_no_ub sphereIx false ray s.spheres h.spheres a with e | ⟨a, e⟩
  · left; rw [e]; rfl
  rw [e]; simp only [run_bind_ok]
  rcases intersectPart_no_ub (fun _ => planeIx) false ray s.planes h.planes a with e | ⟨a, e⟩
  · left; rw [e]; rfl
  rw [e]; simp only [run_bind_ok]
  rcases intersectPart_no_ub (fun _ => cylIx) false ray s.cylinders h.cylinders a with e | ⟨a, e⟩
  · left; rw [e]; rfl
  rw [e]; right; exact ⟨_, rfl⟩

theorem intersectPart_ok (ix : C → Intersector T P I) (always : Bool) (ray : Ray T) (part : Option (Part C T P))
    (h : ∀ p rh, part = some p → ∃ r, traverse (ix p.coll) p.nodes ray rh = .ok r) (st : RayHit T × RayHit T × Bool) :
    ∃ r, intersectPart ix always ray part st = .ok r := by
  obtain ⟨temp, rh, hit⟩ := st
  cases part with
  | none => exact ⟨_, rfl⟩
  | some p =>
    simp only [intersectPart]
    obtain ⟨r, h⟩ := h p temp rfl
    simp only [h, run_bind_ok]
    split <;> exact ⟨_, rfl⟩

theorem TraversesOk.intersect1_ok {s : Scene T} {ray : Ray T}
    (h : TraversesOk s ray fun x => ∃ r, x = .ok r) (rh : RayHit T) :
    ∃ r, s.intersect1 ray rh = .ok r := by
  unfold Scene.intersect1
  simp only
  obtain ⟨a, e⟩ := intersectPart_ok triIx true ray s.mesh h.mesh (RayHit.fresh, rh, false)
  rw [e]; simp only [run_bind_ok]
  obtain ⟨a, e⟩ := intersectPart_ok sphereIx false ray s.spheres h.spheres a
  rw [e]; simp only [run_bind_ok]
  obtain ⟨a, e⟩ := intersectPart_ok (fun _ => planeIx) false ray s.planes h.planes a
  rw [e]; simp only [run_bind_ok]
  obtain ⟨a, e⟩ := intersectPart_ok (fun _ => cylIx) false ray s.cylinders h.cylinders a
  rw [e]; exact ⟨_, rfl⟩

/-- a tree that is not too high does not overflow the stack -/
theorem traverse_ne_oobStack (ix : Intersector T P I) (nodes : List (Node T P)) (ray : Ray T) (rayhit : RayHit T)
    (t : Tree T P) (hrep : Represents nodes 0 t) (hh : t.height + 2 ≤ maxTreeDepth) (hn : t.numNodes ≤ nodes.length)
    (hpost : ∀ s, ix.post s rayhit ≠ .error .oobStack) :
    traverse ix nodes ray rayhit ≠ .error .oobStack := by
  rw [traverse_eq ix nodes ray rayhit t hrep hh hn]
  unfold traverseFinish
  simp only
  split
  · intro hc
    cases h : ix.post (visit ix ray t ⟨ray.maxHit, ix.prepare ray⟩).1.isect rayhit with
    | error e => rw [h] at hc; simp at hc; exact hpost _ (by rw [h, hc])
    | ok r => rw [h] at hc; simp at hc
  · simp

theorem lookup_ne {α : Type} (u v : UB) (h : u ≠ v) (l : List α) (i : Nat) : lookup u l i ≠ .error v := by
  unfold lookup; split <;> simp [h]

theorem spherePost_ne (c : SphereColl T) (s : SphereI T) (rh : RayHit T) : spherePost c s rh ≠ .error .oobStack := by
  unfold spherePost
  cases h : lookup .oobIndex c.centers s.primId with
  | error e => intro hc; simp at hc; exact lookup_ne .oobIndex .oobStack (by decide) _ _ (by rw [h, hc])
  | ok a => simp

theorem triPost_ne (c : MeshColl T) (s : TriI T) (rh : RayHit T) : triPost c s rh ≠ .error .oobStack := by
  unfold triPost
  cases h : lookup .oobIndex c.faces s.primId with
  | error e => intro hc; simp at hc; exact lookup_ne .oobIndex .oobStack (by decide) _ _ (by rw [h, hc])
  | ok f =>
    simp only [run_bind_ok]
    cases h : lookup .oobIndex c.vertexNormals f.x with
    | error e => intro hc; simp at hc; exact lookup_ne .oobIndex .oobStack (by decide) _ _ (by rw [h, hc])
    | ok a =>
      simp only [run_bind_ok]
      cases h : lookup .oobIndex c.vertexNormals f.y with
      | error e => intro hc; simp at hc; exact lookup_ne .oobIndex .oobStack (by decide) _ _ (by rw [h, hc])
      | ok b =>
        simp only [run_bind_ok]
        cases h : lookup .oobIndex c.vertexNormals f.z with
        | error e => intro hc; simp at hc; exact lookup_ne .oobIndex .oobStack (by decide) _ _ (by rw [h, hc])
        | ok c => simp

/-- a built tree over few primitives is low -/
theorem Built.height_small {p : Collection T P} {o : BuildOptions} {d : Nat} {idx : List Nat} {t : Tree T P}
    (h : Built p o d idx t) (ho : 1 ≤ o.minLeaf) : t.height = 0 ∨ t.height + o.minLeaf ≤ idx.length := by
  induction h with
  | leaf => exact .inl rfl
  | branch d idx il ir mn mx ax l r hb hn hd hax hp hne hl hr ihl ihr =>
    right
    have hlen := hp.length_eq
    obtain ⟨h1, h2⟩ := hne (by omega)
    have h1 := List.length_pos_iff_ne_nil.2 h1
    have h2 := List.length_pos_iff_ne_nil.2 h2
    rw [List.length_append] at hlen
    simp only [Tree.height]
    change 1 + Max.max _ _ + _ ≤ _
    omega

end Blazert
