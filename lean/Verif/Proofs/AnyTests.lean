/- Any-hit traversals: the tests made fail until one succeeds, which ends the traversal. -/
import Verif.Proofs.Tested
import Verif.Spec.AnyTests

set_option autoImplicit false

namespace Blazert
open Scalar

variable {T P I : Type} [Scalar T] {ix : Intersector T P I} {ray : Ray T}

/-- the tests made in a part of the tree from the intersector state `s`: without success, or up to the first success -/
inductive AnyTests (ix : Intersector T P I) (ray : Ray T) (s : I) : List P → I → Bool → Prop where
  | fail (vs : List P) (h : ∀ q ∈ vs, (ix.isect s q ray).2 = false) : AnyTests ix ray s vs s false
  | stop (vs : List P) (q : P) (h : ∀ q ∈ vs, (ix.isect s q ray).2 = false) (hq : (ix.isect s q ray).2 = true) :
    AnyTests ix ray s (vs ++ [q]) (ix.isect s q ray).1 true

theorem intersectLeaf_anyTests (hany : ray.anyHit = true) (hq : Quiet ix ray) (ps : List P) (s : I) :
    ∃ vs rest, vs ++ rest = ps ∧
      AnyTests ix ray s vs (intersectLeaf ix ray ps s false).1 (intersectLeaf ix ray ps s false).2 ∧
      ((intersectLeaf ix ray ps s false).2 = false → rest = []) := by
  induction ps with
  | nil => exact ⟨[], [], rfl, .fail [] (by simp), fun _ => rfl⟩
  | cons p ps ih =>
    rw [intersectLeaf_cons]
    cases hp : (ix.isect s p ray).2 with
    | true =>
      simp only [Bool.false_or, hany, Bool.and_self, if_true]
      exact ⟨[p], ps, rfl, .stop [] p (by simp) hp, fun h => by cases h⟩
    | false =>
      simp only [Bool.false_or, Bool.false_and, Bool.false_eq_true, if_false]
      rw [hq.miss s p hp]
      obtain ⟨vs, rest, e1, e2, e3⟩ := ih
      refine ⟨p :: vs, rest, by simp [e1], ?_, e3⟩
      generalize (intersectLeaf ix ray ps s false).1 = s' at e2 ⊢
      generalize (intersectLeaf ix ray ps s false).2 = b at e2 ⊢
      cases e2 with
      | fail _ h => exact .fail _ (by simpa [hp] using h)
      | stop vs q h hq => exact .stop (p :: vs) q (by simpa [hp] using h) hq

/-- the tests made by an any-hit visit of a tree -/
theorem visit_anyTests (hany : ray.anyHit = true) (hq : Quiet ix ray) (t : Tree T P) (v : VState T I) :
    ∃ vs rest, (vs ++ rest).Perm t.prims ∧ AnyTests ix ray v.isect vs (visit ix ray t v).1.isect (visit ix ray t v).2 ∧
      ((visit ix ray t v).2 = false → (visit ix ray t v).1 = v ∧
        ∀ q ∈ rest, ∃ u ∈ t.subtrees, q ∈ u.prims ∧ hitBox ray v.hd u.box = false) := by
  induction t generalizing v with
  | leaf mn mx ps =>
    by_cases hb : hitBox ray v.hd (mn, mx) = true
    · obtain ⟨vs, rest, e1, e2, e3⟩ := intersectLeaf_anyTests hany hq ps v.isect
      simp only [visit, hb, if_true, visitLeaf]
      refine ⟨vs, rest, by simp [e1, Tree.prims, Tree.leaves], ?_⟩
      cases hl : (intersectLeaf ix ray ps v.isect false).2 with
      | true =>
        rw [if_pos rfl]
        rw [hl] at e2
        exact ⟨by rw [hany]; exact e2, fun h => by rw [hany] at h; cases h⟩
      | false =>
        rw [if_neg (by simp)]
        rw [hl] at e2
        refine ⟨e2, fun _ => ⟨?_, by simp [e3 hl]⟩⟩
        rw [(intersectLeaf_quiet hq ps v.isect false hl).1]
    · have hb' : hitBox ray v.hd (mn, mx) = false := by simpa using hb
      simp only [visit, hb', Bool.false_eq_true, if_false]
      exact ⟨[], _, by simp, .fail [] (by simp), fun _ => ⟨trivial, fun q hq => ⟨_, Tree.self_mem_subtrees _, hq, hb'⟩⟩⟩
  | branch mn mx ax l r ihl ihr =>
    by_cases hb : hitBox ray v.hd (mn, mx) = true
    · have key : ∀ a b : Tree T P,
          (∀ v : VState T I, ∃ vs rest, (vs ++ rest).Perm a.prims ∧
            AnyTests ix ray v.isect vs (visit ix ray a v).1.isect (visit ix ray a v).2 ∧
            ((visit ix ray a v).2 = false → (visit ix ray a v).1 = v ∧
              ∀ q ∈ rest, ∃ u ∈ a.subtrees, q ∈ u.prims ∧ hitBox ray v.hd u.box = false)) →
          (∀ v : VState T I, ∃ vs rest, (vs ++ rest).Perm b.prims ∧
            AnyTests ix ray v.isect vs (visit ix ray b v).1.isect (visit ix ray b v).2 ∧
            ((visit ix ray b v).2 = false → (visit ix ray b v).1 = v ∧
              ∀ q ∈ rest, ∃ u ∈ b.subtrees, q ∈ u.prims ∧ hitBox ray v.hd u.box = false)) →
          (a.prims ++ b.prims).Perm (Tree.branch mn mx ax l r).prims →
          (∀ u, u ∈ a.subtrees ∨ u ∈ b.subtrees → u ∈ (Tree.branch mn mx ax l r).subtrees) →
          ∀ w, w = (if (visit ix ray a v).2 = true then visit ix ray a v else visit ix ray b (visit ix ray a v).1) →
          ∃ vs rest, (vs ++ rest).Perm (Tree.branch mn mx ax l r).prims ∧ AnyTests ix ray v.isect vs w.1.isect w.2 ∧
            (w.2 = false → w.1 = v ∧
              ∀ q ∈ rest, ∃ u ∈ (Tree.branch mn mx ax l r).subtrees, q ∈ u.prims ∧ hitBox ray v.hd u.box = false) := by
        intro a b iha ihb hp hs w hw
        obtain ⟨vs, rest, e1, e2, e3⟩ := iha v
        cases ha : (visit ix ray a v).2 with
        | true =>
          rw [if_pos ha] at hw
          subst hw
          refine ⟨vs, rest ++ b.prims, ?_, e2, fun h => by rw [ha] at h; cases h⟩
          rw [← List.append_assoc]
          exact (e1.append_right _).trans hp
        | false =>
          rw [if_neg (by simp [ha])] at hw
          obtain ⟨f1, f2⟩ := e3 ha
          rw [f1] at hw
          obtain ⟨vs', rest', g1, g2, g3⟩ := ihb v
          rw [ha] at e2
          subst hw
          refine ⟨vs ++ vs', rest ++ rest', ?_, ?_, fun h => ⟨(g3 h).1, fun q hq => ?_⟩⟩
          · refine List.Perm.trans ?_ hp
            refine List.Perm.trans ?_ (e1.append g1)
            simp only [List.append_assoc]
            refine List.Perm.append_left _ ?_
            rw [← List.append_assoc, ← List.append_assoc]
            exact List.Perm.append_right _ List.perm_append_comm
          · have hfail : ∀ q ∈ vs, (ix.isect v.isect q ray).2 = false := by
              generalize (visit ix ray a v).1.isect = s' at e2
              cases e2 with
              | fail _ h => exact h
            generalize (visit ix ray b v).1.isect = s' at g2 ⊢
            generalize (visit ix ray b v).2 = c at g2 ⊢
            cases g2 with
            | fail _ h =>
              refine .fail _ fun q hq => ?_
              rcases List.mem_append.1 hq with hq | hq
              · exact hfail q hq
              · exact h q hq
            | stop ws q h hq =>
              rw [← List.append_assoc]
              refine .stop (vs ++ ws) q (fun q hq => ?_) hq
              rcases List.mem_append.1 hq with hq | hq
              · exact hfail q hq
              · exact h q hq
          · rcases List.mem_append.1 hq with hq | hq
            · obtain ⟨u, hu, h⟩ := f2 q hq
              exact ⟨u, hs u (.inl hu), h⟩
            · obtain ⟨u, hu, h⟩ := (g3 h).2 q hq
              exact ⟨u, hs u (.inr hu), h⟩
      simp only [visit, hb, if_true]
      by_cases hn : nearFirst ray ax = true
      · simp only [hn, if_true]
        exact key l r ihl ihr (by simp [Tree.prims, Tree.leaves]) (by
          intro u hu
          simp only [Tree.subtrees, List.mem_cons, List.mem_append]
          exact .inr hu) _ rfl
      · simp only [hn]
        exact key r l ihr ihl (by simp only [Tree.prims, Tree.leaves, List.flatten_append]; exact List.perm_append_comm) (by
          intro u hu
          simp only [Tree.subtrees, List.mem_cons, List.mem_append]
          exact .inr hu.symm) _ rfl
    · have hb' : hitBox ray v.hd (mn, mx) = false := by simpa using hb
      simp only [visit, hb', Bool.false_eq_true, if_false]
      exact ⟨[], _, by simp, .fail [] (by simp), fun _ => ⟨trivial, fun q hq => ⟨_, Tree.self_mem_subtrees _, hq, hb'⟩⟩⟩

theorem finish_answers {vs : List P} {rayhit out : RayHit T} {hit : Bool}
    (h : traverseFinish ix ray rayhit (scan ix ray vs) = .ok (hit, out)) : Answers ix ray rayhit vs hit out := by
  unfold traverseFinish at h
  cases hl : lt (ix.hitDistance (scan ix ray vs)) ray.maxHit with
  | false =>
    simp only [hl, Bool.false_eq_true, if_false, run_pure, Except.ok.injEq, Prod.mk.injEq] at h
    obtain ⟨rfl, rfl⟩ := h
    exact ⟨hl.symm, by simp, fun _ => rfl⟩
  | true =>
    simp only [hl, if_true] at h
    cases hp : ix.post (scan ix ray vs) rayhit with
    | error e => rw [hp] at h; cases h
    | ok r =>
      rw [hp] at h
      simp only [run_bind_ok, run_pure, Except.ok.injEq, Prod.mk.injEq] at h
      obtain ⟨rfl, rfl⟩ := h
      exact ⟨hl.symm, fun _ => hp, by simp⟩

theorem testAll_anyTests (hq : Quiet ix ray) {s s' : I} {vs : List P} {b : Bool} (h : AnyTests ix ray s vs s' b) :
    testAll ix ray s vs = s' := by
  cases h with
  | fail _ h => exact testAll_stay hq s vs h
  | stop vs q h _ =>
    rw [testAll_append, testAll_stay hq s vs h]
    rfl

/-- any-hit queries in terms of the tree -/
theorem traverse_anyTests {part : StdPartition} {p : Collection T P} {opts : BuildOptions} {nodes : List (Node T P)}
    {stats : Statistics} (hbuild : build part p opts [] = .ok (nodes, stats))
    (hany : ray.anyHit = true) (hq : Quiet ix ray) {rayhit out : RayHit T} {hit : Bool}
    (h : traverse ix nodes ray rayhit = .ok (hit, out)) :
    ∃ t, Built p opts 0 (List.range p.size) t ∧ Represents nodes 0 t ∧ ∃ vs rest,
      (vs ++ rest).Perm t.prims ∧ Answers ix ray rayhit vs hit out ∧
      (StopsAtFirst ix ray vs ∨ (∀ q ∈ vs, Rejects ix ray q) ∧
        ∀ q ∈ rest, ∃ u ∈ t.subtrees, q ∈ u.prims ∧ hitBox ray ray.maxHit u.box = false) := by
  obtain ⟨t, hb, hr, hn⟩ := built_of_build hbuild
  obtain ⟨vs, rest, e1, e2, e3⟩ := visit_anyTests (ix := ix) hany hq t ⟨ray.maxHit, ix.prepare ray⟩
  refine ⟨t, hb, hr, vs, rest, e1, ?_, ?_⟩
  · rcases traverse_or ix nodes ray rayhit t hr hn with h' | h'
    · rw [h'] at h; cases h
    · rw [h', ← testAll_anyTests hq e2] at h
      exact finish_answers h
  · generalize (visit ix ray t ⟨ray.maxHit, ix.prepare ray⟩).1.isect = s' at e2
    generalize (visit ix ray t ⟨ray.maxHit, ix.prepare ray⟩).2 = c at e2 e3
    cases e2 with
    | fail _ h => exact .inr ⟨h, (e3 rfl).2⟩
    | stop ws q h hq => exact .inl ⟨ws, q, rfl, h, hq⟩

/-- the tests made by a query of any kind -/
theorem traverse_tests {part : StdPartition} {p : Collection T P} {opts : BuildOptions} {nodes : List (Node T P)}
    {stats : Statistics} (hbuild : build part p opts [] = .ok (nodes, stats)) (hq : Quiet ix ray) {rayhit out : RayHit T}
    {hit : Bool} (h : traverse ix nodes ray rayhit = .ok (hit, out)) :
    ∃ ps vs rest, (List.range p.size).mapM p.prim = .ok ps ∧ (vs ++ rest).Perm ps ∧ Answers ix ray rayhit vs hit out := by
  cases hany : ray.anyHit with
  | false =>
    obtain ⟨t, hb, -, vs, rest, h1, h2, -⟩ := traverse_tested hbuild hany hq h
    obtain ⟨ps, hps, hperm⟩ := hb.prims_perm
    exact ⟨ps, vs, rest, hps, h1.trans hperm, h2⟩
  | true =>
    obtain ⟨t, hb, -, vs, rest, h1, h2, -⟩ := traverse_anyTests hbuild hany hq h
    obtain ⟨ps, hps, hperm⟩ := hb.prims_perm
    exact ⟨ps, vs, rest, hps, h1.trans hperm, h2⟩

/-- without a success, a leaf is treated alike with and without `any_hit` -/
theorem intersectLeaf_closest (hq : Quiet ix ray) {ray' : Ray T} (hray : ray' = { ray with anyHit := false })
    (hix : ∀ s q, ix.isect s q ray' = ix.isect s q ray) (ps : List P) (s : I)
    (h : (intersectLeaf ix ray ps s false).2 = false) : intersectLeaf ix ray' ps s false = intersectLeaf ix ray ps s false := by
  induction ps generalizing s with
  | nil => rfl
  | cons p ps ih =>
    rw [intersectLeaf_cons] at h ⊢
    rw [intersectLeaf_cons, hix]
    cases hp : (ix.isect s p ray).2 with
    | true =>
      exfalso
      rw [hp] at h
      simp only [Bool.false_or, Bool.true_and] at h
      split at h
      · cases h
      · cases (intersectLeaf_quiet hq ps _ _ h).2
    | false =>
      rw [hp] at h
      simp only [Bool.false_or, Bool.false_and, Bool.false_eq_true, if_false] at h ⊢
      exact ih _ h

/-- one iteration of the loop: the same with and without `any_hit`, unless it ends the any-hit traversal -/
theorem traverseStep_agree (hany : ray.anyHit = true) (hq : Quiet ix ray) {ray' : Ray T}
    (hray : ray' = { ray with anyHit := false }) (hix : ∀ s q, ix.isect s q ray' = ix.isect s q ray)
    {nodes : List (Node T P)} {st st' : TState T I} {brk : Bool} (h : traverseStep ix nodes ray st = .ok (st', brk)) :
    (brk = true ∧ ∃ n ∈ nodes, n.leaf = true ∧ ∃ q ∈ n.prims, (ix.isect st.isect q ray).2 = true ∧ st'.isect = (ix.isect st.isect q ray).1) ∨
    (brk = false ∧ st'.isect = st.isect ∧ traverseStep ix nodes ray' st = .ok (st', false)) := by
  have hbox : ∀ n : Node T P, intersectNode ray'.minHit st.hd n ray' = intersectNode ray.minHit st.hd n ray := by
    intro n; subst hray; rfl
  have hsign : ray'.directionSign = ray.directionSign := by subst hray; rfl
  unfold traverseStep at h ⊢
  obtain ⟨top, e1, h⟩ := run_bind_eq_ok.1 h
  obtain ⟨node, e2, h⟩ := run_bind_eq_ok.1 h
  obtain ⟨stack, e3, h⟩ := run_bind_eq_ok.1 h
  simp only [e1, e2, e3, run_bind_ok, hbox, hsign]
  by_cases c1 : intersectNode ray.minHit st.hd node ray = true
  · rw [if_pos c1] at h ⊢
    by_cases c2 : (!node.leaf) = true
    · rw [if_pos c2] at h ⊢
      obtain ⟨near, e4, h⟩ := run_bind_eq_ok.1 h
      obtain ⟨s1, e5, h⟩ := run_bind_eq_ok.1 h
      obtain ⟨s2, e6, h⟩ := run_bind_eq_ok.1 h
      simp only [run_pure, Except.ok.injEq, Prod.mk.injEq] at h
      obtain ⟨rfl, rfl⟩ := h
      refine .inr ⟨rfl, rfl, ?_⟩
      simp only [e4, e5, e6, run_bind_ok]
      rfl
    · rw [if_neg c2] at h ⊢
      obtain ⟨vs, rest, g1, g2, g3⟩ := intersectLeaf_anyTests hany hq node.prims st.isect
      have g4 := intersectLeaf_closest hq hray hix node.prims st.isect
      generalize intersectLeaf ix ray' node.prims st.isect false = l' at g4 ⊢
      generalize hl : intersectLeaf ix ray node.prims st.isect false = l at h g2 g3 g4
      obtain ⟨s, b⟩ := l
      cases b with
      | true =>
        simp only [if_true, run_pure, Except.ok.injEq, Prod.mk.injEq] at h
        obtain ⟨rfl, rfl⟩ := h
        refine .inl ⟨hany, node, List.mem_of_getElem? (lookup_eq_ok.1 e2), by simpa using c2, ?_⟩
        dsimp only at g2 ⊢
        generalize hs : s = s' at g2
        cases g2 with
        | stop ws q hw hq' => exact ⟨q, by rw [← g1]; simp, hq', rfl⟩
      | false =>
        simp only [Bool.false_eq_true, if_false, run_pure, Except.ok.injEq, Prod.mk.injEq] at h
        obtain ⟨rfl, rfl⟩ := h
        refine .inr ⟨rfl, ?_, ?_⟩
        · dsimp only at g2 ⊢
          generalize hs : s = s' at g2
          cases g2 with
          | fail _ _ => rfl
        · rw [g4 rfl]
          rfl
  · rw [if_neg c1] at h ⊢
    simp only [run_pure, Except.ok.injEq, Prod.mk.injEq] at h
    obtain ⟨rfl, rfl⟩ := h
    exact .inr ⟨rfl, rfl, rfl⟩

/-- the loop: an any-hit traversal that meets no success does what the other traversal does -/
theorem traverseLoop_agree (hany : ray.anyHit = true) (hq : Quiet ix ray) {ray' : Ray T}
    (hray : ray' = { ray with anyHit := false }) (hix : ∀ s q, ix.isect s q ray' = ix.isect s q ray)
    (nodes : List (Node T P)) (fuel : Nat) : ∀ (st : TState T I) (s : I), traverseLoop ix nodes ray fuel st = .ok s →
    (∃ n ∈ nodes, n.leaf = true ∧ ∃ q ∈ n.prims, (ix.isect st.isect q ray).2 = true ∧ s = (ix.isect st.isect q ray).1) ∨
    (s = st.isect ∧ traverseLoop ix nodes ray' fuel st = .ok s) := by
  induction fuel with
  | zero =>
    intro st s h
    unfold traverseLoop at h ⊢
    split_ifs at h ⊢ with c
    exact .inr ⟨(Except.ok.inj h).symm, h⟩
  | succ n ih =>
    intro st s h
    unfold traverseLoop at h ⊢
    split_ifs at h ⊢ with c
    · obtain ⟨⟨st', brk⟩, e1, h⟩ := run_bind_eq_ok.1 h
      rcases traverseStep_agree hany hq hray hix e1 with ⟨rfl, n, hn, hl, q, hqn, g1, g2⟩ | ⟨rfl, g1, g2⟩
      · simp only [if_true, run_pure, Except.ok.injEq] at h
        exact .inl ⟨n, hn, hl, q, hqn, g1, by rw [← h, g2]⟩
      · simp only [Bool.false_eq_true, if_false] at h
        rw [g2]
        simp only [run_bind_ok, Bool.false_eq_true, if_false]
        rw [← g1]
        exact ih st' s h
    · exact .inr ⟨(Except.ok.inj h).symm, h⟩

/-- the leaves among the nodes hold primitives of the tree only -/
theorem Occupies.mem_prims {nodes : List (Node T P)} {i k j : Nat} {t : Tree T P} (h : Occupies nodes i t k) {n : Node T P}
    (hij : i ≤ j) (hjk : j < k) (hn : nodes[j]? = some n) (hl : n.leaf = true) : ∀ q ∈ n.prims, q ∈ t.prims := by
  induction t generalizing i k with
  | leaf mn mx ps =>
    obtain ⟨⟨nd, h1, -, -, -, h2⟩, h3⟩ := h
    obtain rfl : i = j := by omega
    rw [hn, Option.some.injEq] at h1
    subst h1
    intro q hq
    rw [h2] at hq
    simpa [Tree.prims, Tree.leaves] using hq
  | branch mn mx ax l r ihl ihr =>
    obtain ⟨nd, h1, h2, h3, h4, h5, h6, h7, h8, h9⟩ := h
    intro q hq
    have e := h8.eq_add
    simp only [Tree.prims, Tree.leaves, List.flatten_append, List.mem_append]
    rcases Nat.eq_or_lt_of_le hij with rfl | hij
    · rw [hn, Option.some.injEq] at h1
      subst h1
      rw [hl] at h2
      cases h2
    · rcases Nat.lt_or_ge j nd.child1 with hj | hj
      · exact .inl (ihl h8 hij hj q hq)
      · exact .inr (ihr h9 hj hjk q hq)

/-- any-hit and other queries on a built BVH: the same answer, unless the former ended at a success -/
theorem traverse_agree {part : StdPartition} {p : Collection T P} {opts : BuildOptions} {nodes : List (Node T P)}
    {stats : Statistics} (hbuild : build part p opts [] = .ok (nodes, stats)) (hany : ray.anyHit = true) (hq : Quiet ix ray)
    (hix : ∀ s q, ix.isect s q { ray with anyHit := false } = ix.isect s q ray)
    (hprep : ix.prepare { ray with anyHit := false } = ix.prepare ray) {rayhit out : RayHit T} {hit : Bool}
    (h : traverse ix nodes ray rayhit = .ok (hit, out)) :
    (∃ i < p.size, ∃ q, p.prim i = .ok q ∧ (ix.isect (ix.prepare ray) q ray).2 = true ∧
      Answers ix ray rayhit [q] hit out) ∨ traverse ix nodes { ray with anyHit := false } rayhit = .ok (hit, out) := by
  obtain ⟨t, bad, h1, -, h3⟩ := build_ok part p opts [] _ hbuild
  simp only [List.nil_append, List.length_nil, Prod.mk.injEq] at h3
  obtain ⟨rfl, rfl⟩ := h3
  have hocc : Occupies (t.layout 0) 0 t (0 + t.numNodes) := by simpa using layout_occupies t h1.axesOk [] []
  unfold traverse at h ⊢
  obtain ⟨st, e1, h⟩ := run_bind_eq_ok.1 h
  obtain ⟨s, e2, h⟩ := run_bind_eq_ok.1 h
  have e3 : traverseInit ix { ray with anyHit := false } = .ok st := by
    rw [← e1]
    unfold traverseInit
    rw [hprep]
  have e4 : st.isect = ix.prepare ray := by
    unfold traverseInit at e1
    obtain ⟨stack, -, e1⟩ := run_bind_eq_ok.1 e1
    exact (Except.ok.inj e1) ▸ rfl
  rcases traverseLoop_agree hany hq rfl hix _ _ _ _ e2 with ⟨n, hn, hl, q, hqn, g1, rfl⟩ | ⟨-, g⟩
  · left
    obtain ⟨j, hj⟩ := List.mem_iff_getElem?.1 hn
    have hj' : j < t.numNodes := by
      have := (List.getElem?_eq_some_iff.1 hj).1
      rwa [Tree.layout_length] at this
    have hqt := hocc.mem_prims (Nat.zero_le _) (by omega) hj hl q hqn
    obtain ⟨ps, hps, hperm⟩ := h1.prims_perm
    obtain ⟨i, hi, hiq⟩ := mapM_mem_of_out hps (hperm.subset hqt)
    rw [e4] at g1 h
    exact ⟨i, List.mem_range.1 hi, q, hiq, g1, finish_answers h⟩
  · right
    rw [e3, run_bind_ok, g, run_bind_ok]
    exact h

end Blazert

namespace Blazert
open Scalar

variable {T P I : Type} [Scalar T] {ix : Intersector T P I} {ray : Ray T}

/-- what the two kinds of traversal of a part of the tree have in common: no success, or the same first success -/
def SameStart (ix : Intersector T P I) (ray : Ray T) (t : Tree T P) (v : VState T I) (r r' : VState T I × Bool) : Prop :=
  (r = (v, false) ∧ r' = (v, false)) ∨
  ∃ q vs, q ∈ t.prims ∧ (∀ x ∈ vs, x ∈ t.prims) ∧ (ix.isect v.isect q ray).2 = true ∧ r.2 = false ∧ r'.2 = true ∧
    r.1.isect = testAll ix ray (ix.isect v.isect q ray).1 vs ∧ r'.1.isect = (ix.isect v.isect q ray).1

theorem intersectLeaf_sameStart (hany : ray.anyHit = false) (hq : Quiet ix ray) {ray' : Ray T}
    (hray : ray'.anyHit = true) (hix : ∀ s q, ix.isect s q ray' = ix.isect s q ray) (ps : List P) (s : I) :
    (intersectLeaf ix ray ps s false = (s, false) ∧ intersectLeaf ix ray' ps s false = (s, false)) ∨
    ∃ q vs, q ∈ ps ∧ (∀ x ∈ vs, x ∈ ps) ∧ (ix.isect s q ray).2 = true ∧ (intersectLeaf ix ray ps s false).2 = true ∧
      (intersectLeaf ix ray ps s false).1 = testAll ix ray (ix.isect s q ray).1 vs ∧
      intersectLeaf ix ray' ps s false = ((ix.isect s q ray).1, true) := by
  induction ps with
  | nil => exact .inl ⟨rfl, rfl⟩
  | cons p ps ih =>
    rw [intersectLeaf_cons, intersectLeaf_cons, hix, hany, hray]
    cases hp : (ix.isect s p ray).2 with
    | true =>
      simp only [Bool.false_or, Bool.and_false, Bool.false_eq_true, if_false, Bool.and_true, if_true]
      refine .inr ⟨p, ps, by simp, fun x hx => by simp [hx], hp, ?_, intersectLeaf_foldl hany ps _ _, rfl⟩
      by_contra hc
      cases (intersectLeaf_quiet hq ps _ _ (by simpa using hc)).2
    | false =>
      simp only [Bool.false_or, Bool.false_and, Bool.false_eq_true, if_false]
      rw [hq.miss s p hp]
      rcases ih with h | ⟨q, vs, h1, h2, h3⟩
      · exact .inl h
      · exact .inr ⟨q, vs, by simp [h1], fun x hx => by simp [h2 x hx], h3⟩

theorem visit_sameStart (hany : ray.anyHit = false) (hq : Quiet ix ray) {ray' : Ray T}
    (hray : ray' = { ray with anyHit := true }) (hix : ∀ s q, ix.isect s q ray' = ix.isect s q ray) (t : Tree T P)
    (v : VState T I) (hv : v.hd = ix.hitDistance v.isect) :
    SameStart ix ray t v (visit ix ray t v) (visit ix ray' t v) := by
  have hbox : ∀ hd box, hitBox ray' hd box = hitBox ray hd box := by subst hray; intro hd box; rfl
  have hnear : ∀ ax, nearFirst ray' ax = nearFirst ray ax := by subst hray; intro ax; rfl
  have hany2 : ray'.anyHit = true := by rw [hray]
  induction t generalizing v with
  | leaf mn mx ps =>
    simp only [visit, hbox]
    by_cases hb : hitBox ray v.hd (mn, mx) = true
    · rw [if_pos hb, if_pos hb]
      simp only [visitLeaf]
      rcases intersectLeaf_sameStart hany hq hany2 hix ps v.isect with ⟨h1, h2⟩ | ⟨q, vs, h1, h2, h3, h4, h5, h6⟩
      · left; rw [h1, h2]; exact ⟨rfl, rfl⟩
      · right
        rw [h6, if_pos h4, if_pos rfl]
        exact ⟨q, vs, by simpa [Tree.prims, Tree.leaves] using h1, by simpa [Tree.prims, Tree.leaves] using h2, h3, hany, hany2,
          h5, rfl⟩
    · rw [if_neg hb, if_neg hb]
      exact .inl ⟨rfl, rfl⟩
  | branch mn mx ax l r ihl ihr =>
    have key : ∀ a b : Tree T P, (∀ x, x ∈ a.prims ∨ x ∈ b.prims → x ∈ (Tree.branch mn mx ax l r).prims) →
        SameStart ix ray a v (visit ix ray a v) (visit ix ray' a v) →
        SameStart ix ray b v (visit ix ray b v) (visit ix ray' b v) →
        SameStart ix ray (.branch mn mx ax l r) v
          (if (visit ix ray a v).2 = true then visit ix ray a v else visit ix ray b (visit ix ray a v).1)
          (if (visit ix ray' a v).2 = true then visit ix ray' a v else visit ix ray' b (visit ix ray' a v).1) := by
      intro a b hsub ha hb
      rcases ha with ⟨h1, h2⟩ | ⟨q, vs, h1, h2, h3, h4, h5, h6, h7⟩
      · rw [h1, h2]
        simp only [Bool.false_eq_true, if_false]
        rcases hb with hb | ⟨q, vs, h1, h2, h3⟩
        · exact .inl hb
        · exact .inr ⟨q, vs, hsub q (.inr h1), fun x hx => hsub x (.inr (h2 x hx)), h3⟩
      · obtain ⟨-, us, rest, e⟩ := visit_tested hany hq a v hv
        obtain ⟨f1, ws, rest', e'⟩ := visit_tested hany hq b _ e.hd
        rw [if_neg (by simp [h4]), if_pos h5]
        refine .inr ⟨q, vs ++ ws, hsub q (.inl h1), fun x hx => ?_, h3, f1, h5, ?_, h7⟩
        · rcases List.mem_append.1 hx with hx | hx
          · exact hsub x (.inl (h2 x hx))
          · exact hsub x (.inr (e'.perm.subset (List.mem_append_left _ hx)))
        · rw [e'.isect, h6, testAll_append]
    simp only [visit, hbox, hnear]
    by_cases hb : hitBox ray v.hd (mn, mx) = true
    · rw [if_pos hb, if_pos hb]
      by_cases hn : nearFirst ray ax = true
      · rw [if_pos hn, if_pos hn]
        exact key l r (by simp [Tree.prims, Tree.leaves]) (ihl v hv) (ihr v hv)
      · rw [if_neg hn, if_neg hn]
        exact key r l (by simp only [Tree.prims, Tree.leaves, List.flatten_append, List.mem_append]; exact fun x => Or.symm)
          (ihr v hv) (ihl v hv)
    · rw [if_neg hb, if_neg hb]
      exact .inl ⟨rfl, rfl⟩

/-- tests that keep an invariant `Inv`, and whose successes give distances below the upper limit -/
theorem testAll_below (hq : Quiet ix ray) {Inv : I → Prop} (vs : List P)
    (hkeep : ∀ s, ∀ q ∈ vs, Inv s → Inv (ix.isect s q ray).1)
    (hacc : ∀ s, ∀ q ∈ vs, Inv s → (ix.isect s q ray).2 = true → lt (ix.hitDistance (ix.isect s q ray).1) ray.maxHit = true) :
    ∀ s, Inv s → lt (ix.hitDistance s) ray.maxHit = true → lt (ix.hitDistance (testAll ix ray s vs)) ray.maxHit = true := by
  induction vs with
  | nil => exact fun s _ h => h
  | cons q vs ih =>
    intro s hs h
    change lt (ix.hitDistance (testAll ix ray (ix.isect s q ray).1 vs)) ray.maxHit = true
    refine ih (fun s x hx => hkeep s x (by simp [hx])) (fun s x hx => hacc s x (by simp [hx])) _ (hkeep s q (by simp) hs) ?_
    cases hr : (ix.isect s q ray).2 with
    | true => exact hacc s q (by simp) hs hr
    | false => rw [hq.miss s q hr]; exact h

/-- If every success gives a distance below the upper limit, queries with and without `any_hit` give the same answer. -/
theorem traverse_same_answer {part : StdPartition} {p : Collection T P} {opts : BuildOptions} {nodes : List (Node T P)}
    {stats : Statistics} (hbuild : build part p opts [] = .ok (nodes, stats)) (hany : ray.anyHit = false) (hq : Quiet ix ray)
    {ray' : Ray T} (hray : ray' = { ray with anyHit := true }) (hix : ∀ s q, ix.isect s q ray' = ix.isect s q ray)
    (hprep : ix.prepare ray' = ix.prepare ray) {Inv : I → Prop} (h0 : Inv (ix.prepare ray))
    (hkeep : ∀ s q, Inv s → Inv (ix.isect s q ray).1)
    (hacc : ∀ s i q, i < p.size → p.prim i = .ok q → Inv s → (ix.isect s q ray).2 = true →
      lt (ix.hitDistance (ix.isect s q ray).1) ray.maxHit = true)
    {rayhit rayhit' out out' : RayHit T} {hit hit' : Bool} (h : traverse ix nodes ray rayhit = .ok (hit, out))
    (h' : traverse ix nodes ray' rayhit' = .ok (hit', out')) : hit = hit' := by
  obtain ⟨t, hb, hr, hn⟩ := built_of_build hbuild
  have hmax : ray'.maxHit = ray.maxHit := by rw [hray]
  rcases traverse_or ix nodes ray rayhit t hr hn with g | g
  · rw [g] at h; cases h
  rcases traverse_or ix nodes ray' rayhit' t hr hn with g' | g'
  · rw [g'] at h'; cases h'
  rw [g] at h
  rw [g'] at h'
  rw [traverseFinish_flag h, traverseFinish_flag h', hmax, hprep]
  obtain ⟨ps, hps, hperm⟩ := hb.prims_perm
  have hmem : ∀ q ∈ t.prims, ∃ i < p.size, p.prim i = .ok q := by
    intro q hqt
    obtain ⟨i, hi, hiq⟩ := mapM_mem_of_out hps (hperm.subset hqt)
    exact ⟨i, List.mem_range.1 hi, hiq⟩
  rcases visit_sameStart hany hq hray hix t ⟨ray.maxHit, ix.prepare ray⟩ hq.start.symm with ⟨e1, e2⟩ |
    ⟨q, vs, e1, e2, e3, -, -, e4, e5⟩
  · rw [e1, e2]
  · obtain ⟨i, hi, hiq⟩ := hmem q e1
    have a := hacc _ i q hi hiq h0 e3
    rw [e4, e5, a]
    refine testAll_below hq (Inv := Inv) vs (fun s x _ => hkeep s x) (fun s x hx hs => ?_) _ (hkeep _ _ h0) a
    obtain ⟨j, hj, hjx⟩ := hmem x (e2 x hx)
    exact hacc s j x hj hjx hs

end Blazert
