/- The traversal either overflows its stack or computes the structural visit. -/
import Verif.Proofs.Visit
import Verif.Proofs.Loop

set_option autoImplicit false

namespace Blazert

set_option linter.unusedSectionVars false
variable {T P I : Type} [Scalar T]

theorem Stack.push_or (s : Stack) (v : Nat) : s.push v = .error .oobStack ∨ ∃ s', s.push v = .ok s' := by
  unfold Stack.push
  split
  · exact .inr ⟨_, rfl⟩
  · exact .inl rfl

theorem Stack.pop_or (s : Stack) : s.pop = .error .oobStack ∨ ∃ s', s.pop = .ok s' := by
  unfold Stack.pop
  split
  · exact .inr ⟨_, rfl⟩
  · exact .inl rfl

theorem traverseLoop_or (ix : Intersector T P I) (nodes : List (Node T P)) (ray : Ray T) (fuel : Nat)
    (st : TState T I) (ts : List (Tree T P))
    (hrep : List.Forall₂ (Represents nodes) st.stack.toList ts)
    (hss : st.stack.ss ≤ st.stack.cells.length)
    (hfuel : totalNodes ts ≤ fuel) :
    traverseLoop ix nodes ray fuel st = .error .oobStack ∨
      traverseLoop ix nodes ray fuel st = .ok (visitList ix ray ts ⟨st.hd, st.isect⟩).1.isect := by
  induction fuel generalizing st ts with
  | zero =>
    cases ts with
    | nil =>
      have hl : st.stack.toList = [] := by cases h : st.stack.toList <;> simp_all
      have h0 : st.stack.ss = 0 := by rw [← Stack.toList_length _ hss, hl]; rfl
      right
      unfold traverseLoop
      simp [Stack.size, h0, visitList]
    | cons t ts =>
      have := t.numNodes_pos
      simp [totalNodes] at hfuel; omega
  | succ fuel ih =>
    cases ts with
    | nil =>
      have hl : st.stack.toList = [] := by cases h : st.stack.toList <;> simp_all
      have h0 : st.stack.ss = 0 := by rw [← Stack.toList_length _ hss, hl]; rfl
      right
      unfold traverseLoop
      simp [Stack.size, h0, visitList]
    | cons t ts =>
      obtain ⟨i, is, hl⟩ : ∃ i is, st.stack.toList = i :: is := by
        cases h : st.stack.toList with
        | nil => simp_all
        | cons i is => exact ⟨i, is, rfl⟩
      rw [hl] at hrep
      obtain ⟨hi, his⟩ := List.forall₂_cons.1 hrep
      have hlen := Stack.toList_length _ hss
      rw [hl, List.length_cons, his.length_eq] at hlen
      have hback := Stack.back_spec _ _ _ hl hss
      have hspos : st.stack.size > 0 := by simp [Stack.size]; omega
      have hne := t.numNodes_pos
      simp only [totalNodes, List.map_cons, List.sum_cons] at hfuel
      unfold traverseLoop
      rw [if_pos hspos]
      simp only [traverseStep, hback, run_bind_ok]
      rcases Stack.pop_or st.stack with hpop | ⟨sp, hpop⟩
      · left
        cases t with
        | leaf mn mx ps =>
          obtain ⟨nd, hnd, _⟩ := hi
          rw [(lookup_eq_ok (u := .oobNode)).2 hnd]
          simp [hpop]
        | branch mn mx ax l r =>
          obtain ⟨nd, hnd, _⟩ := hi
          rw [(lookup_eq_ok (u := .oobNode)).2 hnd]
          simp [hpop]
      obtain ⟨hsp, hsp1, hsp2⟩ := Stack.pop_ok hl hpop
      cases t with
      | leaf mn mx ps =>
        obtain ⟨nd, hnd, hleaf, hmn, hmx, hps⟩ := hi
        rw [(lookup_eq_ok (u := .oobNode)).2 hnd]
        simp only [run_bind_ok, hpop, intersectNode_eq_hitBox, hmn, hmx, hleaf, hps]
        simp only [visitList, visit]
        have ih' : ∀ hd s, traverseLoop ix nodes ray fuel ⟨sp, hd, s⟩ = .error .oobStack ∨
            traverseLoop ix nodes ray fuel ⟨sp, hd, s⟩ = .ok (visitList ix ray ts ⟨hd, s⟩).1.isect := by
          intro hd s
          exact ih ⟨sp, hd, s⟩ ts (by rw [hsp]; exact his) (by simp only; omega) (by simp [totalNodes]; omega)
        by_cases hb : hitBox ray st.hd (mn, mx) = true
        · simp only [hb, if_true, Bool.not_true, Bool.false_eq_true, if_false, visitLeaf]
          cases hq : (intersectLeaf ix ray ps st.isect false).2
          · simpa using ih' _ _
          · cases ha : ray.anyHit
            · simpa using ih' _ _
            · simp
        · simp only [hb]
          simpa using ih' _ _
      | branch mn mx ax l r =>
        obtain ⟨nd, hnd, hleaf, hmn, hmx, hax, hax3, hl0, hr0⟩ := hi
        rw [(lookup_eq_ok (u := .oobNode)).2 hnd]
        simp only [run_bind_ok, hpop, intersectNode_eq_hitBox, hmn, hmx, hleaf]
        simp only [visitList, visit]
        simp only [Tree.numNodes] at hfuel
        by_cases hb : hitBox ray st.hd (mn, mx) = true
        · simp only [hb, if_true, Bool.not_false]
          obtain ⟨near, hnear⟩ := get?_ok_of_lt ray.directionSign ax hax3
          simp only [hax, hnear, run_bind_ok]
          have key : ∀ (a b : Nat) (ta tb : Tree T P), Represents nodes a ta → Represents nodes b tb →
              ta.numNodes + tb.numNodes = l.numNodes + r.numNodes →
              (do let stack ← sp.push b
                  let stack ← stack.push a
                  let q ← (.ok (({ st with stack } : TState T I), false) : Run (TState T I × Bool))
                  if q.2 = true then .ok q.1.isect else traverseLoop ix nodes ray fuel q.1) =
              (.error .oobStack : Run I) ∨
              (do let stack ← sp.push b
                  let stack ← stack.push a
                  let q ← (.ok (({ st with stack } : TState T I), false) : Run (TState T I × Bool))
                  if q.2 = true then .ok q.1.isect else traverseLoop ix nodes ray fuel q.1) =
              (.ok (visitList ix ray (ta :: tb :: ts) ⟨st.hd, st.isect⟩).1.isect : Run I) := by
            intro a b ta tb ha hb hn
            rcases Stack.push_or sp b with h | ⟨s1, hs1⟩
            · left; simp [h]
            rcases Stack.push_or s1 a with h | ⟨s2, hs2⟩
            · left; simp [hs1, h]
            obtain ⟨hs1l, hs1s, hs1c, _⟩ := Stack.push_ok hs1
            obtain ⟨hs2l, hs2s, hs2c, _⟩ := Stack.push_ok hs2
            simp only [hs1, run_bind_ok, hs2, Bool.false_eq_true, if_false]
            apply ih
            · simp only [hs2l, hs1l, hsp]
              exact .cons ha (.cons hb his)
            · simp only; omega
            · simp [totalNodes]; omega
          by_cases hn0 : near = 0
          · have hnf : nearFirst ray ax = true := by simp [nearFirst, hnear, hn0]
            have := key nd.child0 nd.child1 l r hl0 hr0 rfl
            simp only [hn0, if_true, run_bind_assoc, run_pure, hnf]
            refine this.imp id fun this => ?_
            rw [this]
            simp only [visitList]
            split <;> simp_all
          · have hnf : nearFirst ray ax = false := by simp [nearFirst, hnear, hn0]
            have := key nd.child1 nd.child0 r l hr0 hl0 (by omega)
            simp only [hn0, if_false, run_bind_assoc, run_pure, hnf, Bool.false_eq_true]
            refine this.imp id fun this => ?_
            rw [this]
            simp only [visitList]
            split <;> simp_all
        · simp only [hb]
          have := ih ⟨sp, st.hd, st.isect⟩ ts (by rw [hsp]; exact his) (by simp only; omega)
            (by simp [totalNodes]; omega)
          refine this.imp (fun this => ?_) (fun this => ?_) <;> simp [this]

/-- Without any assumption on the depth of the tree. -/
theorem traverse_or (ix : Intersector T P I) (nodes : List (Node T P)) (ray : Ray T) (rayhit : RayHit T)
    (t : Tree T P) (hrep : Represents nodes 0 t) (hn : t.numNodes ≤ nodes.length) :
    traverse ix nodes ray rayhit = .error .oobStack ∨ traverse ix nodes ray rayhit =
      traverseFinish ix ray rayhit (visit ix ray t ⟨ray.maxHit, ix.prepare ray⟩).1.isect := by
  obtain ⟨s, h1, h2, h3, h4⟩ := Stack.empty_push maxTreeDepth (by decide) 0
  unfold traverse traverseInit
  simp only [h1, run_bind_ok, run_pure]
  have := traverseLoop_or ix nodes ray (nodes.length + 1) ⟨s, ray.maxHit, ix.prepare ray⟩ [t]
    (by simp only [h2]; exact .cons hrep .nil) (by simp only [h3, h4]; decide) (by simp [totalNodes]; omega)
  refine this.imp (fun this => ?_) (fun this => ?_)
  · simp [this]
  · rw [this]
    simp only [run_bind_ok, visitList]
    split <;> rfl

end Blazert
