/- Facts about the traversal loop that need no bound on the height: termination, locality of node accesses. -/
import Verif.Proofs.Visit
import Verif.Proofs.Built

set_option autoImplicit false
set_option linter.unusedSectionVars false

namespace Blazert

variable {T P I : Type} [Scalar T]

theorem Represents.unique {nodes : List (Node T P)} {i : Nat} {t t' : Tree T P} (h : Represents nodes i t)
    (h' : Represents nodes i t') : t = t' := by
  induction t generalizing i t' with
  | leaf mn mx ps =>
    obtain ⟨nd, h1, h2, h3, h4, h5⟩ := h
    cases t' with
    | leaf mn' mx' ps' =>
      obtain ⟨nd', g1, g2, g3, g4, g5⟩ := h'
      rw [h1] at g1
      obtain rfl := Option.some.inj g1
      simp_all
    | branch =>
      obtain ⟨nd', g1, g2, _⟩ := h'
      rw [h1] at g1
      obtain rfl := Option.some.inj g1
      simp_all
  | branch mn mx ax l r ihl ihr =>
    obtain ⟨nd, h1, h2, h3, h4, h5, h6, h7, h8⟩ := h
    cases t' with
    | leaf mn' mx' ps' =>
      obtain ⟨nd', g1, g2, _⟩ := h'
      rw [h1] at g1
      obtain rfl := Option.some.inj g1
      simp_all
    | branch mn' mx' ax' l' r' =>
      obtain ⟨nd', g1, g2, g3, g4, g5, g6, g7, g8⟩ := h'
      rw [h1] at g1
      obtain rfl := Option.some.inj g1
      have := ihl h7 g7
      have := ihr h8 g8
      simp_all

theorem Represents.lt {nodes : List (Node T P)} {i : Nat} {t : Tree T P} (h : Represents nodes i t) :
    i < nodes.length := by
  cases t <;> obtain ⟨nd, h1, _⟩ := h <;> exact (List.getElem?_eq_some_iff.1 h1).1

/-- stack operations when nothing is known about the fill level -/
theorem Stack.push_ok {s s' : Stack} {v : Nat} (h : s.push v = .ok s') :
    s'.toList = v :: s.toList ∧ s'.ss = s.ss + 1 ∧ s'.cells.length = s.cells.length ∧ s.ss < s.cells.length := by
  have hlt : s.ss < s.cells.length := by
    by_contra hc
    simp [Stack.push, hc] at h
  obtain ⟨s2, h1, h2, h3, h4⟩ := Stack.push_spec s v hlt
  rw [h] at h1
  obtain rfl := Except.ok.inj h1
  exact ⟨h2, h3, h4, hlt⟩

theorem Stack.pop_ok {s s' : Stack} {v : Nat} {l : List Nat} (hl : s.toList = v :: l) (h : s.pop = .ok s') :
    s'.toList = l ∧ s'.ss + 1 = s.ss ∧ s'.cells.length = s.cells.length := by
  have hlt : s.ss < s.cells.length := by
    by_contra hc
    simp [Stack.pop, hc] at h
  obtain ⟨s2, h1, h2, h3, h4⟩ := Stack.pop_spec s v l hl hlt
  rw [h] at h1
  obtain rfl := Except.ok.inj h1
  exact ⟨h2, h3, h4⟩

/-- One step from a stack of represented trees: only a stack overflow can go wrong; otherwise a stack of represented
trees with fewer nodes remains. -/
theorem traverseStep_cases (ix : Intersector T P I) (nodes : List (Node T P)) (ray : Ray T)
    (st : TState T I) (t : Tree T P) (ts : List (Tree T P))
    (hrep : List.Forall₂ (Represents nodes) st.stack.toList (t :: ts))
    (hss : st.stack.ss ≤ st.stack.cells.length) :
    traverseStep ix nodes ray st = .error .oobStack ∨
    ∃ st' brk ts', traverseStep ix nodes ray st = .ok (st', brk) ∧
      List.Forall₂ (Represents nodes) st'.stack.toList ts' ∧ st'.stack.ss ≤ st'.stack.cells.length ∧
      st'.stack.cells.length = st.stack.cells.length ∧
      totalNodes ts' + 1 ≤ totalNodes (t :: ts) := by
  obtain ⟨i, is, hl⟩ : ∃ i is, st.stack.toList = i :: is := by
    cases h : st.stack.toList with
    | nil => simp_all
    | cons i is => exact ⟨i, is, rfl⟩
  rw [hl] at hrep
  obtain ⟨hi, his⟩ := List.forall₂_cons.1 hrep
  have hback := Stack.back_spec _ _ _ hl hss
  have hne := t.numNodes_pos
  simp only [totalNodes, List.map_cons, List.sum_cons]
  simp only [traverseStep, hback, run_bind_ok]
  cases hpop : st.stack.pop with
  | error e =>
    have : e = .oobStack := by
      unfold Stack.pop at hpop
      split at hpop <;> simp_all
    subst this
    left
    rw [lookup_ok_of_lt hi.lt]; rfl
  | ok sp =>
    obtain ⟨hsp, hsp1, hsp2⟩ := Stack.pop_ok hl hpop
    cases t with
    | leaf mn mx ps =>
      obtain ⟨nd, hnd, hleaf, hmn, hmx, hps⟩ := hi
      rw [(lookup_eq_ok (u := .oobNode)).2 hnd]
      simp only [run_bind_ok, hleaf]
      right
      split
      · simp only [Bool.not_true, Bool.false_eq_true, if_false]
        split
        · exact ⟨_, _, ts, rfl, by simpa [hsp] using his, by simp only; omega, hsp2, by simp [Tree.numNodes]; omega⟩
        · exact ⟨_, _, ts, rfl, by simpa [hsp] using his, by simp only; omega, hsp2, by simp [Tree.numNodes]; omega⟩
      · exact ⟨_, _, ts, rfl, by simpa [hsp] using his, by simp only; omega, hsp2, by simp [Tree.numNodes]; omega⟩
    | branch mn mx ax l r =>
      obtain ⟨nd, hnd, hleaf, hmn, hmx, hax, hax3, hl0, hr0⟩ := hi
      rw [(lookup_eq_ok (u := .oobNode)).2 hnd]
      simp only [run_bind_ok, hleaf]
      split
      · obtain ⟨near, hnear⟩ := get?_ok_of_lt ray.directionSign ax hax3
        simp only [hax, hnear, run_bind_ok, Bool.not_false, if_true]
        have key : ∀ (a b : Nat) (ta tb : Tree T P), Represents nodes a ta → Represents nodes b tb →
              ta.numNodes + tb.numNodes = l.numNodes + r.numNodes →
              ∀ (x : Run (TState T I × Bool)),
              x = (do let stack ← sp.push b
                      let stack ← stack.push a
                      .ok (({ st with stack } : TState T I), false)) →
            x = .error .oobStack ∨ ∃ st' brk ts', x = .ok (st', brk) ∧
              List.Forall₂ (Represents nodes) st'.stack.toList ts' ∧ st'.stack.ss ≤ st'.stack.cells.length ∧
              st'.stack.cells.length = st.stack.cells.length ∧
              (ts'.map Tree.numNodes).sum + 1 ≤ (Tree.branch mn mx ax l r).numNodes + (ts.map Tree.numNodes).sum := by
          intro a b ta tb ha hb hn x hx
          subst hx
          cases h1 : sp.push b with
          | error e =>
            have : e = .oobStack := by unfold Stack.push at h1; split at h1 <;> simp_all
            subst this; left; rfl
          | ok s1 =>
            simp only [run_bind_ok]
            cases h2 : s1.push a with
            | error e =>
              have : e = .oobStack := by unfold Stack.push at h2; split at h2 <;> simp_all
              subst this; left; rfl
            | ok s2 =>
              right
              obtain ⟨a1, a2, a3, a4⟩ := Stack.push_ok h1
              obtain ⟨b1, b2, b3, b4⟩ := Stack.push_ok h2
              refine ⟨_, _, ta :: tb :: ts, rfl, ?_, ?_, ?_, ?_⟩
              · simp only [b1, a1, hsp]; exact .cons ha (.cons hb his)
              · simp only; omega
              · simp only; omega
              · simp [Tree.numNodes]; omega
        by_cases hn0 : near = 0
        · simp only [hn0, if_true]
          exact key _ _ l r hl0 hr0 rfl _ rfl
        · simp only [hn0, if_false]
          exact key _ _ r l hr0 hl0 (by omega) _ rfl
      · right
        exact ⟨_, _, ts, rfl, by simpa [hsp] using his, by simp only; omega, hsp2, by simp [Tree.numNodes]; omega⟩

/-- The loop never needs more steps than there are nodes below the stacked trees. -/
theorem traverseLoop_terminates (ix : Intersector T P I) (nodes : List (Node T P)) (ray : Ray T) (fuel : Nat)
    (st : TState T I) (ts : List (Tree T P))
    (hrep : List.Forall₂ (Represents nodes) st.stack.toList ts)
    (hss : st.stack.ss ≤ st.stack.cells.length) (hfuel : totalNodes ts ≤ fuel) :
    traverseLoop ix nodes ray fuel st = .error .oobStack ∨ ∃ s, traverseLoop ix nodes ray fuel st = .ok s := by
  induction fuel generalizing st ts with
  | zero =>
    cases ts with
    | nil =>
      have hl : st.stack.toList = [] := by cases h : st.stack.toList <;> simp_all
      have h0 : st.stack.ss = 0 := by rw [← Stack.toList_length _ hss, hl]; rfl
      right; unfold traverseLoop; simp [Stack.size, h0]
    | cons t ts => have := t.numNodes_pos; simp [totalNodes] at hfuel; omega
  | succ fuel ih =>
    cases ts with
    | nil =>
      have hl : st.stack.toList = [] := by cases h : st.stack.toList <;> simp_all
      have h0 : st.stack.ss = 0 := by rw [← Stack.toList_length _ hss, hl]; rfl
      right; unfold traverseLoop; simp [Stack.size, h0]
    | cons t ts =>
      have hpos : st.stack.size > 0 := by
        have := Stack.toList_length _ hss
        have := hrep.length_eq
        simp at this
        simp [Stack.size]; omega
      unfold traverseLoop
      rw [if_pos hpos]
      rcases traverseStep_cases ix nodes ray st t ts hrep hss with h | ⟨st', brk, ts', h, h1, h2, _, h3⟩
      · left; simp [h]
      · simp only [h, run_bind_ok]
        split
        · right; simp
        · exact ih st' ts' h1 h2 (by omega)

/-- Appending nodes and giving more fuel does not change the loop. -/
theorem traverseLoop_append (ix : Intersector T P I) (nodes more : List (Node T P)) (ray : Ray T) (fuel fuel' : Nat)
    (st : TState T I) (ts : List (Tree T P))
    (hrep : List.Forall₂ (Represents nodes) st.stack.toList ts)
    (hss : st.stack.ss ≤ st.stack.cells.length) (hfuel : totalNodes ts ≤ fuel) (hfuel' : totalNodes ts ≤ fuel') :
    traverseLoop ix (nodes ++ more) ray fuel' st = traverseLoop ix nodes ray fuel st := by
  induction fuel generalizing st ts fuel' with
  | zero =>
    cases ts with
    | nil =>
      have hl : st.stack.toList = [] := by cases h : st.stack.toList <;> simp_all
      have h0 : st.stack.ss = 0 := by rw [← Stack.toList_length _ hss, hl]; rfl
      unfold traverseLoop; simp [Stack.size, h0]
    | cons t ts => have := t.numNodes_pos; simp [totalNodes] at hfuel; omega
  | succ fuel ih =>
    cases ts with
    | nil =>
      have hl : st.stack.toList = [] := by cases h : st.stack.toList <;> simp_all
      have h0 : st.stack.ss = 0 := by rw [← Stack.toList_length _ hss, hl]; rfl
      unfold traverseLoop; simp [Stack.size, h0]
    | cons t ts =>
      have hpos : st.stack.size > 0 := by
        have := Stack.toList_length _ hss
        have := hrep.length_eq
        simp at this
        simp [Stack.size]; omega
      obtain ⟨f', rfl⟩ : ∃ f', fuel' = f' + 1 := by
        have := t.numNodes_pos; simp [totalNodes] at hfuel'; exact ⟨fuel' - 1, by omega⟩
      have hstep : traverseStep ix (nodes ++ more) ray st = traverseStep ix nodes ray st := by
        obtain ⟨i, is, hl⟩ : ∃ i is, st.stack.toList = i :: is := by
          cases h : st.stack.toList with
          | nil => simp_all
          | cons i is => exact ⟨i, is, rfl⟩
        rw [hl] at hrep
        obtain ⟨hi, _⟩ := List.forall₂_cons.1 hrep
        have hlk : lookup .oobNode (nodes ++ more) i = lookup .oobNode nodes i := by
          rw [lookup_ok_of_lt hi.lt, lookup_eq_ok, List.getElem?_append_left hi.lt]; simp [hi.lt]
        simp only [traverseStep, Stack.back_spec _ _ _ hl hss, run_bind_ok, hlk]
      unfold traverseLoop
      rw [if_pos hpos, if_pos hpos, hstep]
      rcases traverseStep_cases ix nodes ray st t ts hrep hss with h | ⟨st', brk, ts', h, h1, h2, _, h3⟩
      · simp [h]
      · simp only [h, run_bind_ok]
        split
        · rfl
        · exact ih f' st' ts' h1 h2 (by omega) (by omega)

theorem traverse_append (ix : Intersector T P I) (nodes more : List (Node T P)) (ray : Ray T) (rayhit : RayHit T)
    (t : Tree T P) (hrep : Represents nodes 0 t) (hn : t.numNodes ≤ nodes.length) :
    traverse ix (nodes ++ more) ray rayhit = traverse ix nodes ray rayhit := by
  obtain ⟨s, h1, h2, h3, h4⟩ := Stack.empty_push maxTreeDepth (by decide) 0
  unfold traverse traverseInit
  simp only [h1, run_bind_ok, run_pure]
  rw [traverseLoop_append ix nodes more ray (nodes.length + 1) ((nodes ++ more).length + 1) ⟨s, ray.maxHit, ix.prepare ray⟩ [t]
    (by simp only [h2]; exact .cons hrep .nil) (by simp only [h3, h4]; decide)
    (by simp [totalNodes]; omega) (by simp [totalNodes]; omega)]

theorem traverse_terminates (ix : Intersector T P I) (nodes : List (Node T P)) (ray : Ray T) (rayhit : RayHit T)
    (t : Tree T P) (hrep : Represents nodes 0 t) (hn : t.numNodes ≤ nodes.length) :
    traverse ix nodes ray rayhit = .error .oobStack ∨
      ∃ s, traverse ix nodes ray rayhit = traverseFinish ix ray rayhit s := by
  obtain ⟨s, h1, h2, h3, h4⟩ := Stack.empty_push maxTreeDepth (by decide) 0
  unfold traverse traverseInit
  simp only [h1, run_bind_ok, run_pure]
  rcases traverseLoop_terminates ix nodes ray (nodes.length + 1) ⟨s, ray.maxHit, ix.prepare ray⟩ [t]
    (by simp only [h2]; exact .cons hrep .nil) (by simp only [h3, h4]; decide)
    (by simp [totalNodes]; omega) with h | ⟨s, h⟩
  · left; simp [h]
  · right; exact ⟨s, by simp [h]⟩

/-- An invariant of the intersector under the primitives of the tree holds at the end of the visit. -/
theorem visit_inv (ix : Intersector T P I) (ray : Ray T) (J : I → Prop) (t : Tree T P)
    (hJ : ∀ p ∈ t.prims, ∀ s, J s → J (ix.isect s p ray).1) (v : VState T I) (hv : J v.isect) :
    J (visit ix ray t v).1.isect := by
  have leafInv : ∀ (ps : List P), (∀ p ∈ ps, ∀ s, J s → J (ix.isect s p ray).1) → ∀ s b, J s →
      J (intersectLeaf ix ray ps s b).1 := by
    intro ps
    induction ps with
    | nil => intro _ s b hs; exact hs
    | cons p ps ih =>
      intro h s b hs
      simp only [intersectLeaf]
      have := h p (by simp) s hs
      split
      · exact this
      · exact ih (fun q hq => h q (by simp [hq])) _ _ this
  induction t generalizing v with
  | leaf mn mx ps =>
    simp only [visit]
    split
    · have := leafInv ps (by simpa [Tree.prims, Tree.leaves] using hJ) v.isect false hv
      simp only [visitLeaf]; split <;> exact this
    · exact hv
  | branch mn mx ax l r ihl ihr =>
    have hprims : (Tree.branch mn mx ax l r).prims = l.prims ++ r.prims := by simp [Tree.prims, Tree.leaves]
    rw [hprims] at hJ
    have hl := fun v hv => ihl (fun p hp => hJ p (by simp [hp])) v hv
    have hr := fun v hv => ihr (fun p hp => hJ p (by simp [hp])) v hv
    simp only [visit]
    split
    · split
      · split
        · exact hl v hv
        · exact hr _ (hl v hv)
      · split
        · exact hr v hv
        · exact hl _ (hr v hv)
    · exact hv

end Blazert
