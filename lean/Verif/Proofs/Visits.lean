/- Every node is visited at most once. -/
import Verif.Proofs.Loop
import Verif.Spec.Visits
import Mathlib.Data.List.Perm.Subperm

set_option autoImplicit false
set_option linter.unusedSectionVars false

namespace Blazert

variable {T P I : Type} [Scalar T]

/-- pending trees with their positions -/
def PendOk (nodes : List (Node T P)) (x : Nat × Tree T P) : Prop := Occupies nodes x.1 x.2 (x.1 + x.2.numNodes)

/-- the indices of the nodes of the pending trees -/
def pendIdx (ps : List (Nat × Tree T P)) : List Nat := ps.flatMap fun x => List.range' x.1 x.2.numNodes

theorem Occupies.children {nodes : List (Node T P)} {i : Nat} {mn mx : Vec3 T} {ax : Nat} {l r : Tree T P}
    (h : Occupies nodes i (.branch mn mx ax l r) (i + (Tree.branch mn mx ax l r).numNodes)) :
    ∃ nd, nodes[i]? = some nd ∧ nd.leaf = false ∧ nd.axis = ax ∧ ax < 3 ∧ nd.child0 = i + 1 ∧
      nd.child1 = i + 1 + l.numNodes ∧ PendOk nodes (i + 1, l) ∧ PendOk nodes (i + 1 + l.numNodes, r) := by
  obtain ⟨nd, h1, h2, h3, h4, h5, h6, h7, h8, h9⟩ := h
  have e := h8.eq_add
  refine ⟨nd, h1, h2, h5, h6, h7, e, ?_, ?_⟩
  · unfold PendOk; simp only; rw [← e]; exact h8
  · unfold PendOk; simp only; rw [e] at h9
    have : i + (Tree.branch mn mx ax l r).numNodes = i + 1 + l.numNodes + r.numNodes := by
      simp [Tree.numNodes]; omega
    rw [this] at h9; exact h9

theorem visits_subperm (ix : Intersector T P I) (nodes : List (Node T P)) (ray : Ray T) (n : Nat)
    (st : TState T I) (ps : List (Nat × Tree T P)) (hst : st.stack.toList = ps.map Prod.fst)
    (hps : ∀ x ∈ ps, PendOk nodes x) (hss : st.stack.ss ≤ st.stack.cells.length) :
    (visits ix nodes ray n st).Subperm (pendIdx ps) := by
  induction n generalizing st ps with
  | zero => exact List.nil_subperm
  | succ n ih =>
    unfold visits
    by_cases hpos : st.stack.size > 0
    · rw [if_pos hpos]
      have hlen := Stack.toList_length _ hss
      cases ps with
      | nil => rw [hst] at hlen; simp at hlen; simp [Stack.size] at hpos; omega
      | cons x ps =>
        obtain ⟨i, t⟩ := x
        simp only [List.map_cons] at hst
        have hback := Stack.back_spec _ _ _ hst hss
        have hx := hps (i, t) (by simp)
        rw [hback]
        have hone : [i].Subperm (pendIdx ((i, t) :: ps)) := by
          rw [List.singleton_subperm_iff]
          have := t.numNodes_pos
          simp only [pendIdx, List.flatMap_cons, List.mem_append, List.mem_range']
          left
          exact ⟨0, by omega, by omega⟩
        cases hstep : traverseStep ix nodes ray st with
        | error e => exact hone
        | ok q =>
          obtain ⟨st', brk⟩ := q
          cases brk with
          | true => exact hone
          | false =>
            -- a step without break
            simp only
            have hrest : ∀ x ∈ ps, PendOk nodes x := fun x hx => hps x (by simp [hx])
            have tail : ∀ qs : List (Nat × Tree T P), st'.stack.toList = qs.map Prod.fst → (∀ x ∈ qs, PendOk nodes x) →
                st'.stack.ss ≤ st'.stack.cells.length → (i :: pendIdx qs).Subperm (pendIdx ((i, t) :: ps)) →
                (i :: visits ix nodes ray n st').Subperm (pendIdx ((i, t) :: ps)) := by
              intro qs h1 h2 h3 h4
              exact ((List.subperm_cons i).2 (ih st' qs h1 h2 h3)).trans h4
            have hi := hx
            simp only [traverseStep, hback, run_bind_ok] at hstep
            cases hpop : st.stack.pop with
            | error e =>
              rw [hpop] at hstep
              rw [run_bind_eq_ok] at hstep
              obtain ⟨_, _, h⟩ := hstep
              simp at h
            | ok sp =>
              obtain ⟨hsp, hsp1, hsp2⟩ := Stack.pop_ok hst hpop
              rw [hpop] at hstep
              simp only [run_bind_ok] at hstep
              have dropAll : (i :: pendIdx ps).Subperm (pendIdx ((i, t) :: ps)) := by
                obtain ⟨m, hm⟩ : ∃ m, t.numNodes = m + 1 := ⟨t.numNodes - 1, by have := t.numNodes_pos; omega⟩
                simp only [pendIdx, List.flatMap_cons, hm, List.range'_succ]
                apply List.Sublist.subperm
                simp only [List.cons_append]
                exact List.Sublist.cons_cons _ (List.sublist_append_right _ _)
              cases t with
              | leaf mn mx qs =>
                obtain ⟨⟨nd, hnd, hleaf, _⟩, _⟩ := hx
                rw [(lookup_eq_ok (u := .oobNode)).2 hnd] at hstep
                simp only [run_bind_ok, hleaf, Bool.not_true, Bool.false_eq_true, if_false] at hstep
                have hst' : st'.stack = sp := by
                  split at hstep
                  · split at hstep
                    · simp only [run_pure, Except.ok.injEq, Prod.mk.injEq] at hstep
                      rw [← hstep.1]
                    · simp only [run_pure, Except.ok.injEq, Prod.mk.injEq] at hstep
                      rw [← hstep.1]
                  · simp only [run_pure, Except.ok.injEq, Prod.mk.injEq] at hstep
                    rw [← hstep.1]
                exact tail ps (by rw [hst', hsp]) hrest (by rw [hst']; omega) dropAll
              | branch mn mx ax l r =>
                obtain ⟨nd, hnd, hleaf, hax, hax3, hc0, hc1, hl, hr⟩ := Occupies.children hx
                rw [(lookup_eq_ok (u := .oobNode)).2 hnd] at hstep
                simp only [run_bind_ok, hleaf, Bool.not_false, if_true, hax] at hstep
                split at hstep
                · obtain ⟨near, hnear⟩ := get?_ok_of_lt ray.directionSign ax hax3
                  simp only [hnear, run_bind_ok] at hstep
                  rw [run_bind_eq_ok] at hstep
                  obtain ⟨s1, h1, hstep⟩ := hstep
                  rw [run_bind_eq_ok] at hstep
                  obtain ⟨s2, h2, hstep⟩ := hstep
                  simp only [run_pure, Except.ok.injEq, Prod.mk.injEq] at hstep
                  have hst' : st'.stack = s2 := by rw [← hstep.1]
                  obtain ⟨a1, a2, a3, a4⟩ := Stack.push_ok h1
                  obtain ⟨b1, b2, b3, b4⟩ := Stack.push_ok h2
                  have hexp : pendIdx ((i, Tree.branch mn mx ax l r) :: ps) =
                      i :: (List.range' (i + 1) l.numNodes ++ List.range' (i + 1 + l.numNodes) r.numNodes ++ pendIdx ps) := by
                    simp only [pendIdx, List.flatMap_cons, Tree.numNodes]
                    rw [Nat.add_assoc 1, Nat.add_comm 1, List.range'_succ, List.range'_append_1]
                    simp
                  by_cases hn0 : near = 0
                  · refine tail ((i + 1, l) :: (i + 1 + l.numNodes, r) :: ps) ?_ ?_ (by rw [hst']; omega) ?_
                    · rw [hst', b1, a1, hsp]; simp [hn0, hc0, hc1]
                    · intro x hx
                      simp only [List.mem_cons] at hx
                      rcases hx with rfl | rfl | hx
                      · exact hl
                      · exact hr
                      · exact hrest x hx
                    · rw [hexp]
                      apply List.Perm.subperm
                      simp only [pendIdx, List.flatMap_cons, List.append_assoc]
                      exact List.Perm.refl _
                  · refine tail ((i + 1 + l.numNodes, r) :: (i + 1, l) :: ps) ?_ ?_ (by rw [hst']; omega) ?_
                    · rw [hst', b1, a1, hsp]; simp [hn0, hc0, hc1]
                    · intro x hx
                      simp only [List.mem_cons] at hx
                      rcases hx with rfl | rfl | hx
                      · exact hr
                      · exact hl
                      · exact hrest x hx
                    · rw [hexp]
                      apply List.Perm.subperm
                      apply List.Perm.cons
                      simp only [pendIdx, List.flatMap_cons, ← List.append_assoc]
                      exact List.Perm.append_right _ List.perm_append_comm
                · simp only [run_pure, Except.ok.injEq, Prod.mk.injEq] at hstep
                  have hst' : st'.stack = sp := by rw [← hstep.1]
                  exact tail ps (by rw [hst', hsp]) hrest (by rw [hst']; omega) dropAll
    · rw [if_neg hpos]; exact List.nil_subperm

end Blazert
