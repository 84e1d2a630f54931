/- C10-C13, C46: memory safety, termination, concurrency and the stack.  All statements hold for every `Scalar` (any
arithmetic), C10 for every `Scalar` with an irreflexive `<`. -/
import Verif.Proofs.Safe
import Verif.Proofs.Visits
import Verif.Proofs.Concurrent
import Verif.Spec.Lifo
import Verif.Samples

set_option autoImplicit false

namespace Blazert
open Scalar

variable {T P I C : Type} [Scalar T]

/-! ### C10, C11, C12 for scenes -/

/-- **C10, C12**.  On a committed scene the only thing that can go wrong in a query is an overflow of the traversal
stack: no node, primitive, face, vertex normal or axis index is out of range, and the loop finishes within as many
iterations as there are nodes (`outOfFuel` does not happen). -/
theorem C10_only_stack_overflow_possible (hlt : ∀ a : T, lt a a = false) (s : Scene T) (rs : List Nat)
    (h : History s rs) (hc : s.committed = true) (ray : Ray T) (rh : RayHit T) :
    s.intersect1 ray rh = .error .oobStack ∨ ∃ r, s.intersect1 ray rh = .ok r :=
  (h.ok.traverses hlt hc ray).intersect1 rh

/-- **C10**.  If no tree of the committed scene is deeper than 26 (stack capacity minus two), every query returns
normally. -/
theorem C10_no_undefined_behaviour (hlt : ∀ a : T, lt a a = false) (s : Scene T) (rs : List Nat)
    (h : History s rs) (hc : s.committed = true) (hd : DepthAtMost s 26) (ray : Ray T) (rh : RayHit T) :
    ∃ r, s.intersect1 ray rh = .ok r := by
  have hok := h.ok
  have ht := hok.traverses hlt hc ray
  have hm := hok.mesh; have hs := hok.spheres; have hp := hok.planes; have hy := hok.cylinders
  rw [hc] at hm hs hp hy
  refine TraversesOk.intersect1_ok ⟨?_, ?_, ?_, ?_⟩ rh
  · intro p rh e
    refine (ht.mesh p rh e).resolve_left ?_
    have hd' := fun t => hd.mesh p t e
    rw [e] at hm
    obtain ⟨t, _, h2, h3⟩ := hm.tree
    exact traverse_ne_oobStack _ _ _ _ t h2 (by have := hd' t h2; unfold maxTreeDepth; omega) h3
      fun st => triPost_ne _ _ _
  · intro p rh e
    refine (ht.spheres p rh e).resolve_left ?_
    have hd' := fun t => hd.spheres p t e
    rw [e] at hs
    obtain ⟨t, _, h2, h3⟩ := hs.tree
    exact traverse_ne_oobStack _ _ _ _ t h2 (by have := hd' t h2; unfold maxTreeDepth; omega) h3
      fun st => spherePost_ne _ _ _
  · intro p rh e
    refine (ht.planes p rh e).resolve_left ?_
    have hd' := fun t => hd.planes p t e
    rw [e] at hp
    obtain ⟨t, _, h2, h3⟩ := hp.tree
    exact traverse_ne_oobStack _ _ _ _ t h2 (by have := hd' t h2; unfold maxTreeDepth; omega) h3
      fun st => by simp [planeIx, planePost]
  · intro p rh e
    refine (ht.cylinders p rh e).resolve_left ?_
    have hd' := fun t => hd.cylinders p t e
    rw [e] at hy
    obtain ⟨t, _, h2, h3⟩ := hy.tree
    exact traverse_ne_oobStack _ _ _ _ t h2 (by have := hd' t h2; unfold maxTreeDepth; omega) h3
      fun st => by simp [cylIx, planePost]

/-- the hypothesis on `<` holds for the IEEE-like types, in particular `double` and `float` -/
example : (∀ a : Double, lt a a = false) ∧ (∀ a : Single, lt a a = false) :=
  ⟨XF.irreflLt _, XF.irreflLt _⟩

/-- Committing is necessary: before it, the very first step of a query reads node 0 of an empty list. -/
theorem C10_uncommitted_query_is_out_of_bounds :
    query stablePartition [.addSpheres [dvec 0 0 0] [dbl 1]] rayToOrigin RayHit.fresh = .error .oobNode := by
  have : (match query stablePartition [.addSpheres [dvec 0 0 0] [dbl 1]] rayToOrigin RayHit.fresh with
    | .error .oobNode => true | _ => false) = true := by decide +kernel
  split at this
  · assumption
  · simp at this

/-- number of primitives of each kind -/
structure PrimsAtMost (s : Scene T) (n : Nat) : Prop where
  mesh : ∀ p, s.mesh = some p → p.coll.faces.length ≤ n
  spheres : ∀ p, s.spheres = some p → p.coll.centers.length ≤ n
  planes : ∀ p, s.planes = some p → p.coll.centers.length ≤ n
  cylinders : ∀ p, s.cylinders = some p → p.coll.centers.length ≤ n

/-- **C11**, what does hold: with at most 30 primitives of each kind the tree is at most 26 deep, and so no query ever
writes past the traversal stack.  Missing from the full claim: larger scenes, for which it is false (see
`C11_stack_overflow`). -/
theorem C11_thirty_primitives_safe_partial (hlt : ∀ a : T, lt a a = false) (s : Scene T) (rs : List Nat)
    (h : History s rs) (hc : s.committed = true) (hn : PrimsAtMost s 30) (ray : Ray T) (rh : RayHit T) :
    ∃ r, s.intersect1 ray rh = .ok r := by
  have hok := h.ok
  have hm := hok.mesh; have hs := hok.spheres; have hp := hok.planes; have hy := hok.cylinders
  rw [hc, hok.options] at hm hs hp hy
  have key : ∀ {C P : Type} {made : C → Prop} {tc : C → Collection T P} (q : Part C T P) (t : Tree T P),
      PartOk made tc BuildOptions.default true (some q) → Represents q.nodes 0 t → (tc q.coll).size ≤ 30 →
      t.height ≤ 26 := by
    intro C P made tc q t h1 h2 h3
    obtain ⟨t', h4, h5, _⟩ := h1.tree
    obtain rfl := h2.unique h5
    have := h4.height_small (by decide)
    rw [List.length_range] at this
    have e : BuildOptions.default.minLeaf = 4 := rfl
    omega
  refine C10_no_undefined_behaviour hlt s rs h hc ⟨?_, ?_, ?_, ?_⟩ ray rh
  · intro p t e ht
    have := hn.mesh p e
    rw [e] at hm
    exact key p t hm ht this
  · intro p t e ht
    have := hn.spheres p e
    rw [e] at hs
    exact key p t hs ht this
  · intro p t e ht
    have := hn.planes p e
    rw [e] at hp
    exact key p t hp ht this
  · intro p t e ht
    have := hn.cylinders p e
    rw [e] at hy
    exact key p t hy ht this

/-- **C11**, for user-chosen options: a BVH built with `max_tree_depth ≤ 26` never overflows the stack. -/
theorem C11_max_depth_26_safe_partial (part : StdPartition) (p : Collection T P) (o : BuildOptions)
    (nodes : List (Node T P)) (stats : Statistics) (h : build part p o [] = .ok (nodes, stats)) (ho : o.maxDepth ≤ 26)
    (ix : Intersector T P I) (ray : Ray T) (rh : RayHit T) :
    ∃ s, traverse ix nodes ray rh = traverseFinish ix ray rh s := by
  obtain ⟨t, bad, h1, _, h3⟩ := build_ok part p o [] _ h
  simp only [List.nil_append, List.length_nil, Prod.mk.injEq] at h3
  obtain ⟨rfl, rfl⟩ := h3
  have hrep := Tree.layout_represents h1.axesOk []
  rw [List.append_nil] at hrep
  have := h1.height_le
  exact ⟨_, traverse_eq ix _ ray rh t hrep.1 (by unfold maxTreeDepth; omega) hrep.2⟩

example : ∃ out, build stablePartition sampleSpheres.toCollection ⟨1, 26, 2⟩ [] = .ok out ∧ out.1.length = 5 :=
  exists_ok_of_eval (by decide +kernel)

/-- **C12**.  In every query on a committed BVH each node is looked at at most once: the list of visited nodes (over any
number of iterations) has no repetition and is no longer than the node list. -/
theorem C12_each_node_at_most_once (part : StdPartition) (p : Collection T P) (o : BuildOptions)
    (nodes : List (Node T P)) (stats : Statistics) (h : build part p o [] = .ok (nodes, stats))
    (ix : Intersector T P I) (ray : Ray T) (st : TState T I) (hst : traverseInit ix ray = .ok st) (n : Nat) :
    (visits ix nodes ray n st).Nodup ∧ (visits ix nodes ray n st).length ≤ nodes.length ∧
      ∀ i ∈ visits ix nodes ray n st, i < nodes.length := by
  obtain ⟨t, bad, h1, _, h3⟩ := build_ok part p o [] _ h
  simp only [List.nil_append, List.length_nil, Prod.mk.injEq] at h3
  obtain ⟨rfl, rfl⟩ := h3
  have hocc := layout_occupies t h1.axesOk [] []
  simp only [List.nil_append, List.append_nil, List.length_nil] at hocc
  obtain ⟨s, e1, e2, e3, e4⟩ := Stack.empty_push maxTreeDepth (by decide) 0
  unfold traverseInit at hst
  rw [e1] at hst
  simp only [run_bind_ok, run_pure, Except.ok.injEq] at hst
  subst hst
  have hsub := visits_subperm ix (t.layout 0) ray n ⟨s, ray.maxHit, ix.prepare ray⟩ [(0, t)] (by simp [e2])
    (by simpa [PendOk] using hocc) (by simp only [e3, e4]; decide)
  simp only [pendIdx, List.flatMap_cons, List.flatMap_nil, List.append_nil] at hsub
  refine ⟨?_, ?_, ?_⟩
  · obtain ⟨l, hl1, hl2⟩ := hsub
    exact hl1.nodup_iff.1 (hl2.nodup List.nodup_range')
  · have := hsub.length_le
    simpa using this
  · intro i hi
    have := hsub.subset hi
    rw [List.mem_range'] at this
    rw [Tree.layout_length]
    omega

/-- **C12**.  Every query on a committed scene terminates: the loop's fuel (the number of nodes) never runs out. -/
theorem C12_queries_terminate (hlt : ∀ a : T, lt a a = false) (s : Scene T) (rs : List Nat)
    (h : History s rs) (hc : s.committed = true) (ray : Ray T) (rh : RayHit T) :
    s.intersect1 ray rh ≠ .error .outOfFuel := by
  rcases C10_only_stack_overflow_possible hlt s rs h hc ray rh with e | ⟨r, e⟩ <;> rw [e] <;> simp

/-- visited nodes of a query on three spheres: the root, the leaf with the nearest sphere, and the root of the rest, which
is then skipped (nodes 3 and 4 are not visited) -/
example : evalOk (do
    let (nodes, _) ← build stablePartition sampleSpheres.toCollection smallOptions []
    let ray := Ray.make' (dvec (-3) 0 0) (dvec 1 0 0)
    let st ← traverseInit (sphereIx sampleSpheres) ray
    return visits (sphereIx sampleSpheres) nodes ray 10 st) (· == [0, 1, 2]) = true := by decide +kernel

/-! ### C13 -/

/-- **C13**.  Any number of queries (thread `j` runs `jobs j`) on one committed BVH, under any schedule: the shared
nodes are never changed, a query that has finished has exactly the result it has when run alone, and a query that was
given `nodes.length + 2` steps has finished. -/
theorem C13_concurrent_queries_do_not_interfere (part : StdPartition) (p : Collection T P) (o : BuildOptions)
    (nodes : List (Node T P)) (stats : Statistics) (h : build part p o [] = .ok (nodes, stats))
    (ix : Intersector T P I) (hpost : ∀ s rh, ix.post s rh ≠ .error .outOfFuel) (jobs : Nat → Job T)
    (schedule : List Nat) (nodes' : List (Node T P)) (ths : Nat → Thread T I)
    (hrun : runSchedule ix jobs schedule (nodes, fun j => threadInit ix (jobs j)) = (nodes', ths)) :
    nodes' = nodes ∧ ∀ j,
      (∀ r, ths j = .done r → r = traverse ix nodes (jobs j).ray (jobs j).rayhit) ∧
      (nodes.length + 2 ≤ schedule.count j → ths j = .done (traverse ix nodes (jobs j).ray (jobs j).rayhit)) := by
  rw [runSchedule_eq] at hrun
  simp only [Prod.mk.injEq] at hrun
  obtain ⟨rfl, rfl⟩ := hrun
  refine ⟨rfl, fun j => ?_⟩
  obtain ⟨t, bad, h1, _, h3⟩ := build_ok part p o [] _ h
  simp only [List.nil_append, List.length_nil, Prod.mk.injEq] at h3
  obtain ⟨rfl, rfl⟩ := h3
  have hrep := Tree.layout_represents h1.axesOk []
  rw [List.append_nil] at hrep
  have hne : traverse ix (t.layout 0) (jobs j).ray (jobs j).rayhit ≠ .error .outOfFuel := by
    rcases traverse_terminates ix _ (jobs j).ray (jobs j).rayhit t hrep.1 hrep.2 with e | ⟨s, e⟩
    · rw [e]; simp
    · rw [e]
      unfold traverseFinish
      simp only
      split
      · cases hp : ix.post s (jobs j).rayhit with
        | error e => intro hc; simp at hc; exact hpost _ _ (by rw [hp, hc])
        | ok r => simp
      · simp
  have hfin := alone_traverse ix (jobs j) (t.layout 0) hne
  refine ⟨fun r hr => ?_, fun hcount => ?_⟩
  · have a1 := alone_add ix (jobs j) (t.layout 0) (schedule.count j) ((t.layout 0).length + 2) (threadInit ix (jobs j))
    simp only at hr
    rw [hr, alone_done, Nat.add_comm, alone_add, hfin, alone_done] at a1
    exact (Thread.done.inj a1).symm
  · simp only
    obtain ⟨k, hk⟩ := Nat.exists_eq_add_of_le hcount
    rw [hk, alone_add, hfin, alone_done]

/-- the hypothesis on the epilogue holds, e.g., for spheres, planes and cylinders -/
example (c : SphereColl T) :
    (∀ s rh, (sphereIx c).post s rh ≠ .error .outOfFuel) ∧
    (∀ s rh, (planeIx : Intersector T _ _).post s rh ≠ .error .outOfFuel) ∧
    (∀ s rh, (cylIx : Intersector T _ _).post s rh ≠ .error .outOfFuel) := by
  refine ⟨fun s rh => ?_, fun s rh => by simp [planeIx, planePost], fun s rh => by simp [cylIx, planePost]⟩
  show spherePost c s rh ≠ _
  unfold spherePost
  cases h : lookup .oobIndex c.centers s.primId with
  | error e => intro hc; simp at hc; exact lookup_ne .oobIndex .outOfFuel (by decide) _ _ (by rw [h, hc])
  | ok a => simp

/-! ### C46 -/

/-- **C46**.  For every sequence of operations, starting from an empty stack of any capacity, the modelled `Stack`
returns the same values as an abstract last-in first-out list, or both are undefined: `push` on a full stack, `pop` on
an empty *or completely full* stack, `back` on an empty stack. -/
theorem C46_stack_is_lifo (cap : Nat) (ops : List StackOp) :
    (Stack.empty cap).runOps ops = lifoRun cap [] ops := by
  suffices gen : ∀ (ops : List StackOp) (s : Stack), s.ss ≤ s.cells.length → s.cells.length = cap →
      s.runOps ops = lifoRun cap s.toList ops by
    have := gen ops (Stack.empty cap) (by simp [Stack.empty]) (by simp [Stack.empty])
    rw [this]; simp [Stack.empty, Stack.toList]
  intro ops
  induction ops with
  | nil => intros; rfl
  | cons op ops ih =>
    intro s hs hcap
    have hlen := Stack.toList_length s hs
    simp only [Stack.runOps, lifoRun]
    cases op with
    | push v =>
      simp only [Stack.step, lifoStep]
      by_cases hlt : s.ss < s.cells.length
      · obtain ⟨s', e1, e2, e3, e4⟩ := Stack.push_spec s v hlt
        rw [if_pos (by omega), e1]
        simp only [run_bind_ok, run_pure]
        rw [ih s' (by omega) (by omega), e2]
      · rw [if_neg (by omega)]
        simp [Stack.push, hlt]
    | pop =>
      simp only [Stack.step, lifoStep]
      cases hl : s.toList with
      | nil =>
        rw [hl] at hlen
        simp only [List.length_nil] at hlen
        simp [Stack.pop, ← hlen]
      | cons v l =>
        simp only
        rw [← hl, hlen]
        by_cases hlt : s.ss < s.cells.length
        · obtain ⟨s', e1, e2, e3, e4⟩ := Stack.pop_spec s v l hl hlt
          rw [if_pos (by omega), e1]
          simp only [run_bind_ok, run_pure]
          rw [ih s' (by omega) (by omega), e2]
        · rw [if_neg (by omega)]
          simp [Stack.pop, hlt]
    | back =>
      simp only [Stack.step, lifoStep]
      cases hl : s.toList with
      | nil =>
        rw [hl] at hlen
        simp only [List.length_nil] at hlen
        simp [Stack.back, ← hlen]
      | cons v l =>
        rw [Stack.back_spec s v l hl hs]
        simp only [run_bind_ok, run_pure]
        rw [ih s hs hcap, hl]

/-- both a defined and an undefined sequence exist: popping a full stack of capacity 2 is undefined -/
example : lifoRun 2 [] [.push 7, .back, .pop, .push 8, .back] = .ok [none, some 7, none, none, some 8] ∧
    lifoRun 2 [] [.push 7, .push 8, .back, .pop] = .error .oobStack := ⟨rfl, rfl⟩

end Blazert
