/- C14, C16, C17, C18: what the builder produces.  All statements hold for every `Scalar` (any arithmetic), every
collection, every lawful `std::partition` and every choice of build options. -/
import Verif.Proofs.Built
import Verif.Proofs.Loop
import Verif.Samples

set_option autoImplicit false

namespace Blazert

variable {T P : Type} [Scalar T]

/-- **C14**.  A successful build stores exactly one tree in the node list: it occupies all indices `0, ..., size-1`, each
once, and the primitives in its leaves are, up to order, the primitives of the collection, each once. -/
theorem C14_every_primitive_in_exactly_one_leaf (part : StdPartition) (p : Collection T P) (o : BuildOptions)
    (nodes : List (Node T P)) (stats : Statistics) (h : build part p o [] = .ok (nodes, stats)) :
    ∃ t, Occupies nodes 0 t nodes.length ∧
      ∃ ps, (List.range p.size).mapM p.prim = .ok ps ∧ t.leaves.flatten.Perm ps := by
  obtain ⟨t, bad, h1, _, h3⟩ := build_ok part p o [] _ h
  simp only [List.nil_append, List.length_nil, Prod.mk.injEq] at h3
  obtain ⟨rfl, rfl⟩ := h3
  refine ⟨t, ?_, h1.prims_perm⟩
  have := layout_occupies t h1.axesOk [] []
  simpa using this

/-- **C14**, reverse reading: whatever tree one finds by following child indices from node 0, it is that tree. -/
theorem C14_reachable_tree (part : StdPartition) (p : Collection T P) (o : BuildOptions)
    (nodes : List (Node T P)) (stats : Statistics) (h : build part p o [] = .ok (nodes, stats)) (t : Tree T P)
    (ht : Represents nodes 0 t) :
    t.numNodes = nodes.length ∧ ∃ ps, (List.range p.size).mapM p.prim = .ok ps ∧ t.leaves.flatten.Perm ps := by
  obtain ⟨t', h1, h2⟩ := C14_every_primitive_in_exactly_one_leaf part p o nodes stats h
  obtain rfl := ht.unique h1.represents
  exact ⟨by have := h1.eq_add; omega, h2⟩

example : ∃ out, build stablePartition sampleSpheres.toCollection smallOptions [] = .ok out ∧ out.1.length = 5 :=
  exists_ok_of_eval (by decide +kernel)

/-- **C16**.  Depth and leaf size limits. -/
theorem C16_limits (part : StdPartition) (p : Collection T P) (o : BuildOptions)
    (nodes : List (Node T P)) (stats : Statistics) (h : build part p o [] = .ok (nodes, stats)) (t : Tree T P)
    (ht : Represents nodes 0 t) :
    t.height ≤ o.maxDepth ∧
    (∀ d ps, (d, ps) ∈ t.leavesAt 0 → d ≤ o.maxDepth ∧ (ps.length ≤ o.minLeaf ∨ d = o.maxDepth)) ∧
    (1 ≤ o.minLeaf → 1 ≤ p.size → ∀ ps ∈ t.leaves, ps ≠ []) ∧
    (∀ mn mx ax l r, Tree.branch mn mx ax l r ∈ t.subtrees →
      o.minLeaf < (Tree.branch mn mx ax l r).leaves.flatten.length) := by
  obtain ⟨t', bad, h1, _, h3⟩ := build_ok part p o [] _ h
  simp only [List.nil_append, List.length_nil, Prod.mk.injEq] at h3
  obtain ⟨rfl, rfl⟩ := h3
  have hocc := layout_occupies t' h1.axesOk [] []
  simp only [List.nil_append, List.append_nil, List.length_nil] at hocc
  obtain rfl := ht.unique hocc.represents
  have hh : t.height ≤ o.maxDepth := by simpa using h1.height_le
  refine ⟨hh, fun d ps hd => ?_, fun h5 h6 => ?_, h1.branch_big⟩
  · have h6 := t.leavesAt_depth 0 _ hd
    have h7 := h1.leaf_limits _ hd
    simp only at h6 h7
    refine ⟨by omega, h7.imp id fun h8 => by omega⟩
  · exact h1.leaves_nonempty h5 (by rw [Ne, List.range_eq_nil]; omega)

example : ∃ out, build stablePartition sampleSpheres.toCollection ⟨1, 1, 2⟩ [] = .ok out ∧
    out.1.map (fun nd => nd.prims.length) = [0, 1, 2] :=
  exists_ok_of_eval (by decide +kernel)

/-- **C17**.  The statistics describe the tree in the node list: depth, leaves, branches, largest and smallest leaf.
(The smallest leaf starts at `2^32 - 1`, hence the bound on the size of the collection; the C++ counters are 32 bit
anyway.) -/
theorem C17_statistics_exact (part : StdPartition) (p : Collection T P) (o : BuildOptions)
    (nodes : List (Node T P)) (stats : Statistics) (h : build part p o [] = .ok (nodes, stats))
    (hsize : p.size < 2 ^ 32) (t : Tree T P) (ht : Represents nodes 0 t) :
    stats.maxTreeDepth = t.height ∧ stats.leafNodes = t.leaves.length ∧ stats.branchNodes = t.numBranches ∧
    ((∀ ps ∈ t.leaves, ps.length ≤ stats.maxPrims) ∧ ∃ ps ∈ t.leaves, ps.length = stats.maxPrims) ∧
    ((∀ ps ∈ t.leaves, stats.minPrims ≤ ps.length) ∧ ∃ ps ∈ t.leaves, ps.length = stats.minPrims) ∧
    stats.badSplits ≤ 3 * t.numBranches := by
  obtain ⟨t', bad, h1, hbad, h3⟩ := build_ok part p o [] _ h
  simp only [List.nil_append, List.length_nil, Prod.mk.injEq] at h3
  obtain ⟨rfl, rfl⟩ := h3
  have hocc := layout_occupies t' h1.axesOk [] []
  simp only [List.nil_append, List.append_nil, List.length_nil] at hocc
  obtain rfl := ht.unique hocc.represents
  obtain ⟨ps, hps⟩ : ∃ ps, ps ∈ t.leaves := List.exists_mem_of_length_pos t.leaves_length_pos
  obtain ⟨a1, a2, a3⟩ := foldl_max_spec t.leaves Statistics.init.maxPrims
  obtain ⟨b1, b2, b3⟩ := foldl_min_spec t.leaves Statistics.init.minPrims
  refine ⟨by simp [statsAfter, Statistics.init, Nat.max_def], by simp [statsAfter, Statistics.init],
    by simp [statsAfter, Statistics.init], ⟨a1, ?_⟩, ⟨b1, ?_⟩, by simpa [statsAfter, Statistics.init] using hbad⟩
  · rcases a3 with a3 | a3
    · refine ⟨ps, hps, ?_⟩
      have := a1 ps hps
      simp only [statsAfter]
      rw [a3] at this ⊢
      simp only [Statistics.init] at this ⊢
      omega
    · exact a3
  · rcases b3 with b3 | b3
    · refine ⟨ps, hps, ?_⟩
      have h5 := b1 ps hps
      simp only [statsAfter]
      rw [b3] at h5 ⊢
      simp only [Statistics.init, invalidId] at h5 ⊢
      obtain ⟨qs, hq1, hq2⟩ := h1.prims_perm
      have h6 := mapM_length _ _ _ hq1
      rw [← hq2.length_eq, List.length_range] at h6
      have h7 : ps.length ≤ t.prims.length := by
        unfold Tree.prims
        exact (List.sublist_flatten_of_mem hps).length_le
      omega
    · exact b3

example : ∃ out, build stablePartition sampleSpheres.toCollection smallOptions [] = .ok out ∧
    out.2 = ⟨2, 3, 1, 1, 2, 0⟩ :=
  exists_ok_of_eval (by decide +kernel)

/-- **C18**.  Node count: at most `2n-1` (so the reserved `2n` suffices) and `1` for an empty collection. -/
theorem C18_node_count (part : StdPartition) (p : Collection T P) (o : BuildOptions)
    (nodes : List (Node T P)) (stats : Statistics) (h : build part p o [] = .ok (nodes, stats)) :
    (1 ≤ o.minLeaf → 1 ≤ p.size → nodes.length ≤ 2 * p.size - 1) ∧ (p.size = 0 → nodes.length = 1) := by
  obtain ⟨t, bad, h1, _, h3⟩ := build_ok part p o [] _ h
  simp only [List.nil_append, List.length_nil, Prod.mk.injEq] at h3
  obtain ⟨rfl, rfl⟩ := h3
  rw [Tree.layout_length]
  constructor
  · intro ho hp
    have h5 := length_le_flatten_length _ (h1.leaves_nonempty ho (by rw [Ne, List.range_eq_nil]; omega))
    obtain ⟨qs, hq1, hq2⟩ := h1.prims_perm
    have h6 := mapM_length _ _ _ hq1
    rw [← hq2.length_eq, List.length_range] at h6
    have h7 := t.numNodes_eq
    unfold Tree.prims at h6
    omega
  · intro hp
    rw [hp] at h1
    cases h1 with
    | leaf => rfl
    | branch _ _ _ _ _ _ _ _ _ _ hn => simp at hn

/-- For `min_leaf_primitives = 0` the bound fails: splitting a single primitive gives an empty and a one-element leaf. -/
theorem C18_bound_needs_min_leaf : ∃ out, build stablePartition
    (SphereColl.toCollection ⟨[dvec 0 0 0], [dbl 1], [(dvec (-1) (-1) (-1), dvec 1 1 1)]⟩) ⟨0, 1, 2⟩ [] = .ok out ∧
    out.1.length = 3 :=
  exists_ok_of_eval (by decide +kernel)

end Blazert
