/- The node-list builder refines a tree builder. -/
import Verif.Proofs.Basic
import Verif.Spec.Tree

set_option autoImplicit false

namespace Blazert

variable {T P : Type}

namespace Tree

/-- the depth-first layout produced by `build_recursive` -/
def layout : Nat → Tree T P → List (Node T P)
  | _, leaf mn mx ps =>
    [{ min := mn, max := mx, leaf := true, axis := invalidId, child0 := invalidId, child1 := invalidId, prims := ps }]
  | off, branch mn mx ax l r =>
    { min := mn, max := mx, leaf := false, axis := ax, child0 := off + 1, child1 := off + 1 + l.numNodes, prims := [] }
      :: (layout (off + 1) l ++ layout (off + 1 + l.numNodes) r)

@[simp] theorem layout_length (t : Tree T P) (off : Nat) : (t.layout off).length = t.numNodes := by
  induction t generalizing off with
  | leaf => rfl
  | branch mn mx ax l r ihl ihr => simp [layout, numNodes, ihl, ihr]; omega

/-- every branch has a valid axis -/
def AxesOk : Tree T P → Prop
  | leaf _ _ _ => True
  | branch _ _ ax l r => ax < 3 ∧ l.AxesOk ∧ r.AxesOk

theorem leaves_length_pos (t : Tree T P) : 0 < t.leaves.length := by
  induction t with
  | leaf => simp [leaves]
  | branch mn mx ax l r ihl _ => simp [leaves]; omega

theorem numNodes_pos (t : Tree T P) : 0 < t.numNodes := by cases t <;> simp [numNodes]; omega

theorem numNodes_eq (t : Tree T P) : t.numNodes + 1 = 2 * t.leaves.length := by
  induction t with
  | leaf => simp [numNodes, leaves]
  | branch mn mx ax l r ihl ihr => simp [numNodes, leaves]; omega

theorem numBranches_eq (t : Tree T P) : t.numBranches + 1 = t.leaves.length := by
  induction t with
  | leaf => simp [numBranches, leaves]
  | branch mn mx ax l r ihl ihr => simp [numBranches, leaves]; omega

theorem leavesAt_map (t : Tree T P) (d : Nat) : (t.leavesAt d).map Prod.snd = t.leaves := by
  induction t generalizing d with
  | leaf => rfl
  | branch mn mx ax l r ihl ihr => simp [leavesAt, leaves, ihl, ihr]

theorem leavesAt_depth (t : Tree T P) (d : Nat) : ∀ x ∈ t.leavesAt d, d ≤ x.1 ∧ x.1 ≤ d + t.height := by
  induction t generalizing d with
  | leaf => simp [leavesAt, height]
  | branch mn mx ax l r ihl ihr =>
    intro x hx
    simp only [leavesAt, List.mem_append] at hx
    simp only [height, Nat.max_def]
    rcases hx with hx | hx
    · have := ihl _ x hx; split <;> omega
    · have := ihr _ x hx; split <;> omega

end Tree

theorem Represents.append {nodes : List (Node T P)} {i : Nat} {t : Tree T P} (h : Represents nodes i t)
    (more : List (Node T P)) : Represents (nodes ++ more) i t := by
  induction t generalizing i with
  | leaf mn mx ps =>
    obtain ⟨nd, h1, h2⟩ := h
    exact ⟨nd, by rw [List.getElem?_append_left (List.getElem?_eq_some_iff.1 h1).1]; exact h1, h2⟩
  | branch mn mx ax l r ihl ihr =>
    obtain ⟨nd, h1, h2, h3, h4, h5, h6, h7, h8⟩ := h
    exact ⟨nd, by rw [List.getElem?_append_left (List.getElem?_eq_some_iff.1 h1).1]; exact h1, h2, h3, h4, h5, h6,
      ihl h7, ihr h8⟩

theorem Occupies.represents {nodes : List (Node T P)} {i k : Nat} {t : Tree T P} (h : Occupies nodes i t k) :
    Represents nodes i t := by
  induction t generalizing i k with
  | leaf mn mx ps => exact h.1
  | branch mn mx ax l r ihl ihr =>
    obtain ⟨nd, h1, h2, h3, h4, h5, h6, h7, h8, h9⟩ := h
    exact ⟨nd, h1, h2, h3, h4, h5, h6, h7 ▸ ihl h8, ihr h9⟩

theorem Occupies.eq_add {nodes : List (Node T P)} {i k : Nat} {t : Tree T P} (h : Occupies nodes i t k) :
    k = i + t.numNodes := by
  induction t generalizing i k with
  | leaf mn mx ps => exact h.2
  | branch mn mx ax l r ihl ihr =>
    obtain ⟨nd, h1, h2, h3, h4, h5, h6, h7, h8, h9⟩ := h
    have := ihl h8; have := ihr h9
    simp [Tree.numNodes]; omega

theorem layout_occupies (t : Tree T P) (h : t.AxesOk) (pre post : List (Node T P)) :
    Occupies (pre ++ t.layout pre.length ++ post) pre.length t (pre.length + t.numNodes) := by
  induction t generalizing pre post with
  | leaf mn mx ps =>
    refine ⟨⟨⟨mn, mx, true, invalidId, invalidId, invalidId, ps⟩, ?_, rfl, rfl, rfl, rfl⟩, rfl⟩
    simp [Tree.layout]
  | branch mn mx ax l r ihl ihr =>
    obtain ⟨h0, hl, hr⟩ := h
    refine ⟨⟨mn, mx, false, ax, pre.length + 1, pre.length + 1 + l.numNodes, []⟩, by simp [Tree.layout], rfl, rfl, rfl,
      rfl, h0, rfl, ?_, ?_⟩
    · have := ihl hl (pre ++ [{ min := mn, max := mx, leaf := false, axis := ax, child0 := pre.length + 1, child1 := pre.length + 1 + l.numNodes, prims := [] }]) (r.layout (pre.length + 1 + l.numNodes) ++ post)
      simpa [Tree.layout, List.append_assoc] using this
    · have := ihr hr (pre ++ [{ min := mn, max := mx, leaf := false, axis := ax, child0 := pre.length + 1, child1 := pre.length + 1 + l.numNodes, prims := [] }] ++ l.layout (pre.length + 1)) post
      simp only [List.length_append, List.length_cons, List.length_nil, Tree.layout_length, Nat.zero_add] at this
      have e : pre.length + (Tree.branch mn mx ax l r).numNodes = pre.length + 1 + l.numNodes + r.numNodes := by
        simp [Tree.numNodes]; omega
      rw [e]
      simpa [Tree.layout, List.append_assoc] using this

set_option linter.unusedSectionVars false
variable [Scalar T]

/-- Tree-building counterpart of `build_recursive`: the tree and the number of bad splits. -/
def buildTree (part : StdPartition) (p : Collection T P) (o : BuildOptions) :
    Nat → Nat → List Nat → Run (Tree T P × Nat)
  | fuel, depth, idx => do
    let (mn, mx) ← computeBoundingBox p idx
    if idx.length ≤ o.minLeaf ∨ depth ≥ o.maxDepth then
      let prims ← idx.mapM p.prim
      return (.leaf mn mx prims, 0)
    else
      match fuel with
      | 0 => throw UB.outOfFuel
      | fuel + 1 =>
        let (axis, cut) ← findBestSplit p idx mn mx o.binSize
        let (axis, l, r, bad) ← splitLoop part p cut 2 axis idx 0
        let (tl, b1) ← buildTree part p o fuel (depth + 1) l
        let (tr, b2) ← buildTree part p o fuel (depth + 1) r
        return (.branch mn mx axis.val tl tr, bad + b1 + b2)

/-- update of the statistics by a finished subtree -/
def statsAfter (t : Tree T P) (depth bad : Nat) (s : Statistics) : Statistics where
  maxTreeDepth := Nat.max s.maxTreeDepth (depth + t.height)
  leafNodes := s.leafNodes + t.leaves.length
  maxPrims := t.leaves.foldl (fun m ps => Nat.max ps.length m) s.maxPrims
  minPrims := t.leaves.foldl (fun m ps => Nat.min ps.length m) s.minPrims
  branchNodes := s.branchNodes + t.numBranches
  badSplits := s.badSplits + bad

theorem statsAfter_leaf (mn mx : Vec3 T) (ps : List P) (depth n : Nat) (hn : ps.length = n) (s : Statistics) :
    statsAfter (.leaf mn mx ps) depth 0 s =
      (let s := if s.maxTreeDepth < depth then { s with maxTreeDepth := depth } else s
       let s := s.primitivesPerLeaf n
       { s with leafNodes := s.leafNodes + 1 }) := by
  subst hn
  by_cases h : s.maxTreeDepth < depth
  · simp [statsAfter, Tree.height, Tree.leaves, Tree.numBranches, Statistics.primitivesPerLeaf, h, Nat.max_def]
    omega
  · simp [statsAfter, Tree.height, Tree.leaves, Tree.numBranches, Statistics.primitivesPerLeaf, h, Nat.max_def]
    omega

theorem statsAfter_branch (mn mx : Vec3 T) (ax : Nat) (l r : Tree T P) (depth bad b1 b2 : Nat) (s : Statistics) :
    statsAfter (.branch mn mx ax l r) depth (bad + b1 + b2) s =
      statsAfter r (depth + 1) b2 (statsAfter l (depth + 1) b1
        (let s := if s.maxTreeDepth < depth then { s with maxTreeDepth := depth } else s
         let s := { s with badSplits := s.badSplits + bad }
         { s with branchNodes := s.branchNodes + 1 })) := by
  by_cases h : s.maxTreeDepth < depth
  · simp [statsAfter, Tree.height, Tree.leaves, Tree.numBranches, h, Nat.max_def]
    refine ⟨?_, by omega, by omega, by omega⟩
    split_ifs <;> omega
  · simp [statsAfter, Tree.height, Tree.leaves, Tree.numBranches, h, Nat.max_def]
    refine ⟨?_, by omega, by omega, by omega⟩
    split_ifs <;> omega

theorem modifyNode_append (nodes more : List (Node T P)) (nd : Node T P) (f : Node T P → Node T P) :
    modifyNode (nodes ++ [nd] ++ more) nodes.length f = .ok (nodes ++ [f nd] ++ more) := by
  unfold modifyNode
  rw [lookup_ok_of_lt (by simp)]
  simp

theorem buildRecursive_eq (part : StdPartition) (p : Collection T P) (o : BuildOptions) (fuel depth : Nat)
    (nodes : List (Node T P)) (idx : List Nat) (s : Statistics) :
    buildRecursive part p o fuel depth nodes idx s =
      (do let (t, bad) ← buildTree part p o fuel depth idx
          return (nodes.length, nodes ++ t.layout nodes.length, statsAfter t depth bad s)) := by
  have leafCase : ∀ (depth : Nat) (nodes : List (Node T P)) (idx : List Nat) (s : Statistics) (b : Vec3 T × Vec3 T),
      (do let leaf ← createLeaf p idx b.1 b.2
          let stats := (if s.maxTreeDepth < depth then { s with maxTreeDepth := depth } else s).primitivesPerLeaf idx.length
          return (nodes.length, nodes ++ [leaf], { stats with leafNodes := stats.leafNodes + 1 }) : Run _) =
      (do let (t, bad) ← (do let prims ← idx.mapM p.prim
                             return (Tree.leaf b.1 b.2 prims, 0) : Run (Tree T P × Nat))
          return (nodes.length, nodes ++ t.layout nodes.length, statsAfter t depth bad s)) := by
    intro depth nodes idx s b
    simp only [createLeaf]
    cases hp : idx.mapM p.prim with
    | error e => simp
    | ok ps =>
      have := mapM_length _ _ _ hp
      simp [Tree.layout, statsAfter_leaf _ _ _ _ _ this]
  induction fuel generalizing depth nodes idx s with
  | zero =>
    unfold buildRecursive buildTree
    cases hb : computeBoundingBox p idx with
    | error e => simp
    | ok b =>
      simp only [run_bind_ok]
      split
      · exact leafCase depth nodes idx s b
      · simp
  | succ fuel ih =>
    unfold buildRecursive buildTree
    cases hb : computeBoundingBox p idx with
    | error e => simp
    | ok b =>
      simp only [run_bind_ok]
      split
      · exact leafCase depth nodes idx s b
      · simp only [createBranch, split]
        cases hf : findBestSplit p idx b.1 b.2 o.binSize with
        | error e => simp
        | ok ac =>
          simp only [run_bind_ok]
          cases hs : splitLoop part p ac.2 2 ac.1 idx 0 with
          | error e => simp
          | ok q =>
            simp only [run_bind_ok, run_pure]
            rw [ih]
            · cases hl : buildTree part p o fuel (depth + 1) q.2.1 with
              | error e => simp
              | ok tl =>
                simp only [run_bind_ok, run_pure]
                rw [modifyNode_append]
                simp only [run_bind_ok]
                rw [ih]
                · cases hr : buildTree part p o fuel (depth + 1) q.2.2.1 with
                  | error e => simp
                  | ok tr =>
                    simp only [run_bind_ok, run_pure]
                    rw [List.append_assoc (nodes ++ _), modifyNode_append]
                    simp only [run_bind_ok, statsAfter_branch]
                    simp [Tree.layout, Nat.add_assoc, Nat.add_comm]
end Blazert
