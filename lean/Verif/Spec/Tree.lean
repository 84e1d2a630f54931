/- Specification vocabulary: mathematical bounding volume trees and what it means for a node list to store one.
Nothing here refers to how blazert builds or traverses. -/
import Verif.Model.Builder

set_option autoImplicit false

namespace Blazert

/-- A binary bounding volume tree: every node has a box, leaves hold primitives, branches have a split axis. -/
inductive Tree (T P : Type) where
  | leaf (mn mx : Vec3 T) (prims : List P)
  | branch (mn mx : Vec3 T) (axis : Nat) (left right : Tree T P)

namespace Tree
variable {T P : Type}

/-- the box of the root -/
def box : Tree T P → Vec3 T × Vec3 T
  | leaf mn mx _ => (mn, mx)
  | branch mn mx _ _ _ => (mn, mx)

/-- number of nodes -/
def numNodes : Tree T P → Nat
  | leaf _ _ _ => 1
  | branch _ _ _ l r => 1 + l.numNodes + r.numNodes

/-- number of edges on a longest path from the root -/
def height : Tree T P → Nat
  | leaf _ _ _ => 0
  | branch _ _ _ l r => 1 + Nat.max l.height r.height

/-- the primitive lists of the leaves, left to right -/
def leaves : Tree T P → List (List P)
  | leaf _ _ ps => [ps]
  | branch _ _ _ l r => l.leaves ++ r.leaves

/-- the leaves with their depth (root at depth `d`) -/
def leavesAt : Nat → Tree T P → List (Nat × List P)
  | d, leaf _ _ ps => [(d, ps)]
  | d, branch _ _ _ l r => leavesAt (d + 1) l ++ leavesAt (d + 1) r

/-- number of branch nodes -/
def numBranches : Tree T P → Nat
  | leaf _ _ _ => 0
  | branch _ _ _ l r => 1 + l.numBranches + r.numBranches

/-- all primitives, left to right -/
def prims (t : Tree T P) : List P := t.leaves.flatten

/-- all subtrees, including the tree itself -/
def subtrees : Tree T P → List (Tree T P)
  | leaf mn mx ps => [leaf mn mx ps]
  | branch mn mx a l r => branch mn mx a l r :: (l.subtrees ++ r.subtrees)

end Tree

variable {T P : Type}

/-- `Represents nodes i t`: the node list `nodes` stores the tree `t` with root index `i`, following the child
indices. -/
def Represents (nodes : List (Node T P)) : Nat → Tree T P → Prop
  | i, .leaf mn mx ps => ∃ nd, nodes[i]? = some nd ∧ nd.leaf = true ∧ nd.min = mn ∧ nd.max = mx ∧ nd.prims = ps
  | i, .branch mn mx ax l r =>
    ∃ nd, nodes[i]? = some nd ∧ nd.leaf = false ∧ nd.min = mn ∧ nd.max = mx ∧ nd.axis = ax ∧ ax < 3 ∧
      Represents nodes nd.child0 l ∧ Represents nodes nd.child1 r

/-- `Occupies nodes i t k`: like `Represents`, and moreover the tree occupies exactly the indices `i, ..., k-1`, each
exactly once (depth-first layout). -/
def Occupies (nodes : List (Node T P)) : Nat → Tree T P → Nat → Prop
  | i, .leaf mn mx ps, k =>
    (∃ nd, nodes[i]? = some nd ∧ nd.leaf = true ∧ nd.min = mn ∧ nd.max = mx ∧ nd.prims = ps) ∧ k = i + 1
  | i, .branch mn mx ax l r, k =>
    ∃ nd, nodes[i]? = some nd ∧ nd.leaf = false ∧ nd.min = mn ∧ nd.max = mx ∧ nd.axis = ax ∧ ax < 3 ∧
      nd.child0 = i + 1 ∧ Occupies nodes (i + 1) l nd.child1 ∧ Occupies nodes nd.child1 r k

end Blazert
