/- The builder once more, with counters of type `unsigned int` (32 bits) that wrap around, and the signed counter of `std::iota`.
`Model/Builder.lean` has natural numbers in their place; everything else is as there, and what contains no such counter is shared. -/
import Verif.Model.Builder

set_option autoImplicit false

namespace Blazert
open Scalar

/-- the value of an `unsigned int` -/
def u32 (n : Nat) : Nat := n % 2 ^ 32

section
variable {T P : Type} [Scalar T]

/-- One primitive's contribution (`blazert/bvh/binbuffer.h:79-91`); index and count are of type `unsigned int`. -/
def binPrimitive32 (p : Collection T P) (size : Nat) (mn inv : Vec3 T) (bins : List (Bin T)) (i : Nat) :
    Run (List (Bin T)) := do
  let b ← p.box i
  let c ← p.center i
  let normalized := Vec3.muls (Vec3.cmul (c - mn) inv) (nat (lastBin size))
  let step := fun (bins : List (Bin T)) (j : Fin 3) => do
    match roundU (normalized.get j) with
    | none => throw UB.badCast
    | some r =>
      let idx := Nat.min (lastBin size) r
      modifyBin bins (u32 (u32 (j.val * size) + idx)) fun bin =>
        let u := unity bin.min bin.max b.1 b.2
        { bin with count := u32 (bin.count + 1), min := u.1, max := u.2 }
  let bins ← step bins 0
  let bins ← step bins 1
  step bins 2

/-- `sort_collection_into_bins` (`blazert/bvh/binbuffer.h:66-95`); the constructor of `BinBuffer` computes `3 * size`
(`blazert/bvh/binbuffer.h:36-38`) as an `unsigned int`. -/
def sortIntoBins32 (p : Collection T P) (idx : List Nat) (mn mx : Vec3 T) (size : Nat) : Run (List (Bin T)) :=
  idx.foldlM (init := List.replicate (u32 (3 * size)) Bin.init) fun bins i =>
    binPrimitive32 p size mn (invSize mn mx) bins i

/-- Sweep left (`blazert/bvh/binbuffer.h:130-135`); the running count is a `size_t`. -/
def sweepLeft32 (j size : Nat) : Nat → Sweep T → List (Bin T) → Run (List (Bin T))
  | 0, _, bins => .ok bins
  | n + 1, s, bins => do
    let b ← lookup .oobBin bins (u32 (u32 (j * size) + (n + 1)))
    let s := s.add b
    let bins := bins.set (u32 (u32 (j * size) + (n + 1))) { b with cost := s.cost }
    sweepLeft32 j size n s bins

/-- Sweep right (`blazert/bvh/binbuffer.h:144-156`). -/
def sweepRight32 (j size : Nat) (bins : List (Bin T)) : Nat → Nat → Sweep T → T → Nat → Run (T × Nat)
  | 0, _, _, minCost, minBin => .ok (minCost, minBin)
  | n + 1, i, s, minCost, minBin => do
    let b ← lookup .oobBin bins (u32 (u32 (j * size) + i))
    let nb ← lookup .oobBin bins (u32 (u32 (u32 (j * size) + i) + 1))
    let s := s.add b
    let cost := s.cost + nb.cost
    if lt cost minCost then sweepRight32 j size bins n (u32 (i + 1)) s cost (u32 (i + 1))
    else sweepRight32 j size bins n (u32 (i + 1)) s minCost minBin

/-- Both sweeps and the cut position of one axis (`blazert/bvh/binbuffer.h:124-158`). -/
def bestSplitAxis32 (mn mx : Vec3 T) (size : Nat) (j : Fin 3) (bins : List (Bin T)) : Run (List (Bin T) × T × T) := do
  let bins ← sweepLeft32 j.val size (lastBin size) Sweep.init bins
  let (minCost, minBin) ← sweepRight32 j.val size bins (lastBin size) 0 Sweep.init maxVal 1
  let cut := nat minBin * ((mx.get j - mn.get j) / nat size) + mn.get j
  return (bins, minCost, cut)

/-- `find_best_split_binned` (`blazert/bvh/binbuffer.h:114-167`). -/
def findBestSplit32 (p : Collection T P) (idx : List Nat) (mn mx : Vec3 T) (size : Nat) : Run (Fin 3 × Vec3 T) := do
  let bins ← sortIntoBins32 p idx mn mx size
  let (bins, c0, p0) ← bestSplitAxis32 mn mx size 0 bins
  let (bins, c1, p1) ← bestSplitAxis32 mn mx size 1 bins
  let (_, c2, p2) ← bestSplitAxis32 mn mx size 2 bins
  let axis : Fin 3 := if lt c1 c0 then 1 else 0
  let cAxis := if lt c1 c0 then c1 else c0
  let axis : Fin 3 := if lt c2 cAxis then 2 else axis
  return (axis, ⟨p0, p1, p2⟩)

/-- `split` (`blazert/bvh/builder.h:202-226`); `bad_splits` is an `unsigned int` that is incremented at most three times. -/
def split32 (part : StdPartition) (p : Collection T P) (idx : List Nat) (mn mx : Vec3 T) (stats : Statistics)
    (o : BuildOptions) : Run (Fin 3 × List Nat × List Nat × Statistics) := do
  let (axis, cut) ← findBestSplit32 p idx mn mx o.binSize
  let (axis, l, r, bad) ← splitLoop part p cut 2 axis idx 0
  return (axis, l, r, { stats with badSplits := u32 (stats.badSplits + bad) })

/-- `create_branch` (`blazert/bvh/builder.h:169-183`). -/
def createBranch32 (part : StdPartition) (p : Collection T P) (idx : List Nat) (mn mx : Vec3 T) (stats : Statistics)
    (o : BuildOptions) : Run (Node T P × List Nat × List Nat × Statistics) := do
  let (axis, l, r, stats) ← split32 part p idx mn mx stats o
  return ({ min := mn, max := mx, leaf := false, axis := axis.val, child0 := invalidId, child1 := invalidId,
            prims := [] }, l, r, stats)

/-- `build_recursive` (`blazert/bvh/builder.h:85-115`): the offset of the node, the number of primitives, the depth and the
counters of the statistics are of type `unsigned int`. -/
def buildRecursive32 (part : StdPartition) (p : Collection T P) (o : BuildOptions) :
    Nat → Nat → List (Node T P) → List Nat → Statistics → Run (Nat × List (Node T P) × Statistics)
  | fuel, depth, nodes, idx, stats => do
    let offset := u32 nodes.length
    let stats := if stats.maxTreeDepth < depth then { stats with maxTreeDepth := depth } else stats
    let n := u32 idx.length
    let (mn, mx) ← computeBoundingBox p idx
    if n ≤ o.minLeaf ∨ depth ≥ o.maxDepth then
      let leaf ← createLeaf p idx mn mx
      let stats := stats.primitivesPerLeaf n
      return (offset, nodes ++ [leaf], { stats with leafNodes := u32 (stats.leafNodes + 1) })
    else
      match fuel with
      | 0 => throw UB.outOfFuel
      | fuel + 1 =>
        let (branch, l, r, stats) ← createBranch32 part p idx mn mx stats o
        let nodes := nodes ++ [branch]
        let stats := { stats with branchNodes := u32 (stats.branchNodes + 1) }
        let (c0, nodes, stats) ← buildRecursive32 part p o fuel (u32 (depth + 1)) nodes l stats
        let nodes ← modifyNode nodes offset fun nd => { nd with child0 := c0 }
        let (c1, nodes, stats) ← buildRecursive32 part p o fuel (u32 (depth + 1)) nodes r stats
        let nodes ← modifyNode nodes offset fun nd => { nd with child1 := c1 }
        return (offset, nodes, stats)

/-- `SAHBinnedBuilder::build` (`blazert/bvh/builder.h:48-65`).  `std::iota` (line 54) counts with an `int`, which is incremented once for
every primitive. -/
def build32 (part : StdPartition) (p : Collection T P) (o : BuildOptions) (nodes : List (Node T P)) :
    Run (List (Node T P) × Statistics) := do
  if 2 ^ 31 ≤ p.size then throw UB.signedOverflow
  let (_, nodes, stats) ← buildRecursive32 part p o o.maxDepth 0 nodes (List.range p.size) Statistics.init
  return (nodes, stats)

end
end Blazert
