/- Model of the BVH data structure and its builder:
`blazert/bvh/{node,options,statistics,bbox,binbuffer,builder}.h`. -/
import Verif.Model.Datatypes

set_option autoImplicit false

namespace Blazert
open Scalar

/-- What the builder uses of a primitive collection (`SphereCollection`, `PlaneCollection`, `TriangleMesh`,
`CylinderCollection`): `size()`, `get_primitive_bounding_box(i)`, `get_primitive_center(i)` and the free function
`primitive_from_collection(collection, i)`.  An index that is out of range is undefined behaviour. -/
structure Collection (T P : Type) where
  size : Nat
  box : Nat → Run (Vec3 T × Vec3 T)
  center : Nat → Run (Vec3 T)
  prim : Nat → Run P

/-- `BVHBuildOptions<T>` (`blazert/bvh/options.h:14-30`). -/
structure BuildOptions where
  minLeaf : Nat
  maxDepth : Nat
  binSize : Nat
  deriving DecidableEq, Repr

/-- `BLAZERT_MAX_TREE_DEPTH` (`blazert/defines.h`): also the capacity of the traversal stack. -/
def maxTreeDepth : Nat := 28

/-- default arguments of the `BVHBuildOptions` constructor (`blazert/bvh/options.h:21-22`) -/
def BuildOptions.default : BuildOptions := ⟨4, maxTreeDepth, 64⟩

/-- `BVHBuildStatistics<T>` (`blazert/bvh/statistics.h:10-37`), without the timing. -/
structure Statistics where
  maxTreeDepth : Nat
  leafNodes : Nat
  maxPrims : Nat
  minPrims : Nat
  branchNodes : Nat
  badSplits : Nat
  deriving DecidableEq, Repr

/-- The `BVHBuildStatistics` constructor (`blazert/bvh/statistics.h:25-27`). -/
def Statistics.init : Statistics := ⟨0, 0, 0, invalidId, 0, 0⟩

/-- `primitives_per_leaf` (`blazert/bvh/statistics.h:33-36`). -/
def Statistics.primitivesPerLeaf (s : Statistics) (prims : Nat) : Statistics :=
  { s with maxPrims := Nat.max prims s.maxPrims, minPrims := Nat.min prims s.minPrims }

/-- `BVHNode<T, Collection>` (`blazert/bvh/node.h:15-49`). -/
structure Node (T P : Type) where
  min : Vec3 T
  max : Vec3 T
  leaf : Bool
  axis : Nat
  child0 : Nat
  child1 : Nat
  prims : List P
  deriving DecidableEq, Repr

section
variable {T P : Type} [Scalar T]

/-- `compute_bounding_box` (`blazert/bvh/bbox.h:28-39`). -/
def computeBoundingBox (p : Collection T P) (idx : List Nat) : Run (Vec3 T × Vec3 T) :=
  idx.foldlM (init := (Vec3.const maxVal, Vec3.const (-maxVal))) fun acc i => do
    let b ← p.box i
    return unity acc.1 acc.2 b.1 b.2

/-! ### Binning (`blazert/bvh/binbuffer.h`) -/

/-- `calculate_box_surface` (`blazert/bvh/binbuffer.h:16-19`). -/
def boxSurface (mn mx : Vec3 T) : T :=
  let box := Vec3.abs (mx - mn)
  nat 2 * (box.x * box.y + box.y * box.z + box.z * box.x)

/-- `struct Bin` (`blazert/bvh/binbuffer.h:22-32`). -/
structure Bin (T : Type) where
  min : Vec3 T
  max : Vec3 T
  count : Nat
  cost : T
  deriving DecidableEq, Repr

/-- The `Bin` constructor (`blazert/bvh/binbuffer.h:28`). -/
def Bin.init : Bin T := ⟨Vec3.const maxVal, Vec3.const (-maxVal), 0, nat 0⟩

/-- `bins.bin[i]` used as an in/out reference: read, update, write back. -/
def modifyBin (bins : List (Bin T)) (i : Nat) (f : Bin T → Bin T) : Run (List (Bin T)) := do
  let b ← lookup .oobBin bins i
  return bins.set i (f b)

/-- The `unsigned int` value of `bins.size - 1` (`blazert/bvh/binbuffer.h:83,87,130,144`); for `bins.size = 0` it wraps
around. -/
def lastBin (size : Nat) : Nat := if size = 0 then 2 ^ 32 - 1 else size - 1

/-- One primitive's contribution (`blazert/bvh/binbuffer.h:79-91`). -/
def binPrimitive (p : Collection T P) (size : Nat) (mn inv : Vec3 T) (bins : List (Bin T)) (i : Nat) :
    Run (List (Bin T)) := do
  let b ← p.box i
  let c ← p.center i
  let normalized := Vec3.muls (Vec3.cmul (c - mn) inv) (nat (lastBin size))
  let step := fun (bins : List (Bin T)) (j : Fin 3) => do
    match roundU (normalized.get j) with
    | none => throw UB.badCast
    | some r =>
      let idx := Nat.min (lastBin size) r
      modifyBin bins (j.val * size + idx) fun bin =>
        let u := unity bin.min bin.max b.1 b.2
        { bin with count := bin.count + 1, min := u.1, max := u.2 }
  let bins ← step bins 0
  let bins ← step bins 1
  step bins 2

/-- `inv_size` (`blazert/bvh/binbuffer.h:71-75`). -/
def invSize (mn mx : Vec3 T) : Vec3 T :=
  Vec3.map (fun s => if lt (nat 0) s then (nat 1 : T) / s else nat 0) (mx - mn)

/-- `sort_collection_into_bins` (`blazert/bvh/binbuffer.h:66-95`). -/
def sortIntoBins (p : Collection T P) (idx : List Nat) (mn mx : Vec3 T) (size : Nat) : Run (List (Bin T)) :=
  idx.foldlM (init := List.replicate (3 * size) Bin.init) fun bins i =>
    binPrimitive p size mn (invSize mn mx) bins i

/-- State of the sweeps over the bins of one axis. -/
structure Sweep (T : Type) where
  count : Nat
  min : Vec3 T
  max : Vec3 T

/-- start of a sweep (`blazert/bvh/binbuffer.h:126-128`, `138-140`) -/
def Sweep.init : Sweep T := ⟨0, Vec3.const maxVal, Vec3.const (-maxVal)⟩

/-- accumulate one bin (`blazert/bvh/binbuffer.h:132-133`, `147-148`) -/
def Sweep.add (s : Sweep T) (b : Bin T) : Sweep T :=
  let u := unity s.min s.max b.min b.max
  ⟨s.count + b.count, u.1, u.2⟩

/-- `static_cast<T>(count) * calculate_box_surface(min_, max_)` (`blazert/bvh/binbuffer.h:134,149`) -/
def Sweep.cost (s : Sweep T) : T := nat s.count * boxSurface s.min s.max

/-- Sweep left (`blazert/bvh/binbuffer.h:130-135`): `n` is the number of iterations left, the current bin is `i = n`. -/
def sweepLeft (j size : Nat) : Nat → Sweep T → List (Bin T) → Run (List (Bin T))
  | 0, _, bins => .ok bins
  | n + 1, s, bins => do
    let b ← lookup .oobBin bins (j * size + (n + 1))
    let s := s.add b
    let bins := bins.set (j * size + (n + 1)) { b with cost := s.cost }
    sweepLeft j size n s bins

/-- Sweep right (`blazert/bvh/binbuffer.h:144-156`): `n` iterations left, current bin `i`. -/
def sweepRight (j size : Nat) (bins : List (Bin T)) : Nat → Nat → Sweep T → T → Nat → Run (T × Nat)
  | 0, _, _, minCost, minBin => .ok (minCost, minBin)
  | n + 1, i, s, minCost, minBin => do
    let b ← lookup .oobBin bins (j * size + i)
    let nb ← lookup .oobBin bins (j * size + i + 1)
    let s := s.add b
    let cost := s.cost + nb.cost
    if lt cost minCost then sweepRight j size bins n (i + 1) s cost (i + 1)
    else sweepRight j size bins n (i + 1) s minCost minBin

/-- Both sweeps and the cut position of one axis (`blazert/bvh/binbuffer.h:124-158`).  Returns the bins, `min_cost[j]`
and `cut_pos[j]`. -/
def bestSplitAxis (mn mx : Vec3 T) (size : Nat) (j : Fin 3) (bins : List (Bin T)) : Run (List (Bin T) × T × T) := do
  let bins ← sweepLeft j.val size (lastBin size) Sweep.init bins
  let (minCost, minBin) ← sweepRight j.val size bins (lastBin size) 0 Sweep.init maxVal 1
  let cut := nat minBin * ((mx.get j - mn.get j) / nat size) + mn.get j
  return (bins, minCost, cut)

/-- `find_best_split_binned` (`blazert/bvh/binbuffer.h:114-167`). -/
def findBestSplit (p : Collection T P) (idx : List Nat) (mn mx : Vec3 T) (size : Nat) : Run (Fin 3 × Vec3 T) := do
  let bins ← sortIntoBins p idx mn mx size
  let (bins, c0, p0) ← bestSplitAxis mn mx size 0 bins
  let (bins, c1, p1) ← bestSplitAxis mn mx size 1 bins
  let (_, c2, p2) ← bestSplitAxis mn mx size 2 bins
  let axis : Fin 3 := if lt c1 c0 then 1 else 0
  let cAxis := if lt c1 c0 then c1 else c0
  let axis : Fin 3 := if lt c2 cAxis then 2 else axis
  return (axis, ⟨p0, p1, p2⟩)

/-! ### Splitting and building (`blazert/bvh/builder.h`) -/

/-- Any implementation of `std::partition` on a range of indices, each with the (already evaluated) value of the
predicate.  The C++ standard only promises that the range is permuted so that the elements satisfying the predicate
come first; `run` returns the two parts. -/
structure StdPartition where
  run : List (Nat × Bool) → List (Nat × Bool) × List (Nat × Bool)
  perm : ∀ l, ((run l).1 ++ (run l).2).Perm l
  fst_true : ∀ l, ∀ x ∈ (run l).1, x.2 = true
  snd_false : ∀ l, ∀ x ∈ (run l).2, x.2 = false

/-- Evaluation of the split predicate (`blazert/bvh/builder.h:213-215`), once per index. -/
def splitKeys (p : Collection T P) (cut : Vec3 T) (axis : Fin 3) (idx : List Nat) : Run (List (Nat × Bool)) :=
  idx.mapM fun i => do
    let c ← p.center i
    return (i, lt (c.get axis) (cut.get axis))

/-- The loop of `split` (`blazert/bvh/builder.h:211-224`), `tries` iterations left.  Returns the axis, the two parts of
the (permuted) index range and the number of bad splits. -/
def splitLoop (part : StdPartition) (p : Collection T P) (cut : Vec3 T) :
    Nat → Fin 3 → List Nat → Nat → Run (Fin 3 × List Nat × List Nat × Nat)
  | tries, axis, idx, bad => do
    let keys ← splitKeys p cut axis idx
    let (l, r) := part.run keys
    let l := l.map Prod.fst
    let r := r.map Prod.fst
    if l.length = 0 ∨ r.length = 0 then
      let all := l ++ r
      match tries with
      | 0 => return (axis + 1, all.take (all.length / 2), all.drop (all.length / 2), bad + 1)
      | t + 1 => splitLoop part p cut t (axis + 1) all (bad + 1)
    else
      return (axis, l, r, bad)

/-- `split` (`blazert/bvh/builder.h:202-226`).  The loop counter `2` stands for three iterations. -/
def split (part : StdPartition) (p : Collection T P) (idx : List Nat) (mn mx : Vec3 T) (stats : Statistics)
    (o : BuildOptions) : Run (Fin 3 × List Nat × List Nat × Statistics) := do
  let (axis, cut) ← findBestSplit p idx mn mx o.binSize
  let (axis, l, r, bad) ← splitLoop part p cut 2 axis idx 0
  return (axis, l, r, { stats with badSplits := stats.badSplits + bad })

/-- `create_leaf` (`blazert/bvh/builder.h:134-148`).  Fields that are not assigned keep the values of the `BVHNode`
constructor (`blazert/bvh/node.h:20-22`). -/
def createLeaf (p : Collection T P) (idx : List Nat) (mn mx : Vec3 T) : Run (Node T P) := do
  let prims ← idx.mapM p.prim
  return { min := mn, max := mx, leaf := true, axis := invalidId, child0 := invalidId, child1 := invalidId, prims }

/-- `create_branch` (`blazert/bvh/builder.h:169-183`). -/
def createBranch (part : StdPartition) (p : Collection T P) (idx : List Nat) (mn mx : Vec3 T) (stats : Statistics)
    (o : BuildOptions) : Run (Node T P × List Nat × List Nat × Statistics) := do
  let (axis, l, r, stats) ← split part p idx mn mx stats o
  return ({ min := mn, max := mx, leaf := false, axis := axis.val, child0 := invalidId, child1 := invalidId,
            prims := [] }, l, r, stats)

/-- `nodes[offset]` as an lvalue -/
def modifyNode (nodes : List (Node T P)) (i : Nat) (f : Node T P → Node T P) : Run (List (Node T P)) := do
  let n ← lookup .oobNode nodes i
  return nodes.set i (f n)

/-- `build_recursive` (`blazert/bvh/builder.h:85-115`).  The first argument bounds the recursion depth of the model; it
is started with `max_tree_depth` and proved never to run out (the C++ recursion stops at `depth >= max_tree_depth`). -/
def buildRecursive (part : StdPartition) (p : Collection T P) (o : BuildOptions) :
    Nat → Nat → List (Node T P) → List Nat → Statistics → Run (Nat × List (Node T P) × Statistics)
  | fuel, depth, nodes, idx, stats => do
    let offset := nodes.length
    let stats := if stats.maxTreeDepth < depth then { stats with maxTreeDepth := depth } else stats
    let n := idx.length
    let (mn, mx) ← computeBoundingBox p idx
    if n ≤ o.minLeaf ∨ depth ≥ o.maxDepth then
      let leaf ← createLeaf p idx mn mx
      let stats := stats.primitivesPerLeaf n
      return (offset, nodes ++ [leaf], { stats with leafNodes := stats.leafNodes + 1 })
    else
      match fuel with
      | 0 => throw UB.outOfFuel
      | fuel + 1 =>
        let (branch, l, r, stats) ← createBranch part p idx mn mx stats o
        let nodes := nodes ++ [branch]
        let stats := { stats with branchNodes := stats.branchNodes + 1 }
        let (c0, nodes, stats) ← buildRecursive part p o fuel (depth + 1) nodes l stats
        let nodes ← modifyNode nodes offset fun nd => { nd with child0 := c0 }
        let (c1, nodes, stats) ← buildRecursive part p o fuel (depth + 1) nodes r stats
        let nodes ← modifyNode nodes offset fun nd => { nd with child1 := c1 }
        return (offset, nodes, stats)

/-- `SAHBinnedBuilder::build` (`blazert/bvh/builder.h:48-65`): appends the new tree to the nodes already present. -/
def build (part : StdPartition) (p : Collection T P) (o : BuildOptions) (nodes : List (Node T P)) :
    Run (List (Node T P) × Statistics) := do
  let (_, nodes, stats) ← buildRecursive part p o o.maxDepth 0 nodes (List.range p.size) Statistics.init
  return (nodes, stats)

end
end Blazert
