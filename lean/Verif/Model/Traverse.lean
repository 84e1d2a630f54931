/- Model of `blazert/bvh/intersect.h` and `traverse` in `blazert/bvh/accel.h`. -/
import Verif.Model.Builder

set_option autoImplicit false

namespace Blazert
open Scalar

/-- What traversal uses of a primitive's intersector class (`SphereIntersector` etc.), as a state `I`:
`prepare_traversal`, `intersect_primitive`, the member `hit_distance`, and `post_traversal`. -/
structure Intersector (T P I : Type) where
  prepare : Ray T → I
  isect : I → P → Ray T → I × Bool
  hitDistance : I → T
  post : I → RayHit T → Run (RayHit T)

section
variable {T P I : Type} [Scalar T]

/-- the slack factor `l1` (`blazert/bvh/intersect.h:37`) -/
def slabSlack : T := nat 1 + nat 4 * eps

/-- One iteration of the loop in `intersect_node` (`blazert/bvh/intersect.h:40-49`). -/
def slabStep (node : Node T P) (ray : Ray T) (acc : T × T) (i : Fin 3) : T × T :=
  let neg := ray.directionSign.get i ≠ 0
  let min_ := if neg then node.max.get i else node.min.get i
  let max_ := if neg then node.min.get i else node.max.get i
  let min_ := (min_ - ray.origin.get i) * ray.directionInv.get i
  let max_ := (max_ - ray.origin.get i) * ray.directionInv.get i * slabSlack
  (Scalar.max min_ acc.1, Scalar.min max_ acc.2)

/-- `intersect_node` (`blazert/bvh/intersect.h:33-51`). -/
def intersectNode (minDistance maxDistance : T) (node : Node T P) (ray : Ray T) : Bool :=
  let r := slabStep node ray (slabStep node ray (slabStep node ray (minDistance, maxDistance) 0) 1) 2
  le r.1 r.2

/-- `intersect_leaf` (`blazert/bvh/intersect.h:67-78`), for the remaining primitives and the value of `hit` so far. -/
def intersectLeaf (ix : Intersector T P I) (ray : Ray T) : List P → I → Bool → I × Bool
  | [], s, hit => (s, hit)
  | p :: ps, s, hit =>
    let (s, h) := ix.isect s p ray
    let hit := hit || h
    if hit && ray.anyHit then (s, hit) else intersectLeaf ix ray ps s hit

/-- State of the traversal loop: the node stack, the local `hit_distance`, the intersector. -/
structure TState (T I : Type) where
  stack : Stack
  hd : T
  isect : I

/-- One iteration of the `while` loop of `traverse` (`blazert/bvh/accel.h:88-112`); `true` in the result means
`break`. -/
def traverseStep (ix : Intersector T P I) (nodes : List (Node T P)) (ray : Ray T) (st : TState T I) :
    Run (TState T I × Bool) := do
  let top ← st.stack.back
  let node ← lookup .oobNode nodes top
  let stack ← st.stack.pop
  if intersectNode ray.minHit st.hd node ray then
    if !node.leaf then
      let near ← ray.directionSign.get? node.axis
      let stack ← stack.push (if near = 0 then node.child1 else node.child0)
      let stack ← stack.push (if near = 0 then node.child0 else node.child1)
      return ({ st with stack }, false)
    else
      let (s, hit) := intersectLeaf ix ray node.prims st.isect false
      if hit then return ({ stack, hd := ix.hitDistance s, isect := s }, ray.anyHit)
      else return ({ st with stack, isect := s }, false)
  else
    return ({ st with stack }, false)

/-- The `while` loop of `traverse` (`blazert/bvh/accel.h:88-113`) with fuel. -/
def traverseLoop (ix : Intersector T P I) (nodes : List (Node T P)) (ray : Ray T) :
    Nat → TState T I → Run I
  | fuel, st =>
    if st.stack.size > 0 then
      match fuel with
      | 0 => .error .outOfFuel
      | fuel + 1 => do
        let (st, brk) ← traverseStep ix nodes ray st
        if brk then return st.isect else traverseLoop ix nodes ray fuel st
    else .ok st.isect

/-- The stack and locals at the start of the loop (`blazert/bvh/accel.h:82-86`). -/
def traverseInit (ix : Intersector T P I) (ray : Ray T) : Run (TState T I) := do
  let stack ← (Stack.empty maxTreeDepth).push 0
  return { stack, hd := ray.maxHit, isect := ix.prepare ray }

/-- After the loop (`blazert/bvh/accel.h:115-119`). -/
def traverseFinish (ix : Intersector T P I) (ray : Ray T) (rayhit : RayHit T) (s : I) : Run (Bool × RayHit T) := do
  let hit := lt (ix.hitDistance s) ray.maxHit
  if hit then
    let rayhit ← ix.post s rayhit
    return (true, rayhit)
  else
    return (false, rayhit)

/-- `traverse` (`blazert/bvh/accel.h:80-120`).  The fuel is proved to be sufficient for every built BVH (each node
is visited at most once); the extra unit lets a query on an empty node list reach its out-of-bounds access. -/
def traverse (ix : Intersector T P I) (nodes : List (Node T P)) (ray : Ray T) (rayhit : RayHit T) :
    Run (Bool × RayHit T) := do
  let st ← traverseInit ix ray
  let s ← traverseLoop ix nodes ray (nodes.length + 1) st
  traverseFinish ix ray rayhit s

end
end Blazert
