/- Model of `blazert/primitives/plane.h`. -/
import Verif.Model.Traverse

set_option autoImplicit false

namespace Blazert
open Scalar

/-- `Plane<T>` (`blazert/primitives/plane.h:20-39`). -/
structure Plane (T : Type) where
  center : Vec3 T
  dx : T
  dy : T
  rotation : Mat3 T
  primId : Nat
  deriving DecidableEq, Repr

/-- `PlaneCollection<T>` (`blazert/primitives/plane.h:73-151`). -/
structure PlaneColl (T : Type) where
  centers : List (Vec3 T)
  dxs : List T
  dys : List T
  rotations : List (Mat3 T)
  boxes : List (Vec3 T × Vec3 T)

/-- State of `PlaneIntersector<T>` (`blazert/primitives/plane.h:53-71`), also of `CylinderIntersector<T>`
(`blazert/primitives/cylinder.h:55-72`), which has the same members. -/
structure PlaneI (T : Type) where
  normal : Vec3 T
  rayOrg : Vec3 T
  rayDir : Vec3 T
  minHit : T
  uv : T × T
  hd : T
  primId : Nat

section
variable {T : Type} [Scalar T]

/-- `std::min({a, ...})`: the first smallest element. -/
def minOf (a : T) (l : List T) : T := l.foldl (fun m x => if lt x m then x else m) a
/-- `std::max({a, ...})`: the first largest element. -/
def maxOf (a : T) (l : List T) : T := l.foldl (fun m x => if lt m x then x else m) a

/-- componentwise `std::min` of several points (`blazert/primitives/plane.h:141-143`) -/
def minOfV (a : Vec3 T) (l : List (Vec3 T)) : Vec3 T := Vec3.ofFn fun k => minOf (a.get k) (l.map (·.get k))
/-- componentwise `std::max` of several points (`blazert/primitives/plane.h:144-146`) -/
def maxOfV (a : Vec3 T) (l : List (Vec3 T)) : Vec3 T := Vec3.ofFn fun k => maxOf (a.get k) (l.map (·.get k))

/-- `pre_compute_bounding_box` (`blazert/primitives/plane.h:114-150`). -/
def planeBox (center : Vec3 T) (dx dy : T) (rotation : Mat3 T) : Vec3 T × Vec3 T :=
  let a1t : Vec3 T := ⟨-dx / nat 2, -dy / nat 2, nat 0⟩
  let a2t : Vec3 T := ⟨dx / nat 2, -dy / nat 2, nat 0⟩
  let a3t : Vec3 T := ⟨-dx / nat 2, dy / nat 2, nat 0⟩
  let a4t : Vec3 T := ⟨dx / nat 2, dy / nat 2, nat 0⟩
  let c1t : Vec3 T := ⟨nat 0, nat 0, -tiny⟩
  let c2t : Vec3 T := ⟨nat 0, nat 0, tiny⟩
  let a1 := center + rotation.mulVec a1t
  let a2 := center + rotation.mulVec a2t
  let a3 := center + rotation.mulVec a3t
  let a4 := center + rotation.mulVec a4t
  let c1 := center + rotation.mulVec c1t
  let c2 := center + rotation.mulVec c2t
  (minOfV a1 [a2, a3, a4, c1, c2], maxOfV a1 [a2, a3, a4, c1, c2])

/-- The `PlaneCollection` constructor (`blazert/primitives/plane.h:91-102`). -/
def PlaneColl.make (centers : List (Vec3 T)) (dxs dys : List T) (rotations : List (Mat3 T)) : Run (PlaneColl T) := do
  let boxes ← (List.range centers.length).mapM fun i => do
    let c ← lookup .oobIndex centers i
    let dx ← lookup .oobIndex dxs i
    let dy ← lookup .oobIndex dys i
    let r ← lookup .oobIndex rotations i
    return planeBox c dx dy r
  return { centers, dxs, dys, rotations, boxes }

/-- `primitive_from_collection` (`blazert/primitives/plane.h:41-50`), `size` (104), `get_primitive_bounding_box`
(106-109), `get_primitive_center` (111-113). -/
def PlaneColl.toCollection (c : PlaneColl T) : Collection T (Plane T) where
  size := c.centers.length
  box := lookup .oobIndex c.boxes
  center := lookup .oobIndex c.centers
  prim i := do
    let center ← lookup .oobIndex c.centers i
    let dx ← lookup .oobIndex c.dxs i
    let dy ← lookup .oobIndex c.dys i
    let rotation ← lookup .oobIndex c.rotations i
    return { center, dx, dy, rotation, primId := i }

/-- `prepare_traversal` (`blazert/primitives/plane.h:166-173`).  The member `normal` is not initialised in C++; it is
only read after a hit, which assigns it. -/
def planePrepare (ray : Ray T) : PlaneI T where
  normal := Vec3.const (nat 0)
  rayOrg := ray.origin
  rayDir := ray.direction
  minHit := ray.minHit
  uv := (nat 0, nat 0)
  hd := ray.maxHit
  primId := invalidId

/-- the three assignments made in every accepting case of the plane and cylinder tests
(e.g. `blazert/primitives/plane.h:209-211`) -/
def PlaneI.record (i : PlaneI T) (normal : Vec3 T) (t : T) (dir : Vec3 T) (primId : Nat) : PlaneI T × Bool :=
  ({ i with normal := normal, hd := Vec3.norm (Vec3.smul t dir), primId := primId }, true)

/-- `intersect_primitive` (`blazert/primitives/plane.h:181-270`). -/
def planeIntersect (i : PlaneI T) (pl : Plane T) (_ray : Ray T) : PlaneI T × Bool :=
  let rotation := pl.rotation
  let inv := rotation.trans
  let org := inv.mulVec (i.rayOrg - pl.center)
  let dir := inv.mulVec i.rayDir
  let t1 := -org.z / dir.z
  let p := org + Vec3.smul t1 dir
  let tnear := i.minHit
  let tfar := i.hd
  let xmin := -pl.dx / nat 2
  let xmax := pl.dx / nat 2
  let ymin := -pl.dy / nat 2
  let ymax := pl.dy / nat 2
  let s := org.z / abs org.z
  if gt t1 tnear && lt t1 tfar && gt p.x xmin && lt p.x xmax && gt p.y ymin && lt p.y ymax then
    i.record (Vec3.smul s (rotation.mulVec ⟨nat 0, nat 0, nat 1⟩)) t1 dir pl.primId
  else if gt t1 tnear && lt t1 tfar && eq p.x xmin && lt p.x xmax && gt p.y ymin && lt p.y ymax then
    i.record (rotation.mulVec ⟨-nat 1, nat 0, s⟩) t1 dir pl.primId
  else if gt t1 tnear && lt t1 tfar && gt p.x xmin && eq p.x xmax && gt p.y ymin && lt p.y ymax then
    i.record (rotation.mulVec ⟨nat 1, nat 0, s⟩) t1 dir pl.primId
  else if gt t1 tnear && lt t1 tfar && gt p.x xmin && lt p.x xmax && eq p.y ymin && lt p.y ymax then
    i.record (rotation.mulVec ⟨nat 0, -nat 1, s⟩) t1 dir pl.primId
  else if gt t1 tnear && lt t1 tfar && gt p.x xmin && lt p.x xmax && gt p.y ymin && eq p.y ymax then
    i.record (rotation.mulVec ⟨nat 0, nat 1, s⟩) t1 dir pl.primId
  else if gt t1 tnear && lt t1 tfar && eq p.x xmin && lt p.x xmax && eq p.y ymin && lt p.y ymax then
    i.record (rotation.mulVec ⟨-nat 1, -nat 1, s⟩) t1 dir pl.primId
  else if gt t1 tnear && lt t1 tfar && eq p.x xmin && lt p.x xmax && gt p.y ymin && eq p.y ymax then
    i.record (rotation.mulVec ⟨-nat 1, nat 1, s⟩) t1 dir pl.primId
  else if gt t1 tnear && lt t1 tfar && gt p.x xmin && eq p.x xmax && eq p.y ymin && lt p.y ymax then
    i.record (rotation.mulVec ⟨nat 1, -nat 1, s⟩) t1 dir pl.primId
  else if gt t1 tnear && lt t1 tfar && gt p.x xmin && eq p.x xmax && gt p.y ymin && eq p.y ymax then
    i.record (rotation.mulVec ⟨nat 1, nat 1, s⟩) t1 dir pl.primId
  else (i, false)

/-- `post_traversal` (`blazert/primitives/plane.h:154-159`, and `blazert/primitives/cylinder.h:155-160`). -/
def planePost (i : PlaneI T) (rh : RayHit T) : Run (RayHit T) :=
  .ok { rh with hitDistance := i.hd, uv := i.uv, primId := i.primId, normal := Vec3.normalize i.normal }

/-- `PlaneIntersector<T>`. -/
def planeIx : Intersector T (Plane T) (PlaneI T) where
  prepare := planePrepare
  isect := planeIntersect
  hitDistance := PlaneI.hd
  post := planePost

/-- `distance_to_surface` (`blazert/primitives/plane.h:273-284`). -/
def planeDistance (pl : Plane T) (point : Vec3 T) : T :=
  let lp := pl.rotation.trans.mulVec (point - pl.center)
  let dx := pl.dx / nat 2
  let dy := pl.dy / nat 2
  let cx := pl.center.x
  let cy := pl.center.y
  if ge lp.x (cx - dx) && le lp.x (cx + dx) && ge lp.y (cy - dy) && le lp.y (cy + dy) then abs lp.z
  else maxVal

end
end Blazert
