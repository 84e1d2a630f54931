/- Model of `blazert/primitives/sphere.h`. -/
import Verif.Model.Traverse

set_option autoImplicit false

namespace Blazert
open Scalar

/-- `Sphere<T>` (`blazert/primitives/sphere.h:17-33`). -/
structure Sphere (T : Type) where
  center : Vec3 T
  radius : T
  primId : Nat
  deriving DecidableEq, Repr

/-- `SphereCollection<T>` (`blazert/primitives/sphere.h:62-101`); the referenced containers are stored by value. -/
structure SphereColl (T : Type) where
  centers : List (Vec3 T)
  radii : List T
  boxes : List (Vec3 T × Vec3 T)

/-- State of `SphereIntersector<T>` (`blazert/primitives/sphere.h:42-58`). -/
structure SphereI (T : Type) where
  rayOrg : Vec3 T
  rayDir : Vec3 T
  minHit : T
  uv : T × T
  hd : T
  primId : Nat

section
variable {T : Type} [Scalar T]

/-- `pre_compute_bounding_box` (`blazert/primitives/sphere.h:92-100`). -/
def sphereBox (c : Vec3 T) (r : T) : Vec3 T × Vec3 T := (Vec3.subs c r, Vec3.adds c r)

/-- The `SphereCollection` constructor (`blazert/primitives/sphere.h:73-80`): reads `radii[prim_id]` for every center. -/
def SphereColl.make (centers : List (Vec3 T)) (radii : List T) : Run (SphereColl T) := do
  let boxes ← (List.range centers.length).mapM fun i => do
    let c ← lookup .oobIndex centers i
    let r ← lookup .oobIndex radii i
    return sphereBox c r
  return { centers, radii, boxes }

/-- `primitive_from_collection` (`blazert/primitives/sphere.h:35-40`), `size` (82), `get_primitive_bounding_box` (84-87),
`get_primitive_center` (89-91). -/
def SphereColl.toCollection (c : SphereColl T) : Collection T (Sphere T) where
  size := c.centers.length
  box := lookup .oobIndex c.boxes
  center := lookup .oobIndex c.centers
  prim i := do
    let center ← lookup .oobIndex c.centers i
    let radius ← lookup .oobIndex c.radii i
    return { center, radius, primId := i }

/-- `prepare_traversal` (`blazert/primitives/sphere.h:121-128`). -/
def spherePrepare (ray : Ray T) : SphereI T where
  rayOrg := ray.origin
  rayDir := ray.direction
  minHit := ray.minHit
  uv := (nat 0, nat 0)
  hd := ray.maxHit
  primId := invalidId

/-- `intersect_primitive` (`blazert/primitives/sphere.h:136-177`). -/
def sphereIntersect (i : SphereI T) (s : Sphere T) (_ray : Ray T) : SphereI T × Bool :=
  let dir := i.rayDir
  let v := i.rayOrg - s.center
  let A := Vec3.dot dir dir
  let B := nat 2 * Vec3.dot v dir
  let C := Vec3.dot v v - s.radius * s.radius
  let D := B * B - nat 4 * A * C
  if lt D (nat 0) then (i, false)
  else
    let Q := sqrt D
    let rcpA := nat 1 / A
    let t0 := ofRat (1/2) * rcpA * (-B - Q)
    let t1 := ofRat (1/2) * rcpA * (-B + Q)
    if gt t0 i.minHit && lt t0 i.hd then
      ({ i with hd := Vec3.norm (Vec3.smul t0 dir), primId := s.primId }, true)
    else if gt t1 i.minHit && lt t1 i.hd then
      ({ i with hd := Vec3.norm (Vec3.smul t1 dir), primId := s.primId }, true)
    else (i, false)

/-- `post_traversal` (`blazert/primitives/sphere.h:108-114`). -/
def spherePost (c : SphereColl T) (i : SphereI T) (rh : RayHit T) : Run (RayHit T) := do
  let center ← lookup .oobIndex c.centers i.primId
  return { rh with
    hitDistance := i.hd, uv := i.uv, primId := i.primId,
    normal := Vec3.normalize (i.rayOrg + Vec3.smul i.hd i.rayDir - center) }

/-- `SphereIntersector<T>` with its collection. -/
def sphereIx (c : SphereColl T) : Intersector T (Sphere T) (SphereI T) where
  prepare := spherePrepare
  isect := sphereIntersect
  hitDistance := SphereI.hd
  post := spherePost c

/-- `distance_to_surface` (`blazert/primitives/sphere.h:180-182`). -/
def sphereDistance (s : Sphere T) (point : Vec3 T) : T :=
  abs (Vec3.norm (s.center - point) - s.radius)

end
end Blazert
