/- Model of `blazert/primitives/trimesh.h` and `blazert/primitives/trimesh_distance.h`. -/
import Verif.Model.Traverse

set_option autoImplicit false

namespace Blazert
open Scalar

/-- `Triangle<T>` (`blazert/primitives/trimesh.h:20-32`): a vertex `a`, and two edges `b = c_ - a`, `c = a - b_`. -/
structure Triangle (T : Type) where
  a : Vec3 T
  b : Vec3 T
  c : Vec3 T
  primId : Nat
  deriving DecidableEq, Repr

/-- `TriangleMesh<T>` (`blazert/primitives/trimesh.h:63-131`). -/
structure MeshColl (T : Type) where
  vertices : List (Vec3 T)
  faces : List (Vec3 Nat)
  centers : List (Vec3 T)
  boxes : List (Vec3 T × Vec3 T)
  faceNormals : List (Vec3 T)
  vertexNormals : List (Vec3 T)

/-- State of `TriangleIntersector<T>` (`blazert/primitives/trimesh.h:46-61`); the member `origin` is never used. -/
structure TriI (T : Type) where
  minHit : T
  uv : T × T
  hd : T
  primId : Nat

section
variable {T : Type} [Scalar T]

/-- The `Triangle` constructor (`blazert/primitives/trimesh.h:26-27`). -/
def Triangle.make (a b_ c_ : Vec3 T) (primId : Nat) : Triangle T := ⟨a, c_ - a, a - b_, primId⟩

/-- `pre_compute_bounding_box` (`blazert/primitives/trimesh.h:109-120`) for the three vertices of a face. -/
def triBox (v0 v1 v2 : Vec3 T) : Vec3 T × Vec3 T :=
  let u := unity v0 v0 v1 v1
  unity u.1 u.2 v2 v2

/-- `pre_compute_center` (`blazert/primitives/trimesh.h:122-124`). -/
def triCenter (v0 v1 v2 : Vec3 T) : Vec3 T := Vec3.divs (v0 + v1 + v2) (nat 3)

/-- `pre_compute_face_normal` (`blazert/primitives/trimesh.h:126-130`). -/
def triNormal (v0 v1 v2 : Vec3 T) : Vec3 T := Vec3.normalize (Vec3.cross (v1 - v0) (v2 - v0))

/-- `vertex_normals[v] += n` (`blazert/primitives/trimesh.h:91-93`) -/
def addNormal (normals : List (Vec3 T)) (v : Nat) (n : Vec3 T) : Run (List (Vec3 T)) := do
  let old ← lookup .oobIndex normals v
  return normals.set v (old + n)

/-- One iteration over the faces in the constructor (`blazert/primitives/trimesh.h:85-94`). -/
def meshFace (vertices : List (Vec3 T)) (m : MeshColl T) (face : Vec3 Nat) : Run (MeshColl T) := do
  let v0 ← lookup .oobIndex vertices face.x
  let v1 ← lookup .oobIndex vertices face.y
  let v2 ← lookup .oobIndex vertices face.z
  let n := triNormal v0 v1 v2
  let contribution := Vec3.divs n (nat 3)
  let normals ← addNormal m.vertexNormals face.x contribution
  let normals ← addNormal normals face.y contribution
  let normals ← addNormal normals face.z contribution
  return { m with
    centers := m.centers ++ [triCenter v0 v1 v2]
    boxes := m.boxes ++ [triBox v0 v1 v2]
    faceNormals := m.faceNormals ++ [n]
    vertexNormals := normals }

/-- The `TriangleMesh` constructor (`blazert/primitives/trimesh.h:78-95`). -/
def MeshColl.make (vertices : List (Vec3 T)) (faces : List (Vec3 Nat)) : Run (MeshColl T) :=
  faces.foldlM (meshFace vertices)
    { vertices, faces, centers := [], boxes := [], faceNormals := [],
      vertexNormals := List.replicate vertices.length (Vec3.const (nat 0)) }

/-- `primitive_from_collection` (`blazert/primitives/trimesh.h:34-44`), `size` (97), `get_primitive_bounding_box`
(99-102), `get_primitive_center` (104-106). -/
def MeshColl.toCollection (m : MeshColl T) : Collection T (Triangle T) where
  size := m.faces.length
  box := lookup .oobIndex m.boxes
  center := lookup .oobIndex m.centers
  prim i := do
    let face ← lookup .oobIndex m.faces i
    let a ← lookup .oobIndex m.vertices face.x
    let b ← lookup .oobIndex m.vertices face.y
    let c ← lookup .oobIndex m.vertices face.z
    return Triangle.make a b c i

/-- `prepare_traversal` (`blazert/primitives/trimesh.h:146-151`). -/
def triPrepare (ray : Ray T) : TriI T where
  minHit := ray.minHit
  uv := (nat 0, nat 0)
  hd := ray.maxHit
  primId := invalidId

/-- `intersect_primitive` (`blazert/primitives/trimesh.h:154-181`). -/
def triIntersect (i : TriI T) (tri : Triangle T) (ray : Ray T) : TriI T × Bool :=
  let tolerance : T := nat 4 * eps
  let e2 := tri.b
  let e1 := tri.c
  let c := tri.a - ray.origin
  let r := Vec3.cross ray.direction c
  let det := Vec3.dot (Vec3.cross e1 e2) ray.direction
  let absDet := abs det
  let u := productSign (Vec3.dot r e2) det
  let v := productSign (Vec3.dot r e1) det
  let w := absDet - u - v
  if ge u (-tolerance) && ge v (-tolerance) && ge w (-tolerance) then
    let t := productSign (Vec3.dot (Vec3.cross e1 e2) c) det
    if ge t (absDet * i.minHit) && gt (absDet * i.hd) t then
      let invDet := nat 1 / absDet
      ({ i with hd := t * invDet, uv := (u * invDet, v * invDet), primId := tri.primId }, true)
    else (i, false)
  else (i, false)

/-- `post_traversal` (`blazert/primitives/trimesh.h:134-143`). -/
def triPost (m : MeshColl T) (i : TriI T) (rh : RayHit T) : Run (RayHit T) := do
  let f ← lookup .oobIndex m.faces i.primId
  let n0 ← lookup .oobIndex m.vertexNormals f.x
  let n1 ← lookup .oobIndex m.vertexNormals f.y
  let n2 ← lookup .oobIndex m.vertexNormals f.z
  return { rh with
    hitDistance := i.hd, uv := i.uv, primId := i.primId,
    normal := Vec3.normalize
      (Vec3.smul (nat 1 - i.uv.1 - i.uv.2) n0 + Vec3.smul i.uv.1 n1 + Vec3.smul i.uv.2 n2) }

/-- `TriangleIntersector<T>` with its collection. -/
def triIx (m : MeshColl T) : Intersector T (Triangle T) (TriI T) where
  prepare := triPrepare
  isect := triIntersect
  hitDistance := TriI.hd
  post := triPost m

/-! ### `blazert/primitives/trimesh_distance.h` -/

/-- `r0` (`blazert/primitives/trimesh_distance.h:36-41`); the in/out arguments `s`, `t` are returned. -/
def r0 (s t det : T) : T × T :=
  let invDet := nat 1 / det
  (s * invDet, t * invDet)

/-- `r1` (`blazert/primitives/trimesh_distance.h:43-57`) -/
def r1 (a b c d e : T) : T × T :=
  let numer := c + e - b - d
  let s :=
    if le numer (nat 0) then nat 0
    else
      let denom := a - nat 2 * b + c
      if ge numer denom then nat 1 else numer / denom
  (s, nat 1 - s)

/-- `r2` (`blazert/primitives/trimesh_distance.h:59-83`) -/
def r2 (a b c d e : T) : T × T :=
  let tmp0 := b + d
  let tmp1 := c + e
  if gt tmp1 tmp0 then
    let numer := tmp1 - tmp0
    let denom := a - nat 2 * b + c
    let s := if ge numer denom then nat 1 else numer / denom
    (s, nat 1 - s)
  else
    (nat 0, if le tmp1 (nat 0) then nat 1 else if ge e (nat 0) then nat 0 else -e / c)

/-- `r3` (`blazert/primitives/trimesh_distance.h:85-99`) -/
def r3 (c e : T) : T × T :=
  (nat 0, if ge e (nat 0) then nat 0 else if ge (-e) c then nat 1 else -e / c)

/-- `r4` (`blazert/primitives/trimesh_distance.h:101-122`) -/
def r4 (a c d e : T) : T × T :=
  if lt d (nat 0) then (if ge (-d) a then nat 1 else -d / a, nat 0)
  else (nat 0, if ge e (nat 0) then nat 0 else if ge (-e) c then nat 1 else -e / c)

/-- `r5` (`blazert/primitives/trimesh_distance.h:124-138`) -/
def r5 (a d : T) : T × T :=
  (if ge d (nat 0) then nat 0 else if ge (-d) a then nat 1 else -d / a, nat 0)

/-- `r6` (`blazert/primitives/trimesh_distance.h:140-164`) -/
def r6 (a b c d e : T) : T × T :=
  let tmp0 := b + e
  let tmp1 := a + d
  if gt tmp1 tmp0 then
    let numer := tmp1 - tmp0
    let denom := a - nat 2 * b + c
    let t := if ge numer denom then nat 1 else numer / denom
    (nat 1 - t, t)
  else
    (if le tmp1 (nat 0) then nat 1 else if ge d (nat 0) then nat 0 else -d / a, nat 0)

/-- The region dispatch of `closest_point_on_triangle` (`blazert/primitives/trimesh_distance.h:194-214`). -/
def closestST (a b c d e : T) : T × T :=
  let det := a * c - b * b
  let s := b * e - c * d
  let t := b * d - a * e
  if le (s + t) det then
    if lt s (nat 0) then (if lt t (nat 0) then r4 a c d e else r3 c e)
    else if lt t (nat 0) then r5 a d
    else r0 s t det
  else
    if lt s (nat 0) then r2 a b c d e
    else if lt t (nat 0) then r6 a b c d e
    else r1 a b c d e

/-- `closest_point_on_triangle` (`blazert/primitives/trimesh_distance.h:177-217`). -/
def closestPointOnTriangle (v0 v1 v2 p : Vec3 T) : Vec3 T :=
  let E0 := v1 - v0
  let E1 := v2 - v0
  let D := v0 - p
  let st := closestST (Vec3.dot E0 E0) (Vec3.dot E0 E1) (Vec3.dot E1 E1) (Vec3.dot E0 D) (Vec3.dot E1 D)
  v0 + Vec3.smul st.1 E0 + Vec3.smul st.2 E1

/-- The point computed by `distance_to_surface(triangle, point)` (`blazert/primitives/trimesh.h:184-192`).  The C++
function declares the return type `T` but returns this *vector*, so it cannot be instantiated; the model keeps the
vector. -/
def triDistanceVec (tri : Triangle T) (point : Vec3 T) : Vec3 T :=
  closestPointOnTriangle tri.a (tri.b + tri.a) (tri.c - tri.a) point

end
end Blazert
