/- Model of `blazert/scene.h`. -/
import Verif.Model.Sphere
import Verif.Model.Plane
import Verif.Model.TriMesh
import Verif.Model.Cylinder

set_option autoImplicit false

namespace Blazert
open Scalar

/-- One kind of geometry in a scene: `X_collection`, `X_bvh->nodes`, `X_geom_id`; present iff `has_X`
(`blazert/scene.h:52-70`). -/
structure Part (C T P : Type) where
  coll : C
  nodes : List (Node T P)
  geomId : Nat

/-- `BlazertScene<T>` (`blazert/scene.h:38-116`). -/
structure Scene (T : Type) where
  options : BuildOptions
  committed : Bool
  geometries : Nat
  mesh : Option (Part (MeshColl T) T (Triangle T))
  spheres : Option (Part (SphereColl T) T (Sphere T))
  planes : Option (Part (PlaneColl T) T (Plane T))
  cylinders : Option (Part (CylColl T) T (Cylinder T))

section
variable {T : Type} [Scalar T]

/-- A default constructed `BlazertScene<T>` (`blazert/scene.h:41-73`). -/
def Scene.init : Scene T := ⟨BuildOptions.default, false, 0, none, none, none, none⟩

/-- `add_mesh` (`blazert/scene.h:228-240`). -/
def Scene.addMesh (s : Scene T) (vertices : List (Vec3 T)) (faces : List (Vec3 Nat)) : Run (Scene T × Nat) :=
  if s.mesh.isNone && !s.committed then do
    let coll ← MeshColl.make vertices faces
    return ({ s with mesh := some ⟨coll, [], s.geometries⟩, geometries := s.geometries + 1 }, s.geometries)
  else return (s, invalidId)

/-- `add_spheres` (`blazert/scene.h:259-271`). -/
def Scene.addSpheres (s : Scene T) (centers : List (Vec3 T)) (radii : List T) : Run (Scene T × Nat) :=
  if s.spheres.isNone && !s.committed then do
    let coll ← SphereColl.make centers radii
    return ({ s with spheres := some ⟨coll, [], s.geometries⟩, geometries := s.geometries + 1 }, s.geometries)
  else return (s, invalidId)

/-- `add_planes` (`blazert/scene.h:294-307`). -/
def Scene.addPlanes (s : Scene T) (centers : List (Vec3 T)) (dxs dys : List T) (rotations : List (Mat3 T)) :
    Run (Scene T × Nat) :=
  if s.planes.isNone && !s.committed then do
    let coll ← PlaneColl.make centers dxs dys rotations
    return ({ s with planes := some ⟨coll, [], s.geometries⟩, geometries := s.geometries + 1 }, s.geometries)
  else return (s, invalidId)

/-- `add_cylinders` (`blazert/scene.h:332-346`). -/
def Scene.addCylinders (s : Scene T) (centers : List (Vec3 T)) (as bs heights : List T) (rotations : List (Mat3 T)) :
    Run (Scene T × Nat) :=
  if s.cylinders.isNone && !s.committed then do
    let coll ← CylColl.make centers as bs heights rotations
    return ({ s with cylinders := some ⟨coll, [], s.geometries⟩, geometries := s.geometries + 1 }, s.geometries)
  else return (s, invalidId)

/-- `builder.build(*X_bvh, build_options)` under `if (has_X)` (e.g. `blazert/scene.h:93-96`). -/
def commitPart {C P : Type} (part : StdPartition) (o : BuildOptions) (toColl : C → Collection T P) :
    Option (Part C T P) → Run (Option (Part C T P))
  | none => .ok none
  | some p => do
    let (nodes, _) ← build part (toColl p.coll) o p.nodes
    return some { p with nodes }

/-- `commit` (`blazert/scene.h:91-115`). -/
def Scene.commit (part : StdPartition) (s : Scene T) : Run (Scene T × Bool) := do
  let mesh ← commitPart part s.options MeshColl.toCollection s.mesh
  let spheres ← commitPart part s.options SphereColl.toCollection s.spheres
  let planes ← commitPart part s.options PlaneColl.toCollection s.planes
  let cylinders ← commitPart part s.options CylColl.toCollection s.cylinders
  return ({ s with mesh, spheres, planes, cylinders, committed := true }, true)

/-- One of the blocks of `intersect1` (`blazert/scene.h:177-207`): `always` is set for the mesh block, which has no
comparison with the current `rayhit` (`blazert/scene.h:170-175`).  State: `temp_rayhit`, `rayhit`, `hit`. -/
def intersectPart {C P I : Type} (ix : C → Intersector T P I) (always : Bool) (ray : Ray T) :
    Option (Part C T P) → RayHit T × RayHit T × Bool → Run (RayHit T × RayHit T × Bool)
  | none, st => .ok st
  | some p, (temp, rayhit, hit) => do
    let (h, temp) ← traverse (ix p.coll) p.nodes ray temp
    if h && (always || lt temp.hitDistance rayhit.hitDistance) then
      return (temp, { temp with geomId := p.geomId }, true)
    else return (temp, rayhit, hit)

/-- `intersect1` (`blazert/scene.h:162-211`): the returned flag and the updated `rayhit`. -/
def Scene.intersect1 (s : Scene T) (ray : Ray T) (rayhit : RayHit T) : Run (Bool × RayHit T) := do
  let st := (RayHit.fresh, rayhit, false)
  let st ← intersectPart triIx true ray s.mesh st
  let st ← intersectPart sphereIx false ray s.spheres st
  let st ← intersectPart (fun _ => planeIx) false ray s.planes st
  let st ← intersectPart (fun _ => cylIx) false ray s.cylinders st
  return (st.2.2, st.2.1)

/-- A call of the scene API. -/
inductive Call (T : Type) where
  | addMesh (vertices : List (Vec3 T)) (faces : List (Vec3 Nat))
  | addSpheres (centers : List (Vec3 T)) (radii : List T)
  | addPlanes (centers : List (Vec3 T)) (dxs dys : List T) (rotations : List (Mat3 T))
  | addCylinders (centers : List (Vec3 T)) (as bs heights : List T) (rotations : List (Mat3 T))
  | commit

/-- Execute a call; the value returned to the caller is `some id` for `add_*` and `none` for `commit`. -/
def Call.exec (part : StdPartition) (s : Scene T) : Call T → Run (Scene T × Option Nat)
  | .addMesh v f => do let (s, i) ← s.addMesh v f; return (s, some i)
  | .addSpheres c r => do let (s, i) ← s.addSpheres c r; return (s, some i)
  | .addPlanes c dx dy r => do let (s, i) ← s.addPlanes c dx dy r; return (s, some i)
  | .addCylinders c a b h r => do let (s, i) ← s.addCylinders c a b h r; return (s, some i)
  | .commit => do let (s, _) ← s.commit part; return (s, none)

end
end Blazert
