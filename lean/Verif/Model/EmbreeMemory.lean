/- Model of the references the Embree back-end keeps to the caller's containers: the objects refer to the first center and the first
rotation of the containers passed, meshes to the buffers of the vertices and faces.  (`Model/Embree.lean` treats the same code as if everything
were copied; theorem `C99_as_if_copied` relates the two.) -/
import Verif.Model.Embree
import Verif.Model.Memory

set_option autoImplicit false

namespace Blazert
open Scalar

/-- `EmbreeSphere` with its reference member (`blazert/embree/primitives/EmbreeSphere.h:21-25`) -/
structure EmbSphereRef (T : Type) where
  center : ElemRef
  radius : T
  geomID : Nat

/-- `EmbreePlane` with its reference members (`blazert/embree/primitives/EmbreePlane.h:22-29`) -/
structure EmbPlaneRef (T : Type) where
  center : ElemRef
  d1 : T
  d2 : T
  rot : ElemRef
  geomID : Nat

/-- `EmbreeCylinder` with its reference members (`blazert/embree/primitives/EmbreeCylinder.h:22-33`).  Other than in the native back-end the
semi-axes and the height are copied. -/
structure EmbCylRef (T : Type) where
  center : ElemRef
  a : T
  b : T
  height : T
  rot : ElemRef
  geomID : Nat

/-- an object with callbacks, by its class -/
inductive UserRef (T : Type) where
  | sphere (s : EmbSphereRef T)
  | plane (p : EmbPlaneRef T)
  | cylinder (c : EmbCylRef T)

/-- A geometry attached: the address of an object, or a mesh, for which Embree has the addresses and sizes of the buffers
(`rtcSetSharedGeometryBuffer`, `blazert/embree/scene.h:169-172`). -/
inductive RtcGeomRef where
  | user (address : Nat)
  | mesh (vertices vertexCount faces faceCount : Nat)

/-- `EmbreeScene<float>` (`blazert/embree/scene.h:33-89`), cf. `EmbScene` -/
structure EmbRefScene (T : Type) where
  heap : List (Option (UserRef T))
  attached : List RtcGeomRef
  sphere : Option Nat
  plane : Option Nat
  cylinder : Option Nat
  committed : Bool
  known : Option (List (Option (Vec3 T × Vec3 T)))

section
variable {T : Type} [Scalar T]

/-- the constructor (`blazert/embree/scene.h:49-58`) -/
def EmbRefScene.init : EmbRefScene T := ⟨[], [], none, none, none, false, none⟩

/-- `delete` on the old object of a `unique_ptr`, if any -/
def freeOldRef (heap : List (Option (UserRef T))) : Option Nat → List (Option (UserRef T))
  | none => heap
  | some a => heap.set a none

/-! ### Adding -/

/-- `add_mesh` (`blazert/embree/scene.h:159-180`): `vertices.data()` and `triangles.data()` are kept, the contents are not read yet. -/
def EmbRefScene.addMesh (s : EmbRefScene T) (mem : Memory T) (vertices faces : Nat) : Run (EmbRefScene T × Nat) := do
  let vs ← mem.vecs.data vertices
  let fs ← mem.faces.data faces
  return ({ s with attached := s.attached ++ [.mesh vs.1 vs.2.length fs.1 fs.2.length] }, s.attached.length)

/-- `add_spheres` (`blazert/embree/scene.h:200-220`).  The arguments must be alive, here and below. -/
def EmbRefScene.addSpheres (s : EmbRefScene T) (mem : Memory T) (centers radii : Nat) : Run (EmbRefScene T × Nat) := do
  let _ ← mem.vecs.read centers
  let _ ← mem.nums.read radii
  let c ← mem.vecs.elemRef centers 0
  let r ← mem.nums.elem radii 0
  let id := s.attached.length
  return ({ s with
    heap := freeOldRef (s.heap ++ [some (.sphere ⟨c, r, id⟩)]) s.sphere, attached := s.attached ++ [.user s.heap.length],
    sphere := some s.heap.length }, id)

/-- `add_planes` (`blazert/embree/scene.h:244-267`) -/
def EmbRefScene.addPlanes (s : EmbRefScene T) (mem : Memory T) (centers dxs dys rotations : Nat) : Run (EmbRefScene T × Nat) := do
  let _ ← mem.vecs.read centers
  let _ ← mem.nums.read dxs
  let _ ← mem.nums.read dys
  let _ ← mem.mats.read rotations
  let c ← mem.vecs.elemRef centers 0
  let dx ← mem.nums.elem dxs 0
  let dy ← mem.nums.elem dys 0
  let r ← mem.mats.elemRef rotations 0
  let id := s.attached.length
  return ({ s with
    heap := freeOldRef (s.heap ++ [some (.plane ⟨c, dx, dy, r, id⟩)]) s.plane, attached := s.attached ++ [.user s.heap.length],
    plane := some s.heap.length }, id)

/-- `add_cylinders` (`blazert/embree/scene.h:292-316`) -/
def EmbRefScene.addCylinders (s : EmbRefScene T) (mem : Memory T) (centers as bs heights rotations : Nat) :
    Run (EmbRefScene T × Nat) := do
  let _ ← mem.vecs.read centers
  let _ ← mem.nums.read as
  let _ ← mem.nums.read bs
  let _ ← mem.nums.read heights
  let _ ← mem.mats.read rotations
  let c ← mem.vecs.elemRef centers 0
  let a ← mem.nums.elem as 0
  let b ← mem.nums.elem bs 0
  let h ← mem.nums.elem heights 0
  let r ← mem.mats.elemRef rotations 0
  let id := s.attached.length
  return ({ s with
    heap := freeOldRef (s.heap ++ [some (.cylinder ⟨c, a, b, h, r, id⟩)]) s.cylinder, attached := s.attached ++ [.user s.heap.length],
    cylinder := some s.heap.length }, id)

/-! ### What Embree and the callbacks read -/

/-- the object that a callback sees: the reference members are read -/
def UserRef.load (mem : Memory T) : UserRef T → Run (UserGeom T)
  | .sphere s => do
    let c ← mem.vecs.deref s.center
    return .sphere ⟨c, s.radius, s.geomID⟩
  | .plane p => do
    let c ← mem.vecs.deref p.center
    let r ← mem.mats.deref p.rot
    return .plane ⟨c, p.d1, p.d2, r, p.geomID⟩
  | .cylinder y => do
    let c ← mem.vecs.deref y.center
    let r ← mem.mats.deref y.rot
    return .cylinder ⟨c, y.a, y.b, y.height, r, y.geomID⟩

/-- the object behind a user pointer, as a callback sees it -/
def EmbRefScene.deref (s : EmbRefScene T) (mem : Memory T) (address : Nat) : Run (UserGeom T) :=
  match s.heap[address]? with
  | some (some g) => g.load mem
  | _ => .error .dangling

/-- the `count` vectors Embree reads from the shared buffer number `b` -/
def Layout.seenIn {A : Type} (l : Layout) (pad : A) (s : Store (Vec3 A)) (b count : Nat) : Run (List (Vec3 A)) :=
  match s.elems b with
  | none => .error .dangling
  | some vs => (List.range count).mapM (readShared (l.memory pad vs) l.byteStride)

/-- `rtcCommitScene` calls the bounds function of every user geometry, and reads the buffers of the meshes -/
def EmbRefScene.rtcBounds (l : Layout) (s : EmbRefScene T) (mem : Memory T) : RtcGeomRef → Run (Option (Vec3 T × Vec3 T))
  | .user p => do let g ← s.deref mem p; return some g.bounds
  | .mesh v n f k => do
    let _ ← l.seenIn (nat 0) mem.vecs v n
    let _ ← l.seenIn 0 mem.faces f k
    return none

/-- `commit` (`blazert/embree/scene.h:77-88`) -/
def EmbRefScene.commit (l : Layout) (s : EmbRefScene T) (mem : Memory T) : Run (EmbRefScene T) :=
  if s.committed then .ok s
  else do
    let bounds ← s.attached.mapM (s.rtcBounds l mem)
    return { s with committed := true, known := some bounds }

/-- the processing of the attached geometry number `id`; Embree may look at the shared buffers again -/
def EmbRefScene.process (l : Layout) (rtc : Rtc T) (s : EmbRefScene T) (mem : Memory T) (id : Nat) (rh : RtcRayHit T) :
    Run (RtcRayHit T) := do
  let g ← lookup .oobIndex s.attached id
  match g with
  | .user p => do let g ← s.deref mem p; return g.intersect invalidId rh
  | .mesh v n f k => do
    let vs ← l.seenIn (nat 0) mem.vecs v n
    let fs ← l.seenIn 0 mem.faces f k
    return rtc.tri vs fs id rh

/-- `intersect1` (`blazert/embree/scene.h:102-143`) may end with `r`, cf. `EmbScene.Intersect1` -/
def EmbRefScene.Intersect1 (l : Layout) (rtc : Rtc T) (s : EmbRefScene T) (mem : Memory T) (ray : Ray T) (rayhit : RayHit T)
    (r : Run (Bool × RayHit T)) : Prop :=
  match s.known with
  | none => r = .error .notCommitted
  | some bounds =>
    if bounds.length ≠ s.attached.length then r = .error .notCommitted
    else ∃ order r', order.Perm (List.range s.attached.length) ∧
      RtcTrace (s.process l rtc mem) (EmbScene.MaySkip rtc bounds) order ray.toRtc r' ∧ r = r'.map (·.copyTo rayhit)

/-! ### Programs -/

/-- What happens, as far as the scene is concerned: the caller changes its memory in any way, or calls the API. -/
inductive EmbEvent (T : Type) where
  | change (mem : Memory T)
  | addMesh (vertices faces : Nat)
  | addSpheres (centers radii : Nat)
  | addPlanes (centers dxs dys rotations : Nat)
  | addCylinders (centers as bs heights rotations : Nat)
  | commit

/-- execution of one event on memory and scene -/
def EmbEvent.exec (l : Layout) : Memory T × EmbRefScene T → EmbEvent T → Run (Memory T × EmbRefScene T)
  | (_, s), .change mem => .ok (mem, s)
  | (m, s), .addMesh v f => do let r ← s.addMesh m v f; return (m, r.1)
  | (m, s), .addSpheres c r => do let r ← s.addSpheres m c r; return (m, r.1)
  | (m, s), .addPlanes c x y r => do let r ← s.addPlanes m c x y r; return (m, r.1)
  | (m, s), .addCylinders c a b h r => do let r ← s.addCylinders m c a b h r; return (m, r.1)
  | (m, s), .commit => do let r ← s.commit l m; return (m, r)

/-- execution of a program -/
def runEmb (l : Layout) (st : Memory T × EmbRefScene T) (es : List (EmbEvent T)) : Run (Memory T × EmbRefScene T) :=
  es.foldlM (EmbEvent.exec l) st

end
end Blazert
