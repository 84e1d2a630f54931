/- Model of the references blazert keeps to the caller's containers: the collections refer to the `std::vector`s passed to
`add_*`, the primitives in the leaves refer to elements of their buffers.  (`Model/Scene.lean` treats the same code as if
everything were copied; theorem `C64_as_if_copied` relates the two.) -/
import Verif.Model.Scene

set_option autoImplicit false

namespace Blazert
open Scalar

/-- The caller's `std::vector` objects with elements of type `α`: the buffer that each object owns (`none`: no such object,
or destroyed), and what each buffer contains (`none`: not allocated, or freed). -/
structure Store (α : Type) where
  buffer : Nat → Option Nat
  elems : Nat → Option (List α)

/-- A reference to an element: which buffer, which position. -/
structure ElemRef where
  buf : Nat
  idx : Nat

section
variable {α : Type}

/-- buffer and elements of the vector `x`, which must be alive -/
def Store.data (s : Store α) (x : Nat) : Run (Nat × List α) :=
  match s.buffer x with
  | none => .error .dangling
  | some b =>
    match s.elems b with
    | none => .error .dangling
    | some l => .ok (b, l)

/-- the elements of the vector `x` -/
def Store.read (s : Store α) (x : Nat) : Run (List α) := do
  let d ← s.data x
  return d.2

/-- `x[i]`, as a value -/
def Store.elem (s : Store α) (x i : Nat) : Run α := do
  let d ← s.data x
  lookup .oobIndex d.2 i

/-- `x[i]`, bound to a reference -/
def Store.elemRef (s : Store α) (x i : Nat) : Run ElemRef := do
  let d ← s.data x
  let _ ← lookup .oobIndex d.2 i
  return ⟨d.1, i⟩

/-- the value a reference refers to -/
def Store.deref (s : Store α) (r : ElemRef) : Run α :=
  match s.elems r.buf with
  | none => .error .dangling
  | some l => lookup .dangling l r.idx

/-! What the caller may do to a vector. -/

/-- `x[i] = v` -/
def Store.write (s : Store α) (x i : Nat) (v : α) : Store α :=
  match s.buffer x with
  | none => s
  | some b => { s with elems := fun c => if c = b then (s.elems c).map (·.set i v) else s.elems c }

/-- `x.push_back(v)` with enough capacity: the buffer stays where it is -/
def Store.push (s : Store α) (x : Nat) (v : α) : Store α :=
  match s.buffer x with
  | none => s
  | some b => { s with elems := fun c => if c = b then (s.elems c).map (· ++ [v]) else s.elems c }

/-- `x.push_back(v)` without enough capacity: the elements move to the new buffer `b'`, the old buffer is freed -/
def Store.regrow (s : Store α) (x b' : Nat) (v : α) : Store α :=
  match s.buffer x with
  | none => s
  | some b =>
    { buffer := fun y => if y = x then some b' else s.buffer y
      elems := fun c => if c = b' then (s.elems b).map (· ++ [v]) else if c = b then none else s.elems c }

/-- the destructor of `x` -/
def Store.destroy (s : Store α) (x : Nat) : Store α :=
  match s.buffer x with
  | none => s
  | some b =>
    { buffer := fun y => if y = x then none else s.buffer y
      elems := fun c => if c = b then none else s.elems c }

/-- `y = std::move(x)` for a new vector `y`: the buffer changes hands, `x` is left with the empty buffer `b'` -/
def Store.moveTo (s : Store α) (x y b' : Nat) : Store α :=
  match s.buffer x with
  | none => s
  | some b =>
    { buffer := fun z => if z = y then some b else if z = x then some b' else s.buffer z
      elems := fun c => if c = b' then some [] else s.elems c }

end

/-- The caller's memory: vectors of points, numbers, matrices and faces. -/
structure Memory (T : Type) where
  vecs : Store (Vec3 T)
  nums : Store T
  mats : Store (Mat3 T)
  faces : Store (Vec3 Nat)

/-- `Sphere<T>` with its reference member (`blazert/primitives/sphere.h:20-22`) -/
structure SphereRef (T : Type) where
  center : ElemRef
  radius : T
  primId : Nat

/-- `Plane<T>` with its reference members (`blazert/primitives/plane.h:23-27`) -/
structure PlaneRef (T : Type) where
  center : ElemRef
  dx : T
  dy : T
  rotation : ElemRef
  primId : Nat

/-- `Triangle<T>` with its reference member (`blazert/primitives/trimesh.h:21-24`) -/
structure TriRef (T : Type) where
  a : ElemRef
  b : Vec3 T
  c : Vec3 T
  primId : Nat

/-- `Cylinder<T>` with its reference members (`blazert/primitives/cylinder.h:23-28`) -/
structure CylRef where
  center : ElemRef
  a : ElemRef
  b : ElemRef
  height : ElemRef
  rotation : ElemRef
  primId : Nat

/-- `SphereCollection<T>` (`blazert/primitives/sphere.h:66-68`) -/
structure SphereRefs (T : Type) where
  centers : Nat
  radii : Nat
  boxes : List (Vec3 T × Vec3 T)

/-- `PlaneCollection<T>` (`blazert/primitives/plane.h:78-85`) -/
structure PlaneRefs (T : Type) where
  centers : Nat
  dxs : Nat
  dys : Nat
  rotations : Nat
  boxes : List (Vec3 T × Vec3 T)

/-- `TriangleMesh<T>` (`blazert/primitives/trimesh.h:70-75`) -/
structure MeshRefs (T : Type) where
  vertices : Nat
  faces : Nat
  centers : List (Vec3 T)
  boxes : List (Vec3 T × Vec3 T)
  faceNormals : List (Vec3 T)
  vertexNormals : List (Vec3 T)

/-- `CylinderCollection<T>` (`blazert/primitives/cylinder.h:79-85`) -/
structure CylRefs (T : Type) where
  centers : Nat
  as : Nat
  bs : Nat
  heights : Nat
  rotations : Nat
  boxes : List (Vec3 T × Vec3 T)

/-- `BlazertScene<T>` (`blazert/scene.h:38-116`) -/
structure RefScene (T : Type) where
  options : BuildOptions
  committed : Bool
  geometries : Nat
  mesh : Option (Part (MeshRefs T) T (TriRef T))
  spheres : Option (Part (SphereRefs T) T (SphereRef T))
  planes : Option (Part (PlaneRefs T) T (PlaneRef T))
  cylinders : Option (Part (CylRefs T) T CylRef)

section
variable {T : Type} [Scalar T]

/-! ### Adding: the constructors of the collections read the containers and keep references to them. -/

/-- A default constructed `BlazertScene<T>`. -/
def RefScene.init : RefScene T := ⟨BuildOptions.default, false, 0, none, none, none, none⟩

/-- `add_mesh` (`blazert/scene.h:228-240`), `TriangleMesh` (`blazert/primitives/trimesh.h:78-95`).  The arguments must be
alive even if the call is rejected. -/
def RefScene.addMesh (s : RefScene T) (mem : Memory T) (vertices faces : Nat) : Run (RefScene T × Nat) := do
  let vs ← mem.vecs.read vertices
  let fs ← mem.faces.read faces
  if s.mesh.isNone && !s.committed then
    let m ← MeshColl.make vs fs
    let coll := ⟨vertices, faces, m.centers, m.boxes, m.faceNormals, m.vertexNormals⟩
    return ({ s with mesh := some ⟨coll, [], s.geometries⟩, geometries := s.geometries + 1 }, s.geometries)
  else return (s, invalidId)

/-- `add_spheres` (`blazert/scene.h:259-271`), `SphereCollection` (`blazert/primitives/sphere.h:73-80`). -/
def RefScene.addSpheres (s : RefScene T) (mem : Memory T) (centers radii : Nat) : Run (RefScene T × Nat) := do
  let cs ← mem.vecs.read centers
  let rs ← mem.nums.read radii
  if s.spheres.isNone && !s.committed then
    let c ← SphereColl.make cs rs
    return ({ s with spheres := some ⟨⟨centers, radii, c.boxes⟩, [], s.geometries⟩, geometries := s.geometries + 1 },
      s.geometries)
  else return (s, invalidId)

/-- `add_planes` (`blazert/scene.h:294-307`), `PlaneCollection` (`blazert/primitives/plane.h:91-102`). -/
def RefScene.addPlanes (s : RefScene T) (mem : Memory T) (centers dxs dys rotations : Nat) : Run (RefScene T × Nat) := do
  let cs ← mem.vecs.read centers
  let xs ← mem.nums.read dxs
  let ys ← mem.nums.read dys
  let rs ← mem.mats.read rotations
  if s.planes.isNone && !s.committed then
    let c ← PlaneColl.make cs xs ys rs
    return ({ s with
      planes := some ⟨⟨centers, dxs, dys, rotations, c.boxes⟩, [], s.geometries⟩, geometries := s.geometries + 1 }, s.geometries)
  else return (s, invalidId)

/-- `add_cylinders` (`blazert/scene.h:332-346`), `CylinderCollection` (`blazert/primitives/cylinder.h:91-101`). -/
def RefScene.addCylinders (s : RefScene T) (mem : Memory T) (centers as bs heights rotations : Nat) :
    Run (RefScene T × Nat) := do
  let cs ← mem.vecs.read centers
  let va ← mem.nums.read as
  let vb ← mem.nums.read bs
  let hs ← mem.nums.read heights
  let rs ← mem.mats.read rotations
  if s.cylinders.isNone && !s.committed then
    let c ← CylColl.make cs va vb hs rs
    return ({ s with
      cylinders := some ⟨⟨centers, as, bs, heights, rotations, c.boxes⟩, [], s.geometries⟩, geometries := s.geometries + 1 },
      s.geometries)
  else return (s, invalidId)

/-! ### Committing: the builder reads the containers again; the leaves get references to their elements. -/

/-- `size`, `get_primitive_bounding_box`, `get_primitive_center`, `primitive_from_collection`
(`blazert/primitives/sphere.h:35-40, 82-91`).  The first thing `build` does is to call `size()`. -/
def SphereRefs.toCollection (mem : Memory T) (c : SphereRefs T) : Run (Collection T (SphereRef T)) := do
  let cs ← mem.vecs.read c.centers
  return {
    size := cs.length
    box := lookup .oobIndex c.boxes
    center := mem.vecs.elem c.centers
    prim := fun i => do
      let center ← mem.vecs.elemRef c.centers i
      let radius ← mem.nums.elem c.radii i
      return { center, radius, primId := i } }

/-- `blazert/primitives/plane.h:41-50, 104-113` -/
def PlaneRefs.toCollection (mem : Memory T) (c : PlaneRefs T) : Run (Collection T (PlaneRef T)) := do
  let cs ← mem.vecs.read c.centers
  return {
    size := cs.length
    box := lookup .oobIndex c.boxes
    center := mem.vecs.elem c.centers
    prim := fun i => do
      let center ← mem.vecs.elemRef c.centers i
      let dx ← mem.nums.elem c.dxs i
      let dy ← mem.nums.elem c.dys i
      let rotation ← mem.mats.elemRef c.rotations i
      return { center, dx, dy, rotation, primId := i } }

/-- `blazert/primitives/trimesh.h:34-44, 97-106` -/
def MeshRefs.toCollection (mem : Memory T) (m : MeshRefs T) : Run (Collection T (TriRef T)) := do
  let fs ← mem.faces.read m.faces
  return {
    size := fs.length
    box := lookup .oobIndex m.boxes
    center := lookup .oobIndex m.centers
    prim := fun i => do
      let face ← mem.faces.elem m.faces i
      let ra ← mem.vecs.elemRef m.vertices face.x
      let a ← mem.vecs.elem m.vertices face.x
      let b ← mem.vecs.elem m.vertices face.y
      let c ← mem.vecs.elem m.vertices face.z
      return { a := ra, b := c - a, c := a - b, primId := i } }

/-- `blazert/primitives/cylinder.h:42-53, 103-112` -/
def CylRefs.toCollection (mem : Memory T) (c : CylRefs T) : Run (Collection T CylRef) := do
  let cs ← mem.vecs.read c.centers
  return {
    size := cs.length
    box := lookup .oobIndex c.boxes
    center := mem.vecs.elem c.centers
    prim := fun i => do
      let center ← mem.vecs.elemRef c.centers i
      let a ← mem.nums.elemRef c.as i
      let b ← mem.nums.elemRef c.bs i
      let height ← mem.nums.elemRef c.heights i
      let rotation ← mem.mats.elemRef c.rotations i
      return { center, a, b, height, rotation, primId := i } }

/-- `builder.build(*X_bvh, build_options)` under `if (has_X)` -/
def commitRefs {C P : Type} (part : StdPartition) (o : BuildOptions) (toColl : C → Run (Collection T P)) :
    Option (Part C T P) → Run (Option (Part C T P))
  | none => .ok none
  | some p => do
    let coll ← toColl p.coll
    let (nodes, _) ← build part coll o p.nodes
    return some { p with nodes }

/-- `commit` (`blazert/scene.h:91-115`) -/
def RefScene.commit (part : StdPartition) (mem : Memory T) (s : RefScene T) : Run (RefScene T × Bool) := do
  let mesh ← commitRefs part s.options (MeshRefs.toCollection mem) s.mesh
  let spheres ← commitRefs part s.options (SphereRefs.toCollection mem) s.spheres
  let planes ← commitRefs part s.options (PlaneRefs.toCollection mem) s.planes
  let cylinders ← commitRefs part s.options (CylRefs.toCollection mem) s.cylinders
  return ({ s with mesh, spheres, planes, cylinders, committed := true }, true)

/-! ### Queries: the primitives' references are read when a primitive is tested. -/

/-- the sphere that `intersect_primitive` sees -/
def SphereRef.load (mem : Memory T) (s : SphereRef T) : Run (Sphere T) := do
  let center ← mem.vecs.deref s.center
  return ⟨center, s.radius, s.primId⟩

/-- the plane that `intersect_primitive` sees -/
def PlaneRef.load (mem : Memory T) (p : PlaneRef T) : Run (Plane T) := do
  let center ← mem.vecs.deref p.center
  let rotation ← mem.mats.deref p.rotation
  return ⟨center, p.dx, p.dy, rotation, p.primId⟩

/-- the triangle that `intersect_primitive` sees -/
def TriRef.load (mem : Memory T) (t : TriRef T) : Run (Triangle T) := do
  let a ← mem.vecs.deref t.a
  return ⟨a, t.b, t.c, t.primId⟩

/-- the cylinder that `intersect_primitive` sees -/
def CylRef.load (mem : Memory T) (c : CylRef) : Run (Cylinder T) := do
  let center ← mem.vecs.deref c.center
  let a ← mem.nums.deref c.a
  let b ← mem.nums.deref c.b
  let height ← mem.nums.deref c.height
  let rotation ← mem.mats.deref c.rotation
  return ⟨center, a, b, height, rotation, c.primId⟩

section
variable {P Q I : Type}

/-- `intersect_leaf` (`blazert/bvh/intersect.h:67-78`); `load` reads the references of a primitive. -/
def intersectLeafR (ix : Intersector T P I) (load : Q → Run P) (ray : Ray T) : List Q → I → Bool → Run (I × Bool)
  | [], s, hit => .ok (s, hit)
  | q :: qs, s, hit => do
    let p ← load q
    let (s, h) := ix.isect s p ray
    let hit := hit || h
    if hit && ray.anyHit then return (s, hit) else intersectLeafR ix load ray qs s hit

/-- One iteration of the `while` loop of `traverse` (`blazert/bvh/accel.h:88-112`). -/
def traverseStepR (ix : Intersector T P I) (load : Q → Run P) (nodes : List (Node T Q)) (ray : Ray T) (st : TState T I) :
    Run (TState T I × Bool) := do
  let top ← st.stack.back
  let node ← lookup .oobNode nodes top
  let stack ← st.stack.pop
  if intersectNode ray.minHit st.hd node ray then
    if !node.leaf then
      let near ← ray.directionSign.get? node.axis
      let stack ← stack.push (if near = 0 then node.child1 else node.child0)
      let stack ← stack.push (if near = 0 then node.child0 else node.child1)
      return ({ st with stack }, false)
    else
      let (s, hit) ← intersectLeafR ix load ray node.prims st.isect false
      if hit then return ({ stack, hd := ix.hitDistance s, isect := s }, ray.anyHit)
      else return ({ st with stack, isect := s }, false)
  else
    return ({ st with stack }, false)

/-- The `while` loop of `traverse` (`blazert/bvh/accel.h:88-113`). -/
def traverseLoopR (ix : Intersector T P I) (load : Q → Run P) (nodes : List (Node T Q)) (ray : Ray T) :
    Nat → TState T I → Run I
  | fuel, st =>
    if st.stack.size > 0 then
      match fuel with
      | 0 => .error .outOfFuel
      | fuel + 1 => do
        let (st, brk) ← traverseStepR ix load nodes ray st
        if brk then return st.isect else traverseLoopR ix load nodes ray fuel st
    else .ok st.isect

/-- `traverse` (`blazert/bvh/accel.h:80-120`). -/
def traverseR (ix : Intersector T P I) (load : Q → Run P) (nodes : List (Node T Q)) (ray : Ray T) (rayhit : RayHit T) :
    Run (Bool × RayHit T) := do
  let st ← traverseInit ix ray
  let s ← traverseLoopR ix load nodes ray (nodes.length + 1) st
  traverseFinish ix ray rayhit s

/-- One of the blocks of `intersect1` (`blazert/scene.h:170-207`), cf. `intersectPart`. -/
def intersectRefs {C : Type} (ix : C → Intersector T P I) (load : Q → Run P) (always : Bool) (ray : Ray T) :
    Option (Part C T Q) → RayHit T × RayHit T × Bool → Run (RayHit T × RayHit T × Bool)
  | none, st => .ok st
  | some p, (temp, rayhit, hit) => do
    let (h, temp) ← traverseR (ix p.coll) load p.nodes ray temp
    if h && (always || lt temp.hitDistance rayhit.hitDistance) then
      return (temp, { temp with geomId := p.geomId }, true)
    else return (temp, rayhit, hit)

end

/-- `TriangleIntersector<T>`; `post_traversal` reads `faces` through the collection's reference
(`blazert/primitives/trimesh.h:134-143`), the normals are members of the collection. -/
def MeshRefs.ix (mem : Memory T) (m : MeshRefs T) : Intersector T (Triangle T) (TriI T) where
  prepare := triPrepare
  isect := triIntersect
  hitDistance := TriI.hd
  post := fun i rh => do
    let fs ← mem.faces.read m.faces
    triPost ⟨[], fs, m.centers, m.boxes, m.faceNormals, m.vertexNormals⟩ i rh

/-- `SphereIntersector<T>`; `post_traversal` reads `centers` through the collection's reference
(`blazert/primitives/sphere.h:108-114`). -/
def SphereRefs.ix (mem : Memory T) (c : SphereRefs T) : Intersector T (Sphere T) (SphereI T) where
  prepare := spherePrepare
  isect := sphereIntersect
  hitDistance := SphereI.hd
  post := fun i rh => do
    let cs ← mem.vecs.read c.centers
    spherePost ⟨cs, [], c.boxes⟩ i rh

/-- `intersect1` (`blazert/scene.h:162-211`). -/
def RefScene.intersect1 (s : RefScene T) (mem : Memory T) (ray : Ray T) (rayhit : RayHit T) : Run (Bool × RayHit T) := do
  let st := (RayHit.fresh, rayhit, false)
  let st ← intersectRefs (MeshRefs.ix mem) (TriRef.load mem) true ray s.mesh st
  let st ← intersectRefs (SphereRefs.ix mem) (SphereRef.load mem) false ray s.spheres st
  let st ← intersectRefs (fun _ => planeIx) (PlaneRef.load mem) false ray s.planes st
  let st ← intersectRefs (fun _ => cylIx) (CylRef.load mem) false ray s.cylinders st
  return (st.2.2, st.2.1)

/-! ### Programs -/

/-- What happens, as far as the scene is concerned: the caller changes its memory in any way, or calls the API (containers
are named by their numbers).  A `commit` comes with the implementation of `std::partition` it uses. -/
inductive Event (T : Type) where
  | change (mem : Memory T)
  | addMesh (vertices faces : Nat)
  | addSpheres (centers radii : Nat)
  | addPlanes (centers dxs dys rotations : Nat)
  | addCylinders (centers as bs heights rotations : Nat)
  | commit (part : StdPartition)

/-- execution of one event on memory and scene -/
def Event.exec : Memory T × RefScene T → Event T → Run (Memory T × RefScene T)
  | (_, s), .change mem => .ok (mem, s)
  | (m, s), .addMesh v f => do let (s, _) ← s.addMesh m v f; return (m, s)
  | (m, s), .addSpheres c r => do let (s, _) ← s.addSpheres m c r; return (m, s)
  | (m, s), .addPlanes c x y r => do let (s, _) ← s.addPlanes m c x y r; return (m, s)
  | (m, s), .addCylinders c a b h r => do let (s, _) ← s.addCylinders m c a b h r; return (m, s)
  | (m, s), .commit part => do let (s, _) ← s.commit part m; return (m, s)

/-- execution of a program -/
def runEvents (st : Memory T × RefScene T) (es : List (Event T)) : Run (Memory T × RefScene T) := es.foldlM Event.exec st

end
end Blazert
