/- Model of stream output (`operator<<`). -/
import Verif.Model.Scene
import Verif.Model.Embree

set_option autoImplicit false

namespace Blazert

abbrev Text := List Char

/-- a string literal -/
def lit (s : String) : Text := s.toList

/-- What the standard library prints for numbers of type `T` and for unsigned integers, with the settings of the stream. -/
structure Printer (T : Type) where
  num : T → Text
  nat : Nat → Text

section
variable {T P : Type}

/-- `v[0] << sep << v[1] << sep << v[2]` -/
def Printer.three {A : Type} (f : A → Text) (sep : String) (v : Vec3 A) : Text :=
  [f v.x, lit sep, f v.y, lit sep, f v.z].flatten

/-- the three rows of a matrix (`blazert/primitives/plane.h:296-301`, `blazert/primitives/cylinder.h:771-776`) -/
def Printer.matrix (pr : Printer T) (m : Mat3 T) : Text :=
  [lit "  \"rotation\": [[", three pr.num ", " m.r0, lit "],\n",
   lit "             [", three pr.num ", " m.r1, lit "],\n",
   lit "             [", three pr.num ", " m.r2, lit "]],\n"].flatten

/-- `operator<<(std::ostream &, const Ray<T> &)` (`blazert/ray.h:88-104`); `this` is what is printed for the address. -/
def Ray.print (pr : Printer T) (this : Text) (ray : Ray T) : Text :=
  [lit "{\n",
   lit "  Ray: ", this, lit ",\n",
   lit "  origin: [", Printer.three pr.num "," ray.origin, lit "],\n",
   lit "  direction: [", Printer.three pr.num "," ray.direction, lit "],\n",
   lit "  direction_inv: [", Printer.three pr.num "," ray.directionInv, lit "],\n",
   lit "  direction_sign: [", Printer.three pr.nat "," ray.directionSign, lit "],\n",
   lit "  min_hit_distance: ", pr.num ray.minHit, lit ",\n",
   lit "  max_hit_distance ", pr.num ray.maxHit, lit ",\n",
   lit "  cull_back_face ", lit (if ray.cullBackFace then "yes" else "no"), lit ",\n",
   lit "  any_hit: ", lit (if ray.anyHit then "yes" else "no"), lit "\n",
   lit "}\n"].flatten

/-- `operator<<` for `RayHit<T>` (`blazert/ray.h:106-120`). -/
def RayHit.print (pr : Printer T) (this : Text) (rayhit : RayHit T) : Text :=
  [lit "{\n",
   lit "  Ray: ", this, lit ",\n",
   lit "  normal: [", Printer.three pr.num "," rayhit.normal, lit "],\n",
   lit "  uv: [", pr.num rayhit.uv.1, lit ",", pr.num rayhit.uv.2, lit "],\n",
   lit "  hit_distance: ", pr.num rayhit.hitDistance, lit ",\n",
   lit "  prim_id: ", pr.nat rayhit.primId, lit ",\n",
   lit "  geom_id: ", pr.nat rayhit.geomId, lit ",\n",
   lit "}\n"].flatten

/-- `operator<<` for `BVHNode<T, Collection>` (`blazert/bvh/node.h:43-53`). -/
def Node.print (pr : Printer T) (this : Text) (node : Node T P) : Text :=
  [lit "{\n",
   lit "  \"node\": ", this, lit ",\n",
   lit "  \"min:\" [", Printer.three pr.num ", " node.min, lit "],\n",
   lit "  \"max:\" [", Printer.three pr.num ", " node.max, lit "],\n",
   lit "  \"leaf\": ", pr.nat (if node.leaf then 1 else 0), lit ",\n",
   lit "  \"axis\": ", pr.nat node.axis, lit "\n",
   lit "}\n"].flatten

/-- `operator<<` for `BVH<T, Primitive>` (`blazert/bvh/accel.h:122-144`); `addr i` is the text for the address of node `i`. -/
def printBVH (pr : Printer T) (addr : Nat → Text) (nodes : List (Node T P)) : Text :=
  lit "{" ++ lit "\n" ++ lit "\"nodes\": [ " ++ lit "\n" ++
  (nodes.zipIdx.flatMap fun (node, i) =>
    node.print pr (addr i) ++ (if i < nodes.length - 1 then lit ", " else lit "]") ++ lit "\n") ++
  lit "}" ++ lit "\n"

/-- `operator<<` for `BVHBuildStatistics<T>` (`blazert/bvh/statistics.h:39-53`); `time` is the text of the build time. -/
def Statistics.print (pr : Printer T) (this time : Text) (stats : Statistics) : Text :=
  [lit "{\n",
   lit "  statistics: ", this, lit ",\n",
   lit "  max_tree_depth: ", pr.nat stats.maxTreeDepth, lit ",\n",
   lit "  max_num_prims_per_leaf: ", pr.nat stats.maxPrims, lit ",\n",
   lit "  min_num_prims_per_leaf: ", pr.nat stats.minPrims, lit ",\n",
   lit "  leaf_nodes: ", pr.nat stats.leafNodes, lit ",\n",
   lit "  branch_nodes: ", pr.nat stats.branchNodes, lit ",\n",
   lit "  bad_splits: ", pr.nat stats.badSplits, lit ",\n",
   lit "  build_time: ", time, lit "\n",
   lit "}\n"].flatten

/-- `operator<<` for `Sphere<T>` (`blazert/primitives/sphere.h:184-200`). -/
def Sphere.print (pr : Printer T) (this : Text) (sphere : Sphere T) : Text :=
  [lit "{\n",
   lit "  \"Sphere\": ", this, lit ",\n",
   lit "  \"center\": [", Printer.three pr.num "," sphere.center, lit "],\n",
   lit "  \"radius\": ", pr.num sphere.radius, lit ",\n",
   lit "  \"prim_id\": ", pr.nat sphere.primId, lit "\n",
   lit "}\n"].flatten

/-- `operator<<` for `Plane<T>` (`blazert/primitives/plane.h:287-306`). -/
def Plane.print (pr : Printer T) (this : Text) (plane : Plane T) : Text :=
  [lit "{\n",
   lit "  \"Plane\": ", this, lit ",\n",
   lit "  \"center\": [", Printer.three pr.num "," plane.center, lit "],\n",
   lit "  \"dx\": ", pr.num plane.dx, lit ",\n",
   lit "  \"dy\": ", pr.num plane.dy, lit ",\n",
   pr.matrix plane.rotation,
   lit "  \"prim_id\": ", pr.nat plane.primId, lit "\n",
   lit "}\n"].flatten

/-- `operator<<` for `Triangle<T>` (`blazert/primitives/trimesh.h:195-208`). -/
def Triangle.print (pr : Printer T) (this : Text) (triangle : Triangle T) : Text :=
  [lit "{\n",
   lit "  \"Triangle\": ", this, lit ",\n",
   lit "  \"a\": [ ", pr.num triangle.a.x, lit ", ", pr.num triangle.c.y, lit ", ", pr.num triangle.a.z, lit "],\n",
   lit "  \"b\": [ ", Printer.three pr.num ", " triangle.b, lit "],\n",
   lit "  \"c\": [ ", Printer.three pr.num ", " triangle.c, lit "],\n",
   lit "  \"prim_id\": ", pr.nat triangle.primId, lit "\n",
   lit "}\n"].flatten

/-- `operator<<` for `Cylinder<T>` (`blazert/primitives/cylinder.h:760-781`). -/
def Cylinder.print (pr : Printer T) (this : Text) (cylinder : Cylinder T) : Text :=
  [lit "{\n",
   lit "  \"Cylinder\": ", this, lit ",\n",
   lit "  \"center\": [", Printer.three pr.num "," cylinder.center, lit "],\n",
   lit "  \"semi_axis_a\": ", pr.num cylinder.a, lit ",\n",
   lit "  \"semi_axis_b\": ", pr.num cylinder.b, lit ",\n",
   lit "  \"height\": ", pr.num cylinder.height, lit ",\n",
   pr.matrix cylinder.rotation,
   lit "  \"prim_id\": ", pr.nat cylinder.primId, lit "\n",
   lit "}\n"].flatten

/-- `operator<<` for a collection (`blazert/primitives/sphere.h:202-220`, `plane.h:308-326`, `trimesh.h:210-227`,
`cylinder.h:783-802`): `head` is the text up to the size, `addr i` the text for the address of the temporary `i`. -/
def Collection.print (pr : Printer T) (head : String) (item : Text → P → Text) (addr : Nat → Text) (coll : Collection T P) :
    Run Text := do
  let items ← (List.range coll.size).mapM fun i => do
    let p ← coll.prim i
    return item (addr i) p ++ lit (if i = coll.size - 1 then "]\n" else ", \n")
  return lit "{\n" ++ lit head ++ pr.nat coll.size ++ lit "},\n" ++ items.flatten ++ lit "}\n"

def SphereColl.print (pr : Printer T) (addr : Nat → Text) (coll : SphereColl T) : Run Text :=
  coll.toCollection.print pr "\"SphereCollection\": [\n{\"size\": " (Sphere.print pr) addr

def PlaneColl.print (pr : Printer T) (addr : Nat → Text) (coll : PlaneColl T) : Run Text :=
  coll.toCollection.print pr "\"PlaneCollection\": [\n{\"size\": " (Plane.print pr) addr

def MeshColl.print [Scalar T] (pr : Printer T) (addr : Nat → Text) (coll : MeshColl T) : Run Text :=
  coll.toCollection.print pr "\"TriangleMesh\": [\n{\"size\": " (Triangle.print pr) addr

def CylColl.print (pr : Printer T) (addr : Nat → Text) (coll : CylColl T) : Run Text :=
  coll.toCollection.print pr "\"CylinderCollection\": [\n{ \"size\": " (Cylinder.print pr) addr

/-- one of the four members of a scene, if it is there -/
def printPart {C : Type} (print : C → Run Text) (more : Bool) : Option (Part C T P) → Run Text
  | none => return []
  | some p => do
    let s ← print p.coll
    return s ++ (if more then lit ",\n" else [])

/-- `operator<<` for `BlazertScene<T>` (`blazert/scene.h:118-149`); `addr k i` is the text for the address of temporary `i` of
the collection number `k`.  The flags `has_X` are those of `X_collection != nullptr` (set together in `add_X`). -/
def Scene.print [Scalar T] (pr : Printer T) (this : Text) (addr : Nat → Nat → Text) (scene : Scene T) : Run Text := do
  let m ← printPart (MeshColl.print pr (addr 0))
    (scene.spheres.isSome || scene.cylinders.isSome || scene.planes.isSome) scene.mesh
  let s ← printPart (SphereColl.print pr (addr 1)) (scene.cylinders.isSome || scene.planes.isSome) scene.spheres
  let c ← printPart (CylColl.print pr (addr 2)) scene.planes.isSome scene.cylinders
  let p ← printPart (PlaneColl.print pr (addr 3)) false scene.planes
  return lit "{\n" ++ lit "  \"Scene\": " ++ this ++ lit ",\n" ++ lit "  \"Collections\": [" ++ lit "\n" ++ m ++ s ++ c ++ p ++
    lit "  ]\n" ++ lit "}\n"

/-- `operator<<` for `EmbreeSphere` (`blazert/embree/primitives/EmbreeSphere.h:190-204`). -/
def EmbSphere.print (pr : Printer T) (this : Text) (sphere : EmbSphere T) : Text :=
  [lit "{\n",
   lit "  \"EmbreeSphere\": ", this, lit ",\n",
   lit "  \"center\": [", Printer.three pr.num "," sphere.center, lit "],\n",
   lit "  \"radius\": ", pr.num sphere.radius, lit "\n",
   lit "}\n"].flatten

/-- `operator<<` for `EmbreePlane` (`blazert/embree/primitives/EmbreePlane.h:266-288`). -/
def EmbPlane.print (pr : Printer T) (this : Text) (plane : EmbPlane T) : Text :=
  [lit "{\n",
   lit "  \"EmbreePlane\": ", this, lit ",\n",
   lit "  \"center\": [", Printer.three pr.num "," plane.center, lit "],\n",
   lit "  \"d1\": ", pr.num plane.d1, lit "\n",
   lit "  \"d2\": ", pr.num plane.d2, lit "\n",
   pr.matrix plane.rot,
   lit "}\n"].flatten

/-- `operator<<` for `EmbreeCylinder` (`blazert/embree/primitives/EmbreeCylinder.h:551-576`). -/
def EmbCyl.print (pr : Printer T) (this : Text) (cylinder : EmbCyl T) : Text :=
  [lit "{\n",
   lit "  \"EmbreeCylinder\": ", this, lit ",\n",
   lit "  \"cylinder\": [", Printer.three pr.num "," cylinder.center, lit "],\n",
   lit "  \"a\": ", pr.num cylinder.a, lit "\n",
   lit "  \"b\": ", pr.num cylinder.b, lit "\n",
   lit "  \"height\": ", pr.num cylinder.height, lit "\n",
   pr.matrix cylinder.rot,
   lit "}\n"].flatten

end

end Blazert
