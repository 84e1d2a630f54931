/- Specification vocabulary: when a ray hits the content of a scene, in real three-dimensional space.  The content is given
by the lists the user passed to the `add_*` functions.  Nothing here refers to how blazert computes. -/
import Verif.Spec.Geometry
import Verif.Spec.Boxes
import Verif.Model.Scene

set_option autoImplicit false

namespace Blazert

variable {F : Fmt ℝ}

/-- the third column of `R`: the direction perpendicular to the rectangle -/
def perp {K : Type} (R : Mat3 K) : Vec3 K := ⟨R.r0.z, R.r1.z, R.r2.z⟩

/-- a normal (not of unit length) of the triangle -/
def triPerp (A B C : Vec3 ℝ) : Vec3 ℝ := Vec3.cross (B - A) (C - A)

/-- The arguments of the `Ray` constructor describe the ray `o + t d` with `d ≠ 0`, `m` and `M` being the minimal and maximal
hit distance, `0 ≤ m`. -/
structure RayBase (origin direction : Vec3 (XF F)) (minHit maxHit : XF F) (o d : Vec3 ℝ) (m M : ℝ) : Prop where
  org : IsV origin o
  dir : IsV direction d
  min : minHit.Is m
  max : maxHit.Is M
  nonneg : 0 ≤ m
  ne_zero : d ≠ ⟨0, 0, 0⟩

/-- In addition, `|d| = 1` (or `1 ≤ |d|` if `m = 0`), and there is no component `-0.0` in the direction. -/
structure RayFor (origin direction : Vec3 (XF F)) (minHit maxHit : XF F) (o d : Vec3 ℝ) (m M : ℝ) : Prop extends
    RayBase origin direction minHit maxHit o d m M where
  scale : len d = 1 ∨ (1 ≤ len d ∧ m = 0)
  noNegZero : ∀ i, direction.get i ≠ .fin 0 true

/-- the unit vector in direction `d` -/
noncomputable def unit (d : Vec3 ℝ) : Vec3 ℝ := Vec3.divs d (len d)

/-- the ray `o + t u` meets sphere number `i` at the distance `t > m` -/
def SphereHit (centers : List (Vec3 (XF F))) (radii : List (XF F)) (o u : Vec3 ℝ) (m : ℝ) (i : Nat) (t : ℝ) : Prop :=
  ∃ x y c r, centers[i]? = some x ∧ radii[i]? = some y ∧ IsV x c ∧ y.Is r ∧ m < t ∧ OnSphere c r (along o u t)

/-- the ray `o + t u` crosses rectangle number `i` at the distance `t > m` -/
def PlaneHit (centers : List (Vec3 (XF F))) (dxs dys : List (XF F)) (rotations : List (Mat3 (XF F))) (o u : Vec3 ℝ) (m : ℝ)
    (i : Nat) (t : ℝ) : Prop :=
  ∃ x y z w c dx dy R, centers[i]? = some x ∧ dxs[i]? = some y ∧ dys[i]? = some z ∧ rotations[i]? = some w ∧
    IsV x c ∧ y.Is dx ∧ z.Is dy ∧ IsM w R ∧ m < t ∧ Vec3.dot (perp R) u ≠ 0 ∧ InRect c dx dy R (along o u t)

/-- the real vertices of face number `i` -/
def FaceIs (vertices : List (Vec3 (XF F))) (faces : List (Vec3 Nat)) (i : Nat) (A B C : Vec3 ℝ) : Prop :=
  ∃ f a b c, faces[i]? = some f ∧ vertices[f.x]? = some a ∧ vertices[f.y]? = some b ∧ vertices[f.z]? = some c ∧
    IsV a A ∧ IsV b B ∧ IsV c C

/-- the ray `o + t u` crosses face number `i` at the distance `t ≥ m` -/
def FaceHit (vertices : List (Vec3 (XF F))) (faces : List (Vec3 Nat)) (o u : Vec3 ℝ) (m : ℝ) (i : Nat) (t : ℝ) : Prop :=
  ∃ A B C, FaceIs vertices faces i A B C ∧ m ≤ t ∧ Vec3.dot (triPerp A B C) u ≠ 0 ∧ InTriangle A B C (along o u t)

/-- the ray `o + t u` crosses the plane of face number `i` at the distance `t ≥ m`, at a point whose barycentric
coordinates are at least `-tol / |n·u|`, where `n` is the cross product of two edges -/
def FaceNear (tol : ℝ) (vertices : List (Vec3 (XF F))) (faces : List (Vec3 Nat)) (o u : Vec3 ℝ) (m : ℝ) (i : Nat) (t : ℝ) :
    Prop :=
  ∃ A B C p q, FaceIs vertices faces i A B C ∧ m ≤ t ∧ Vec3.dot (triPerp A B C) u ≠ 0 ∧ along o u t = bary A B C p q ∧
    ∀ x ∈ [p, q, 1 - p - q], -tol ≤ x * |Vec3.dot (triPerp A B C) u|

/-- the ray `o + t u` hits a mesh face, sphere or plane of the scene at the distance `t` (the scene's contents are the
lists given to `add_mesh`, `add_spheres`, `add_planes`); `gid`, `pid` are its geometry id and its number in the list -/
def Scene.Hit (s : Scene (XF F)) (o u : Vec3 ℝ) (m : ℝ) (gid pid : Nat) (t : ℝ) : Prop :=
  (∃ p, s.mesh = some p ∧ gid = p.geomId ∧ FaceHit p.coll.vertices p.coll.faces o u m pid t) ∨
  (∃ p, s.spheres = some p ∧ gid = p.geomId ∧ SphereHit p.coll.centers p.coll.radii o u m pid t) ∨
  (∃ p, s.planes = some p ∧ gid = p.geomId ∧
    PlaneHit p.coll.centers p.coll.dxs p.coll.dys p.coll.rotations o u m pid t)

/-- like `Scene.Hit`, but for mesh faces allowing the tolerance -/
def Scene.Near (tol : ℝ) (s : Scene (XF F)) (o u : Vec3 ℝ) (m : ℝ) (gid pid : Nat) (t : ℝ) : Prop :=
  (∃ p, s.mesh = some p ∧ gid = p.geomId ∧ FaceNear tol p.coll.vertices p.coll.faces o u m pid t) ∨
  (∃ p, s.spheres = some p ∧ gid = p.geomId ∧ SphereHit p.coll.centers p.coll.radii o u m pid t) ∨
  (∃ p, s.planes = some p ∧ gid = p.geomId ∧
    PlaneHit p.coll.centers p.coll.dxs p.coll.dys p.coll.rotations o u m pid t)

/-- The meshes, spheres and planes of the scene are meaningful: all numbers are finite, radii are not negative, rectangles have
positive sides and orthonormal orientation. -/
structure Scene.Content (s : Scene (XF F)) : Prop where
  vertices : ∀ p, s.mesh = some p → ∀ v ∈ p.coll.vertices, ∃ A, IsV v A
  spheres : ∀ p, s.spheres = some p → ∀ (i : Nat) x y, p.coll.centers[i]? = some x → p.coll.radii[i]? = some y →
    ∃ c r, IsV x c ∧ y.Is r ∧ 0 ≤ r
  planes : ∀ p, s.planes = some p → ∀ (i : Nat) x y z w, p.coll.centers[i]? = some x → p.coll.dxs[i]? = some y →
    p.coll.dys[i]? = some z → p.coll.rotations[i]? = some w →
    ∃ c dx dy R, IsV x c ∧ y.Is dx ∧ z.Is dy ∧ IsM w R ∧ 0 < dx ∧ 0 < dy ∧ Orthonormal R

/-- In addition, there are only meshes, spheres and planes. -/
structure Scene.Plain (s : Scene (XF F)) : Prop extends s.Content where
  noCylinders : s.cylinders = none

/-- The bounding boxes of meshes, spheres and planes are in the range of the format. -/
structure Scene.InRange (s : Scene (XF F)) : Prop where
  meshRange : ∀ p, s.mesh = some p → ∀ b ∈ p.coll.boxes, BoxInRange b
  sphereRange : ∀ p, s.spheres = some p → ∀ b ∈ p.coll.boxes, BoxInRange b
  planeRange : ∀ p, s.planes = some p → ∀ b ∈ p.coll.boxes, BoxInRange b

/-- There are only meshes, spheres and planes, which are meaningful and have bounding boxes in the range of the format. -/
structure Scene.Good (s : Scene (XF F)) : Prop extends s.Plain, s.InRange

/-- the ray is not parallel to the z faces of the bounding boxes, or it does not start in the plane of one of them -/
structure Scene.OffZFaces (s : Scene (XF F)) (o d : Vec3 ℝ) : Prop where
  mesh : d.z = 0 → ∀ p, s.mesh = some p → ∀ b ∈ p.coll.boxes, ¬ b.1.z.Is o.z ∧ ¬ b.2.z.Is o.z
  spheres : d.z = 0 → ∀ p, s.spheres = some p → ∀ b ∈ p.coll.boxes, ¬ b.1.z.Is o.z ∧ ¬ b.2.z.Is o.z
  planes : d.z = 0 → ∀ p, s.planes = some p → ∀ b ∈ p.coll.boxes, ¬ b.1.z.Is o.z ∧ ¬ b.2.z.Is o.z

/-- the record describes a hit on a sphere of the collection -/
def SphereRep (coll : SphereColl (XF F)) (o u : Vec3 ℝ) (m : ℝ) (rh : RayHit (XF F)) (t : ℝ) : Prop :=
  ∃ x y c r, coll.centers[rh.primId]? = some x ∧ coll.radii[rh.primId]? = some y ∧ IsV x c ∧ y.Is r ∧ m < t ∧
    OnSphere c r (along o u t) ∧ (0 < r → ∃ n, IsV rh.normal n ∧ len n = 1 ∧ along o u t = c + Vec3.smul r n)

/-- the record describes a hit on a rectangle of the collection -/
def PlaneRep (coll : PlaneColl (XF F)) (o u : Vec3 ℝ) (m : ℝ) (rh : RayHit (XF F)) (t : ℝ) : Prop :=
  ∃ x y z w c dx dy R a b, coll.centers[rh.primId]? = some x ∧ coll.dxs[rh.primId]? = some y ∧
    coll.dys[rh.primId]? = some z ∧ coll.rotations[rh.primId]? = some w ∧
    IsV x c ∧ y.Is dx ∧ z.Is dy ∧ IsM w R ∧ m < t ∧ Vec3.dot (perp R) u ≠ 0 ∧ |a| ≤ dx / 2 ∧ |b| ≤ dy / 2 ∧
    along o u t = c + R.mulVec ⟨a, b, 0⟩ ∧
    (|a| ≠ dx / 2 → |b| ≠ dy / 2 → ∃ n, IsV rh.normal n ∧ len n = 1 ∧ (n = perp R ∨ n = Vec3.smul (-1) (perp R)) ∧
      0 < Vec3.dot n (o - c) ∧ Vec3.dot n u < 0)

/-- the record describes a hit on a face of the mesh, up to the tolerance -/
def FaceRep (mesh : MeshColl (XF F)) (o u : Vec3 ℝ) (m : ℝ) (rh : RayHit (XF F)) (t : ℝ) : Prop :=
  ∃ A B C p q, FaceIs mesh.vertices mesh.faces rh.primId A B C ∧ m ≤ t ∧ Vec3.dot (triPerp A B C) u ≠ 0 ∧
    along o u t = bary A B C p q ∧ (∀ x ∈ [p, q, 1 - p - q], -(4 * F.eps) ≤ x * |Vec3.dot (triPerp A B C) u|) ∧
    rh.uv.1.Is p ∧ rh.uv.2.Is q

/-- the record names an object of the scene and describes its hit with the ray `o + t u` at the distance `t` -/
def Scene.Rep (s : Scene (XF F)) (o u : Vec3 ℝ) (m : ℝ) (rh : RayHit (XF F)) (t : ℝ) : Prop :=
  (∃ p, s.mesh = some p ∧ rh.geomId = p.geomId ∧ FaceRep p.coll o u m rh t) ∨
  (∃ p, s.spheres = some p ∧ rh.geomId = p.geomId ∧ SphereRep p.coll o u m rh t) ∨
  (∃ p, s.planes = some p ∧ rh.geomId = p.geomId ∧ PlaneRep p.coll o u m rh t)

end Blazert
