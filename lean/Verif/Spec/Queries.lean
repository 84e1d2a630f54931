/- Specification vocabulary: comparing queries on scenes. -/
import Verif.Spec.Hits

set_option autoImplicit false

namespace Blazert
variable {F : Fmt ℝ}

/-- No face of a mesh is passed so narrowly on the outside that only the tolerance `tol` decides about it. -/
def Scene.Clear (tol : ℝ) (s : Scene (XF F)) (o u : Vec3 ℝ) (m : ℝ) : Prop :=
  ∀ g i t, s.Near tol o u m g i t → s.Hit o u m g i t

section
variable {T : Type}

/-- the triangles of the scene, each given by its three vertices -/
def Scene.faceList (s : Scene T) : List (Option (Vec3 T) × Option (Vec3 T) × Option (Vec3 T)) :=
  match s.mesh with
  | none => []
  | some p => p.coll.faces.map fun f => (p.coll.vertices[f.x]?, p.coll.vertices[f.y]?, p.coll.vertices[f.z]?)

/-- the spheres of the scene: center and radius -/
def Scene.sphereList (s : Scene T) : List (Vec3 T × T) :=
  match s.spheres with
  | none => []
  | some p => p.coll.centers.zip p.coll.radii

/-- the rectangles of the scene: center, sides, orientation -/
def Scene.planeList (s : Scene T) : List (Vec3 T × T × T × Mat3 T) :=
  match s.planes with
  | none => []
  | some p => p.coll.centers.zip (p.coll.dxs.zip (p.coll.dys.zip p.coll.rotations))

/-- both scenes consist of the same triangles, spheres and rectangles, perhaps in another order -/
structure Scene.Reordered (s s' : Scene T) : Prop where
  faces : s.faceList.Perm s'.faceList
  spheres : s.sphereList.Perm s'.sphereList
  planes : s.planeList.Perm s'.planeList

/-- every triangle, sphere and rectangle of `s` also occurs in `s'` -/
structure Scene.Sub (s s' : Scene T) : Prop where
  faces : s.faceList ⊆ s'.faceList
  spheres : s.sphereList ⊆ s'.sphereList
  planes : s.planeList ⊆ s'.planeList

end

/-- two distances are the same real number -/
def SameDistance (x y : XF F) : Prop := ∃ t, x.Is t ∧ y.Is t

end Blazert
