/- Sizes of geometry, as assumed by C85. -/
import Verif.Spec.SceneRound

set_option autoImplicit false

namespace Blazert

section
variable {K : Type} [Field K] [LinearOrder K] [IsStrictOrderedRing K] [FloorRing K] {F : Fmt K}

/-- `x` is greater than the number `B` -/
def Exceeds (x : XF F) (B : K) : Prop := x = .inf false ∨ ∃ X, x.Is X ∧ B < X

/-- numbers only, and no sphere is farther than `L` from the point `o` -/
def SpheresWithin (coll : SphereColl (XF F)) (o : Vec3 K) (L : K) : Prop :=
  ∀ (i : Nat) (center : Vec3 (XF F)) (radius : XF F), coll.centers[i]? = some center → coll.radii[i]? = some radius →
    ∃ c r, IsV center c ∧ radius.Is r ∧ |o.x - c.x| + |o.y - c.y| + |o.z - c.z| + |r| ≤ L

/-- the same for rectangles, whose matrices are rotations up to `ε` -/
def RectsWithin (coll : PlaneColl (XF F)) (o : Vec3 K) (L ε : K) : Prop :=
  ∀ (i : Nat) (center : Vec3 (XF F)) (dx dy : XF F) (rotation : Mat3 (XF F)), coll.centers[i]? = some center →
    coll.dxs[i]? = some dx → coll.dys[i]? = some dy → coll.rotations[i]? = some rotation →
    ∃ c a b R, IsV center c ∧ dx.Is a ∧ dy.Is b ∧ IsM rotation R ∧ NearOrtho ε R ∧
      |o.x - c.x| + |o.y - c.y| + |o.z - c.z| + |a| + |b| ≤ L

/-- the same for the vertices of a mesh; and the determinants computed for a ray of direction `dir` are zero or not tiny -/
structure FacesWithin (mesh : MeshColl (XF F)) (o : Vec3 K) (dir : Vec3 (XF F)) (L lo : K) : Prop where
  size : ∀ v ∈ mesh.vertices, ∃ V, IsV v V ∧ 2 * oneNorm (V - o) ≤ L
  det : ∀ (i : Nat) (face : Vec3 Nat) (a b c : Vec3 (XF F)) (D : K), mesh.faces[i]? = some face →
    mesh.vertices[face.x]? = some a → mesh.vertices[face.y]? = some b → mesh.vertices[face.z]? = some c →
    (Vec3.dot (Vec3.cross (a - b) (c - a)) dir).Is D → D = 0 ∨ lo ≤ |D|

/-- all geometry of the scene, which has no cylinders -/
structure SceneWithin (s : Scene (XF F)) (o : Vec3 K) (dir : Vec3 (XF F)) (L ε lo : K) : Prop where
  spheres : ∀ q, s.spheres = some q → SpheresWithin q.coll o L
  planes : ∀ q, s.planes = some q → RectsWithin q.coll o L ε
  mesh : ∀ q, s.mesh = some q → FacesWithin q.coll o dir L lo
  cylinders : s.cylinders = none

end
end Blazert
