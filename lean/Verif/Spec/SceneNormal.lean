/- What it means for the normal and the coordinates of a reported hit to be right up to rounding, for the four kinds of geometry (C93). -/
import Verif.Spec.SceneRound
import Verif.Spec.CylNormal
import Verif.Spec.Hits

set_option autoImplicit false

namespace Blazert

section
variable {K : Type} [Field K] [LinearOrder K] [IsStrictOrderedRing K] [FloorRing K] {F : Fmt K}

/-- The normal is the outward one of sphere `id` at the reported point, up to rounding errors (`u` is half a unit in the last place of one;
`lo` and `up` delimit the sizes covered). -/
def ShadedSphere (u lo up : K) (coll : SphereColl (XF F)) (id : Nat) (t : XF F) (normal : Vec3 (XF F)) (o d : Vec3 K) : Prop :=
  ∃ center radius, coll.centers[id]? = some center ∧ coll.radii[id]? = some radius ∧
    ∀ c r L, IsV center c → radius.Is r → |o.x| + |o.y| + |o.z| + |c.x| + |c.y| + |c.z| + r ≤ L → lo ≤ r → L ≤ up →
      5000 * (u * L ^ 2) ≤ r ^ 2 →
      ∃ h n, t.Is h ∧ 0 ≤ h ∧ IsV normal n ∧ |Vec3.dot n n - 1| ≤ 11 * u ∧
        ∀ k, |n.get k - ((along o d h).get k - c.get k) / r| ≤ 2100 * u * (L / r) ^ 2

/-- Unless the reported point is at the edge of rectangle `id`, the normal is the one that points to the side from which the ray comes, up
to rounding errors. -/
def ShadedRect (u lo up : K) (coll : PlaneColl (XF F)) (id : Nat) (t : XF F) (normal : Vec3 (XF F)) (o d : Vec3 K) : Prop :=
  ∃ center dx dy rotation, coll.centers[id]? = some center ∧ coll.dxs[id]? = some dx ∧ coll.dys[id]? = some dy ∧
    coll.rotations[id]? = some rotation ∧
    ∀ c a b R ε L, IsV center c → dx.Is a → dy.Is b → IsM rotation R → NearOrtho ε R → ε ≤ 1 / 1000 →
      |o.x - c.x| + |o.y - c.y| + |o.z - c.z| + |a| + |b| ≤ L → lo ≤ L → L ≤ up →
      ∃ h, t.Is h ∧ 0 ≤ h ∧
        (|(R.trans.mulVec (along o d h - c)).x| + (185 * u + 11 * ε) * L < a / 2 →
        |(R.trans.mulVec (along o d h - c)).y| + (185 * u + 11 * ε) * L < b / 2 →
        ∃ n σ, IsV normal n ∧ |Vec3.dot n n - 1| ≤ 11 * u ∧ (σ = 1 ∨ σ = -1) ∧
          (∀ k, |n.get k - σ * (perp R).get k| ≤ 80 * u + ε) ∧
          -(6 * u * L) ≤ σ * Vec3.dot (perp R) (o - c) ∧ σ * Vec3.dot (perp R) d ≤ 8 * u)

/-- Unless the ray is nearly parallel to face `id`, the reported coordinates are the barycentric ones of the reported point, up to rounding
errors. -/
def LocatedFace (u lo up top m : K) (mesh : MeshColl (XF F)) (id : Nat) (t : XF F) (uv : XF F × XF F) (o d : Vec3 K) : Prop :=
  ∃ face a b c, mesh.faces[id]? = some face ∧ mesh.vertices[face.x]? = some a ∧ mesh.vertices[face.y]? = some b ∧
    mesh.vertices[face.z]? = some c ∧
    ∀ A B C L, IsV a A → IsV b B → IsV c C → (∀ V ∈ [A, B, C], 2 * oneNorm (V - o) ≤ L) → lo ≤ L → L ≤ up → 2 * L ^ 2 * m ≤ top →
      11 * u * L ^ 2 ≤ |Vec3.dot (normalOf A B C) d| →
      ∃ h U V, t.Is h ∧ 0 ≤ h ∧ uv.1.Is U ∧ uv.2.Is V ∧
        (∀ j, |Vec3.dot (normalOf A B C) d| * |(along o d h).get j - ((1 - U - V) * A.get j + U * B.get j + V * C.get j)| ≤
          14 * u * L ^ 2 * (h + (3 + |U| + |V|) * L)) ∧
        ∀ w ∈ [U, V, 1 - U - V], -(8 * u + 60 * u * L ^ 2 * (1 + |U| + |V|)) ≤ |Vec3.dot (normalOf A B C) d| * w

/-- The normal has the direction of the combination of the three vertex normals of face `id` with the reported coordinates, up to rounding
errors, provided this combination does not vanish. -/
def ShadedFace (u lo up : K) (mesh : MeshColl (XF F)) (id : Nat) (uv : XF F × XF F) (normal : Vec3 (XF F)) : Prop :=
  ∃ face n0 n1 n2, mesh.faces[id]? = some face ∧ mesh.vertexNormals[face.x]? = some n0 ∧ mesh.vertexNormals[face.y]? = some n1 ∧
    mesh.vertexNormals[face.z]? = some n2 ∧
    ∀ N0 N1 N2 U V S, IsV n0 N0 → IsV n1 N1 → IsV n2 N2 → uv.1.Is U → uv.2.Is V → |U| + |V| ≤ 2 →
      (∀ N ∈ [N0, N1, N2], ∀ j, |N.get j| ≤ S) → lo ≤ oneNorm (bary N0 N1 N2 U V) → S ≤ up →
      300 * u * S ≤ oneNorm (bary N0 N1 N2 U V) →
      ∃ n, IsV normal n ∧ |Vec3.dot n n - 1| ≤ 11 * u ∧ 0 < Vec3.dot n (bary N0 N1 N2 U V) ∧
        ∀ j, |(Vec3.cross n (bary N0 N1 N2 U V)).get j| ≤ 80 * u * S

/-- Face `id` has three different vertices, none of which belongs to another face. -/
def Isolated (mesh : MeshColl (XF F)) (id : Nat) (face : Vec3 Nat) : Prop :=
  face.x ≠ face.y ∧ face.x ≠ face.z ∧ face.y ≠ face.z ∧
    ∀ j g, j ≠ id → mesh.faces[j]? = some g → ∀ k ∈ [face.x, face.y, face.z], g.x ≠ k ∧ g.y ≠ k ∧ g.z ≠ k

/-- If face `id` shares no vertex with another one and the ray is not nearly parallel to it, the normal is perpendicular to it, on the side
from which its vertices are seen counterclockwise, up to rounding errors. -/
def FlatFace (u lo up top m : K) (mesh : MeshColl (XF F)) (id : Nat) (normal : Vec3 (XF F)) (o d : Vec3 K) : Prop :=
  ∃ face a b c, mesh.faces[id]? = some face ∧ mesh.vertices[face.x]? = some a ∧ mesh.vertices[face.y]? = some b ∧
    mesh.vertices[face.z]? = some c ∧
    (Isolated mesh id face → ∀ A B C L, IsV a A → IsV b B → IsV c C → (∀ V ∈ [A, B, C], 2 * oneNorm (V - o) ≤ L) → lo ≤ L → L ≤ up →
      2 * L ^ 2 * m ≤ top → 1000 * u * (1 + L ^ 2) ≤ |Vec3.dot (Vec3.cross (B - A) (C - A)) d| →
      ∃ n, IsV normal n ∧ |Vec3.dot n n - 1| ≤ 11 * u ∧ 0 < Vec3.dot n (Vec3.cross (B - A) (C - A)) ∧
        ∀ j, |(Vec3.cross n (Vec3.cross (B - A) (C - A))).get j| ≤ 75 * u * L ^ 2)

/-- The normal is the outward one of cylinder `id`, up to rounding errors, or one of those `NearShade` admits; the exceptions are those of
`NearTube`. -/
def ShadedTube (u lo up μ : K) (coll : CylColl (XF F)) (id : Nat) (t : XF F) (normal direction : Vec3 (XF F)) (o d : Vec3 K) : Prop :=
  ∃ center fa fb fh rotation, coll.centers[id]? = some center ∧ coll.as[id]? = some fa ∧ coll.bs[id]? = some fb ∧
    coll.heights[id]? = some fh ∧ coll.rotations[id]? = some rotation ∧
    ∀ c a b h R ε L m, IsV center c → fa.Is a → fb.Is b → fh.Is h → IsM rotation R → NearOrtho ε R → ε ≤ 1 / 1000 →
      lo ≤ m → m ≤ a → m ≤ b → 0 < h → |o.x - c.x| + |o.y - c.y| + |o.z - c.z| + a + b + h ≤ L → L ≤ up →
      (3000 * u + 200 * ε) * L ^ 2 ≤ m ^ 2 →
      (∀ e, IsV (rotation.trans.mulVec direction) e → Slanted μ e) →
      60 * u * ((a ^ 2 + b ^ 2) * L ^ 2) ≤ |tubeE a b (R.trans.mulVec (o - c)).x (R.trans.mulVec (o - c)).y| ∨
        h / 2 + 10 * u * L < |(R.trans.mulVec (o - c)).z| →
      ∃ k n, t.Is k ∧ 0 ≤ k ∧ IsV normal n ∧ |Vec3.dot n n - 1| ≤ 11 * u ∧
        NearShade a b h ((700 * u + 40 * ε) * ((a ^ 2 + b ^ 2) * L ^ 2)) ((300 * u + 20 * ε) * L) (160 * u + ε)
          ((4300 * u + 260 * ε) * (L / m) ^ 2) (-(60 * u * ((a ^ 2 + b ^ 2) * L ^ 2))) (10 * u * L) R
          (R.trans.mulVec (o - c)) (R.trans.mulVec (along o d k - c)) n

end
end Blazert
