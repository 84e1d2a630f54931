/- What it means for a reported hit to be genuine up to rounding, for the four kinds of geometry (C83). -/
import Verif.Spec.PlaneRound
import Verif.Spec.CylRound
import Verif.Model.Scene
import Verif.Spec.Rounding
import Verif.Spec.Combine
import Verif.Spec.TriRound

set_option autoImplicit false

namespace Blazert

section
variable {K : Type} [Field K] [LinearOrder K] [IsStrictOrderedRing K] [FloorRing K] {F : Fmt K}

/-- The point at the distance `t` from `o` along `d` is on sphere `id` of the collection, up to rounding errors (`u` is half a
unit in the last place of one; `lo` and `up` delimit the sizes covered). -/
def NearSphere (u lo up : K) (coll : SphereColl (XF F)) (id : Nat) (t : XF F) (o d : Vec3 K) : Prop :=
  ∃ center radius, coll.centers[id]? = some center ∧ coll.radii[id]? = some radius ∧
    ∀ c r L, IsV center c → radius.Is r → |o.x - c.x| + |o.y - c.y| + |o.z - c.z| + |r| ≤ L → lo ≤ L → L ≤ up →
      ∃ h, t.Is h ∧ 0 ≤ h ∧ |power c r (along o d h)| ≤ 2000 * u * L ^ 2

/-- It is on rectangle `id` of the collection, up to rounding errors. -/
def NearRect (u lo up : K) (coll : PlaneColl (XF F)) (id : Nat) (t : XF F) (o d : Vec3 K) : Prop :=
  ∃ center dx dy rotation, coll.centers[id]? = some center ∧ coll.dxs[id]? = some dx ∧ coll.dys[id]? = some dy ∧
    coll.rotations[id]? = some rotation ∧
    ∀ c a b R ε L, IsV center c → dx.Is a → dy.Is b → IsM rotation R → NearOrtho ε R → ε ≤ 1 / 1000 →
      |o.x - c.x| + |o.y - c.y| + |o.z - c.z| + |a| + |b| ≤ L → lo ≤ L → L ≤ up →
      ∃ h, t.Is h ∧ 0 ≤ h ∧ ∃ y, InRect c a b R y ∧ ∀ k, |(along o d h).get k - y.get k| ≤ 600 * u * L + 40 * ε * L

/-- The ray passes the edges of face `id` of the mesh on the same side, up to rounding errors, and unless it is nearly parallel
to the face, the point is in its plane, up to rounding errors. -/
def NearFace (u lo up top m : K) (mesh : MeshColl (XF F)) (id : Nat) (t : XF F) (o d : Vec3 K) : Prop :=
  ∃ face a b c, mesh.faces[id]? = some face ∧ mesh.vertices[face.x]? = some a ∧ mesh.vertices[face.y]? = some b ∧
    mesh.vertices[face.z]? = some c ∧
    ∀ A B C L, IsV a A → IsV b B → IsV c C → (∀ V ∈ [A, B, C], 2 * oneNorm (V - o) ≤ L) → lo ≤ L → L ≤ up → 2 * L ^ 2 * m ≤ top →
      (∃ s : K, (s = 1 ∨ s = -1) ∧
        ∀ e ∈ [(A, C), (C, B), (B, A)], -(8 * u + 35 * u * L ^ 2) ≤ s * edgeSide o d e.1 e.2) ∧
      (11 * u * L ^ 2 ≤ |Vec3.dot (normalOf A B C) d| → ∃ h, t.Is h ∧ 0 ≤ h ∧
        |Vec3.dot (normalOf A B C) (along o d h - A)| ≤ 12 * u * L ^ 2 * (L + h))

/-- The point is on cylinder `id` of the collection, up to rounding errors, unless the origin is on the tube or the cylinder is extremely
flat or `direction` (the stored one) is parallel to its axis or caps up to underflow (`μ`), but not exactly. -/
def NearTube (u lo up μ : K) (coll : CylColl (XF F)) (id : Nat) (t : XF F) (direction : Vec3 (XF F)) (o d : Vec3 K) : Prop :=
  ∃ center fa fb fh rotation, coll.centers[id]? = some center ∧ coll.as[id]? = some fa ∧ coll.bs[id]? = some fb ∧
    coll.heights[id]? = some fh ∧ coll.rotations[id]? = some rotation ∧
    ∀ c a b h R ε L, IsV center c → fa.Is a → fb.Is b → fh.Is h → IsM rotation R → NearOrtho ε R → ε ≤ 1 / 1000 →
      lo ≤ a → lo ≤ b → 0 < h → |o.x - c.x| + |o.y - c.y| + |o.z - c.z| + a + b + h ≤ L → L ≤ up →
      1000 * (u * a ^ 2) ≤ b ^ 2 → 1000 * (u * b ^ 2) ≤ a ^ 2 →
      (∀ e, IsV (rotation.trans.mulVec direction) e → Slanted μ e) →
      60 * (u * ((a ^ 2 + b ^ 2) * L ^ 2)) ≤ |tubeE a b (R.trans.mulVec (o - c)).x (R.trans.mulVec (o - c)).y| ∨
        h / 2 + 10 * (u * L) < |(R.trans.mulVec (o - c)).z| →
      ∃ k, t.Is k ∧ 0 ≤ k ∧
        NearCylinder a b h ((700 * u + 40 * ε) * ((a ^ 2 + b ^ 2) * L ^ 2)) ((300 * u + 20 * ε) * L)
          (R.trans.mulVec (along o d k - c))

end
end Blazert
