/- What it means for a ray to stay away from the geometry of a scene by more than the rounding errors (C107, C108). -/
import Verif.Spec.SceneRound
import Verif.Spec.EmbreeFound

set_option autoImplicit false

namespace Blazert

section
variable {K : Type} [Field K] [LinearOrder K] [IsStrictOrderedRing K] [FloorRing K] {F : Fmt K}

/-- The points `o + t d` with `t` between 0 and `T` are off the sphere by more than a rounding error (`u` is half a unit in the last place of
one; the size of the sphere and its distance from `o` are at most `L`, which is between `lo` and `up`). -/
def SphereFree (u lo up : K) (center : Vec3 (XF F)) (radius : XF F) (o d : Vec3 K) (T : K) : Prop :=
  ∃ c r L, IsV center c ∧ radius.Is r ∧ |o.x - c.x| + |o.y - c.y| + |o.z - c.z| + |r| ≤ L ∧ lo ≤ L ∧ L ≤ up ∧
    ∀ t, 0 ≤ t → t ≤ T → 2000 * u * L ^ 2 < |power c r (along o d t)|

/-- They are farther than a rounding error from every point of the rectangle, in one of the coordinates. -/
def RectFree (u lo up : K) (center : Vec3 (XF F)) (dx dy : XF F) (rotation : Mat3 (XF F)) (o d : Vec3 K) (T : K) : Prop :=
  ∃ c a b R ε L, IsV center c ∧ dx.Is a ∧ dy.Is b ∧ IsM rotation R ∧ NearOrtho ε R ∧ ε ≤ 1 / 1000 ∧
    |o.x - c.x| + |o.y - c.y| + |o.z - c.z| + |a| + |b| ≤ L ∧ lo ≤ L ∧ L ≤ up ∧
    ∀ t, 0 ≤ t → t ≤ T → ∀ y, InRect c a b R y → ∃ k, 600 * u * L + 40 * ε * L < |(along o d t).get k - y.get k|

/-- The line clearly passes the face by (clearly on one side of one edge and on the other of another), or it is not parallel to it and
the points are clearly off its plane. -/
def FaceFree (u lo up top m : K) (a b c : Vec3 (XF F)) (o d : Vec3 K) (T : K) : Prop :=
  ∃ A B C L, IsV a A ∧ IsV b B ∧ IsV c C ∧ (∀ V ∈ [A, B, C], 2 * oneNorm (V - o) ≤ L) ∧ lo ≤ L ∧ L ≤ up ∧ 2 * L ^ 2 * m ≤ top ∧
    ((∃ e ∈ [(A, C), (C, B), (B, A)], ∃ e' ∈ [(A, C), (C, B), (B, A)], 8 * u + 35 * u * L ^ 2 < edgeSide o d e.1 e.2 ∧
        edgeSide o d e'.1 e'.2 < -(8 * u + 35 * u * L ^ 2)) ∨
      (11 * u * L ^ 2 ≤ |Vec3.dot (normalOf A B C) d| ∧
        ∀ t, 0 ≤ t → t ≤ T → 12 * u * L ^ 2 * (L + t) < |Vec3.dot (normalOf A B C) (along o d t - A)|))

/-- They are not near the surface of the cylinder.  `direction` is the stored direction; it is not nearly parallel to the axis or the caps,
unless exactly, and `o` is not on the tube. -/
def TubeFree (u lo up μ : K) (center : Vec3 (XF F)) (fa fb fh : XF F) (rotation : Mat3 (XF F)) (direction : Vec3 (XF F)) (o d : Vec3 K)
    (T : K) : Prop :=
  ∃ c a b h R ε L, IsV center c ∧ fa.Is a ∧ fb.Is b ∧ fh.Is h ∧ IsM rotation R ∧ NearOrtho ε R ∧ ε ≤ 1 / 1000 ∧
    lo ≤ a ∧ lo ≤ b ∧ 0 < h ∧ |o.x - c.x| + |o.y - c.y| + |o.z - c.z| + a + b + h ≤ L ∧ L ≤ up ∧
    1000 * (u * a ^ 2) ≤ b ^ 2 ∧ 1000 * (u * b ^ 2) ≤ a ^ 2 ∧
    (∀ e, IsV (rotation.trans.mulVec direction) e → Slanted μ e) ∧
    (60 * (u * ((a ^ 2 + b ^ 2) * L ^ 2)) ≤ |tubeE a b (R.trans.mulVec (o - c)).x (R.trans.mulVec (o - c)).y| ∨
      h / 2 + 10 * (u * L) < |(R.trans.mulVec (o - c)).z|) ∧
    ∀ t, 0 ≤ t → t ≤ T → ¬ NearCylinder a b h ((700 * u + 40 * ε) * ((a ^ 2 + b ^ 2) * L ^ 2)) ((300 * u + 20 * ε) * L)
      (R.trans.mulVec (along o d t - c))

/-- The ray stays away from all geometry of the scene until the parameter `T`.  (`lo`, `up` delimit the sizes of spheres and rectangles,
`lo'`, `up'` those of faces and `lo''`, `up''` those of cylinders.) -/
structure Scene.FreeUntil (u lo up lo' up' top m lo'' up'' μ : K) (s : Scene (XF F)) (direction : Vec3 (XF F)) (o d : Vec3 K) (T : K) :
    Prop where
  spheres : ∀ q, s.spheres = some q → ∀ (i : Nat) (center : Vec3 (XF F)) (radius : XF F), q.coll.centers[i]? = some center →
    q.coll.radii[i]? = some radius → SphereFree u lo up center radius o d T
  planes : ∀ q, s.planes = some q → ∀ (i : Nat) (center : Vec3 (XF F)) (dx dy : XF F) (rotation : Mat3 (XF F)),
    q.coll.centers[i]? = some center → q.coll.dxs[i]? = some dx → q.coll.dys[i]? = some dy → q.coll.rotations[i]? = some rotation →
    RectFree u lo up center dx dy rotation o d T
  mesh : ∀ q, s.mesh = some q → ∀ (i : Nat) (face : Vec3 Nat) (a b c : Vec3 (XF F)), q.coll.faces[i]? = some face →
    q.coll.vertices[face.x]? = some a → q.coll.vertices[face.y]? = some b → q.coll.vertices[face.z]? = some c →
    FaceFree u lo' up' top m a b c o d T
  cylinders : ∀ q, s.cylinders = some q → ∀ (i : Nat) (center : Vec3 (XF F)) (fa fb fh : XF F) (rotation : Mat3 (XF F)),
    q.coll.centers[i]? = some center → q.coll.as[i]? = some fa → q.coll.bs[i]? = some fb → q.coll.heights[i]? = some fh →
    q.coll.rotations[i]? = some rotation → TubeFree u lo'' up'' μ center fa fb fh rotation direction o d T

/-- the same for a geometry of an Embree scene -/
def UserGeom.FreeUntil (u lo up lo'' up'' μ : K) (direction : Vec3 (XF F)) (o d : Vec3 K) (T : K) : UserGeom (XF F) → Prop
  | .sphere s => SphereFree u lo up s.center s.radius o d T
  | .plane p => RectFree u lo up p.center p.d1 p.d2 p.rot o d T
  | .cylinder q => TubeFree u lo'' up'' μ q.center q.a q.b q.height q.rot direction o d T

end
end Blazert
