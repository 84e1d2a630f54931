/- Specification vocabulary: when a ray hits the cylinders of a scene.  Nothing here refers to how blazert computes. -/
import Verif.Spec.Cylinder
import Verif.Spec.Hits

set_option autoImplicit false

namespace Blazert
variable {F : Fmt ℝ}

/-- cylinder number `i` has center `c`, half axes `a`, `b`, height `h` and orientation `R` -/
def CylIs (coll : CylColl (XF F)) (i : Nat) (c : Vec3 ℝ) (a b h : ℝ) (R : Mat3 ℝ) : Prop :=
  ∃ x y z w m, coll.centers[i]? = some x ∧ coll.as[i]? = some y ∧ coll.bs[i]? = some z ∧ coll.heights[i]? = some w ∧
    coll.rotations[i]? = some m ∧ IsV x c ∧ y.Is a ∧ z.Is b ∧ w.Is h ∧ IsM m R

/-- All cylinders are meaningful: all numbers are finite, half axes and height are positive, the orientation is orthonormal. -/
def Scene.Cylinders (s : Scene (XF F)) : Prop :=
  ∀ p, s.cylinders = some p → ∀ (i : Nat) x y z w m, p.coll.centers[i]? = some x → p.coll.as[i]? = some y →
    p.coll.bs[i]? = some z → p.coll.heights[i]? = some w → p.coll.rotations[i]? = some m →
    ∃ c a b h R, IsV x c ∧ y.Is a ∧ z.Is b ∧ w.Is h ∧ IsM m R ∧ 0 < a ∧ 0 < b ∧ 0 < h ∧ Orthonormal R

/-- the ray `o + t u` meets the surface of cylinder number `i` at the distance `t ≥ 0` -/
def CylTouch (coll : CylColl (XF F)) (o u : Vec3 ℝ) (i : Nat) (t : ℝ) : Prop :=
  ∃ c a b h R, CylIs coll i c a b h R ∧ 0 ≤ t ∧ OnCyl c a b h R (along o u t)

/-- the ray `o + t u` meets the surface of cylinder number `i` at the distance `t ≥ 0`, and it also runs in its interior -/
def CylHit (coll : CylColl (XF F)) (o u : Vec3 ℝ) (i : Nat) (t : ℝ) : Prop :=
  ∃ c a b h R, CylIs coll i c a b h R ∧ 0 ≤ t ∧ OnCyl c a b h R (along o u t) ∧ ∃ t', 0 < t' ∧ InOpenCyl c a b h R (along o u t')

/-- the record describes a hit on a cylinder of the collection -/
def CylRep (coll : CylColl (XF F)) (o u : Vec3 ℝ) (rh : RayHit (XF F)) (t : ℝ) : Prop :=
  ∃ c a b h R, CylIs coll rh.primId c a b h R ∧ 0 ≤ t ∧ OnCyl c a b h R (along o u t) ∧ (¬ AtCapLevel c h R o → 0 < t) ∧
    (¬ InCyl c a b h R o ∨ Vec3.dot (perp R) u = 0 ∨ (∀ t, 0 ≤ t → ¬ OnLateral c a b h R (along o u t)) →
      ∃ n, IsV rh.normal n ∧ OuterNormal (InCyl c a b h R) (along o u t) n)

/-- the record describes a hit on a cylinder of the scene -/
def Scene.CylRep (s : Scene (XF F)) (o u : Vec3 ℝ) (rh : RayHit (XF F)) (t : ℝ) : Prop :=
  ∃ p, s.cylinders = some p ∧ rh.geomId = p.geomId ∧ Blazert.CylRep p.coll o u rh t

/-- What the ray and the cylinders of the scene have to satisfy for the cylinders to be found by the traversal: the orientations
take axes to axes, the origin is strictly inside, or outside and not in the plane of the top or bottom; the boxes are in the
range of the format, and the ray does not start in the plane of a z face of a box while parallel to it. -/
structure Scene.CylFind (s : Scene (XF F)) (o d : Vec3 ℝ) : Prop where
  place : ∀ p, s.cylinders = some p → ∀ i c a b h R, CylIs p.coll i c a b h R →
    AxisParallel R ∧ ((¬ InCyl c a b h R o ∧ ¬ AtCapLevel c h R o) ∨ InOpenCyl c a b h R o)
  range : ∀ p, s.cylinders = some p → ∀ b ∈ p.coll.boxes, BoxInRange b
  offZ : d.z = 0 → ∀ p, s.cylinders = some p → ∀ b ∈ p.coll.boxes, ¬ b.1.z.Is o.z ∧ ¬ b.2.z.Is o.z

end Blazert
