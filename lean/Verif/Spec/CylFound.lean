/- Specification vocabulary: rays that enter an elliptic cylinder clear of rounding errors. -/
import Verif.Spec.CylRound

set_option autoImplicit false

namespace Blazert

variable {K : Type} [Field K] [LinearOrder K]

/-- The point `v` (in the coordinates of the cylinder) is inside, by the margin `e` in the equation of the tube and by `δ` in the height. -/
def InsideCylinder (a b h e δ : K) (v : Vec3 K) : Prop := tubeE a b v.x v.y ≤ -e ∧ |v.z| ≤ h / 2 - δ

/-- The ray `P + t D` (in the coordinates of the cylinder) enters the cylinder between the parameters `s` and `t`, clear of the rim: at `t` it
is inside; at `s` it is within the tube but beyond a cap, or between the caps but outside the tube.  In the second case its origin is not at
the height of a cap. -/
inductive EntersCylinder (a b h e δ : K) (P D : Vec3 K) (s t : K) : Prop
  | cap (s0 : 0 ≤ s) (st : s ≤ t) (out : h / 2 + δ ≤ |(along P D s).z|) (tube : tubeE a b (along P D s).x (along P D s).y ≤ -e)
      (inside : InsideCylinder a b h e δ (along P D t))
  | tube (s0 : 0 ≤ s) (st : s ≤ t) (out : e ≤ tubeE a b (along P D s).x (along P D s).y) (level : |(along P D s).z| ≤ h / 2 - δ)
      (inside : InsideCylinder a b h e δ (along P D t)) (off : δ ≤ |(|P.z|) - h / 2|)

section
variable [IsStrictOrderedRing K] [FloorRing K] {F : Fmt K}

/-- What is assumed about a cylinder and the direction of a ray from `o`: the values `c`, `a`, `b`, `h`, `R` of its data (`ε` bounds the error
of the matrix), sizes up to `L`, half axes of `ν` at least, neither much smaller than the other, and a direction which in the
coordinates of the cylinder has no components close to underflow. -/
structure TubeWithin (u η hi ν μ ε L : K) (o : Vec3 K) (center : Vec3 (XF F)) (fa fb fh : XF F) (rotation : Mat3 (XF F)) (dir : Vec3 (XF F))
    (c : Vec3 K) (a b h : K) (R : Mat3 K) : Prop where
  center : IsV center c
  isA : fa.Is a
  isB : fb.Is b
  height : fh.Is h
  rot : IsM rotation R
  ortho : NearOrtho ε R
  aν : ν ≤ a
  bν : ν ≤ b
  h0 : 0 < h
  size : |o.x - c.x| + |o.y - c.y| + |o.z - c.z| + a + b + h ≤ L
  scale : TubeScale u η hi L ν μ
  asp1 : 1000 * (u * a ^ 2) ≤ b ^ 2
  asp2 : 1000 * (u * b ^ 2) ≤ a ^ 2
  slant : ∀ e, IsV (rotation.trans.mulVec dir) e → Slanted μ e

/-- All cylinders of the collection are as assumed in `TubeWithin`, and the origin of the ray is clear of the tubes (the intersection test is blind to tubes
that the origin is on, see C36). -/
def TubesWithin (u η hi ν μ ε L : K) (coll : CylColl (XF F)) (o : Vec3 K) (dir : Vec3 (XF F)) : Prop :=
  ∀ (i : Nat) (center : Vec3 (XF F)) (fa fb fh : XF F) (rotation : Mat3 (XF F)), coll.centers[i]? = some center →
    coll.as[i]? = some fa → coll.bs[i]? = some fb → coll.heights[i]? = some fh → coll.rotations[i]? = some rotation →
    ∃ c a b h R, TubeWithin u η hi ν μ ε L o center fa fb fh rotation dir c a b h R ∧
      (60 * (u * ((a ^ 2 + b ^ 2) * L ^ 2)) ≤ |tubeE a b (R.trans.mulVec (o - c)).x (R.trans.mulVec (o - c)).y| ∨
        h / 2 + 10 * (u * L) < |(R.trans.mulVec (o - c)).z|)

end

end Blazert
