/- Points near the surface of an elliptic cylinder, in its coordinates. -/
import Verif.Model.Cylinder
import Mathlib.Data.Real.Basic
import Mathlib.Algebra.Order.Field.Basic
import Mathlib.Algebra.Order.Group.Abs

set_option autoImplicit false

namespace Blazert

/-- The point `q` (in the coordinates of the cylinder) is on the surface of the elliptic cylinder with the half axes `a`, `b` and the
height `h`, but for the equation of the ellipse, which may be off by `μ`: it is on the tube, or on a cap. -/
def NearSurface {K : Type} [Field K] [LinearOrder K] (a b h μ : K) (q : Vec3 K) : Prop :=
  (|q.x ^ 2 / a ^ 2 + q.y ^ 2 / b ^ 2 - 1| ≤ μ ∧ |q.z| ≤ h / 2) ∨ (|q.z| = h / 2 ∧ q.x ^ 2 / a ^ 2 + q.y ^ 2 / b ^ 2 ≤ 1 + μ)

/-- `v` is the distance from `(x, y, z)` to some point near the surface, up to `e` in its square. -/
def ReachesSurface {K : Type} [Field K] [LinearOrder K] (a b h μ x y z v e : K) : Prop :=
  0 ≤ v ∧ ∃ q : Vec3 K, NearSurface a b h μ q ∧ |v ^ 2 - ((x - q.x) ^ 2 + (y - q.y) ^ 2 + (z - q.z) ^ 2)| ≤ e

/-- exactly on the surface of the elliptic cylinder, in its coordinates: on the tube, or on a cap -/
def OnCylSurface (a b h : ℝ) (s : Vec3 ℝ) : Prop :=
  (s.x ^ 2 / a ^ 2 + s.y ^ 2 / b ^ 2 = 1 ∧ |s.z| ≤ h / 2) ∨ (|s.z| = h / 2 ∧ s.x ^ 2 / a ^ 2 + s.y ^ 2 / b ^ 2 ≤ 1)

/-- the matrix with the same (rational) entries -/
def Mat3.toReal (m : Mat3 ℚ) : Mat3 ℝ := ⟨⟨m.r0.x, m.r0.y, m.r0.z⟩, ⟨m.r1.x, m.r1.y, m.r1.z⟩, ⟨m.r2.x, m.r2.y, m.r2.z⟩⟩

/-- exactly on the surface of the elliptic cylinder with center `c` and orientation `m`, in space -/
def OnCylinderAt (c : Vec3 ℝ) (a b h : ℝ) (m : Mat3 ℝ) (p : Vec3 ℝ) : Prop := ∃ s, OnCylSurface a b h s ∧ p = c + m.mulVec s

end Blazert
