/- Specification vocabulary for cylinders.  Nothing here refers to how blazert computes. -/
import Verif.Spec.Geometry
import Verif.Model.Cylinder

set_option autoImplicit false

namespace Blazert

/-- strictly inside the solid cylinder -/
def InOpenCyl (c : Vec3 ℝ) (a b h : ℝ) (m : Mat3 ℝ) (p : Vec3 ℝ) : Prop :=
  ∃ x y z, x ^ 2 / a ^ 2 + y ^ 2 / b ^ 2 < 1 ∧ -(h / 2) < z ∧ z < h / 2 ∧ p = c + m.mulVec ⟨x, y, z⟩

/-- on the lateral surface -/
def OnLateral (c : Vec3 ℝ) (a b h : ℝ) (m : Mat3 ℝ) (p : Vec3 ℝ) : Prop :=
  ∃ x y z, x ^ 2 / a ^ 2 + y ^ 2 / b ^ 2 = 1 ∧ -(h / 2) ≤ z ∧ z ≤ h / 2 ∧ p = c + m.mulVec ⟨x, y, z⟩

/-- strictly inside the cylinder extended infinitely in both directions -/
def InTube (c : Vec3 ℝ) (a b : ℝ) (m : Mat3 ℝ) (p : Vec3 ℝ) : Prop :=
  ∃ x y z, x ^ 2 / a ^ 2 + y ^ 2 / b ^ 2 < 1 ∧ p = c + m.mulVec ⟨x, y, z⟩

/-- in the plane of the top or of the bottom -/
def AtCapLevel (c : Vec3 ℝ) (h : ℝ) (m : Mat3 ℝ) (p : Vec3 ℝ) : Prop :=
  ∃ x y z, (z = h / 2 ∨ z = -(h / 2)) ∧ p = c + m.mulVec ⟨x, y, z⟩

/-- `n` is an outer unit normal of the convex body `S` at `p`: `S` lies behind the plane through `p` perpendicular to `n` -/
def OuterNormal (S : Vec3 ℝ → Prop) (p n : Vec3 ℝ) : Prop := len n = 1 ∧ ∀ q, S q → Vec3.dot n (q - p) ≤ 0

/-- the `k`th row -/
def Mat3.row {K : Type} (m : Mat3 K) (k : Fin 3) : Vec3 K :=
  match k with
  | 0 => m.r0
  | 1 => m.r1
  | 2 => m.r2

/-- no row of the matrix has two nonzero entries; rotations with this property take coordinate axes to coordinate axes -/
def AxisParallel (m : Mat3 ℝ) : Prop :=
  ∀ k, ((m.row k).y = 0 ∧ (m.row k).z = 0) ∨ ((m.row k).x = 0 ∧ (m.row k).z = 0) ∨ ((m.row k).x = 0 ∧ (m.row k).y = 0)

/-- what is known about the arguments of the cylinder test in all the following theorems: the cylinder has center `c`, half axes
`a`, `b`, height `h` and orientation `R`; the ray is `o + t u` with `|u| = 1` -/
structure CylTest {F : Fmt ℝ} (i : PlaneI (XF F)) (cy : Cylinder (XF F)) (c : Vec3 ℝ) (a b h : ℝ) (R : Mat3 ℝ) (o u : Vec3 ℝ) : Prop where
  center : IsV cy.center c
  isA : cy.a.Is a
  isB : cy.b.Is b
  height : cy.height.Is h
  rot : IsM cy.rotation R
  a_pos : 0 < a
  b_pos : 0 < b
  h_pos : 0 < h
  orth : Orthonormal R
  org : IsV i.rayOrg o
  dir : IsV i.rayDir u
  unit : sq u = 1


end Blazert
