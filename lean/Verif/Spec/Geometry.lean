/- Specification vocabulary: points, rays and surfaces in real three-dimensional space, and what it means for a value of
a floating point format to stand for a real number.  Nothing here refers to how blazert computes. -/
import Verif.XF
import Verif.Vec
import Mathlib.Analysis.SpecialFunctions.Sqrt
import Mathlib.Data.Real.Basic
import Mathlib.Algebra.Order.Floor.Ring

set_option autoImplicit false

namespace Blazert

/-! ### formats -/

/-- Exact real arithmetic: no rounding and no overflow.  Zeros still have signs, and infinities and NaN still arise
from divisions by zero. -/
structure Fmt.Exact (F : Fmt ℝ) : Prop where
  post : ∀ r, F.post r = some r
  sqrt : ∀ r, 0 ≤ r → F.sqrt r = Real.sqrt r
  eps : 0 ≤ F.eps
  maxVal : 0 < F.maxVal
  tiny : 0 ≤ F.tiny

/-- the value `x` is finite and stands for the number `a` (a zero may have either sign) -/
def XF.Is {K : Type} {F : Fmt K} (x : XF F) (a : K) : Prop := ∃ s, x = .fin a s

/-- the vector `v` is finite and stands for `w` -/
def IsV {K : Type} {F : Fmt K} (v : Vec3 (XF F)) (w : Vec3 K) : Prop := v.x.Is w.x ∧ v.y.Is w.y ∧ v.z.Is w.z

/-- the matrix `m` is finite and stands for `n` -/
def IsM {K : Type} {F : Fmt K} (m : Mat3 (XF F)) (n : Mat3 K) : Prop := IsV m.r0 n.r0 ∧ IsV m.r1 n.r1 ∧ IsV m.r2 n.r2

/-- `t < x`, where `x` may be plus infinity -/
def XF.Above {K : Type} [LT K] {F : Fmt K} (x : XF F) (t : K) : Prop := x = .inf false ∨ ∃ a, x.Is a ∧ t < a

/-! ### space -/

/-- squared length -/
def sq (v : Vec3 ℝ) : ℝ := Vec3.dot v v
/-- length -/
noncomputable def len (v : Vec3 ℝ) : ℝ := Real.sqrt (sq v)
/-- distance -/
noncomputable def dist3 (p q : Vec3 ℝ) : ℝ := len (p - q)
/-- the point at parameter `t` of the ray (or line) from `o` in direction `d` -/
def along {K : Type} [Add K] [Mul K] (o d : Vec3 K) (t : K) : Vec3 K := o + Vec3.smul t d

/-- closed axis-parallel box -/
def InBox {K : Type} [LE K] (mn mx p : Vec3 K) : Prop :=
  (mn.x ≤ p.x ∧ p.x ≤ mx.x) ∧ (mn.y ≤ p.y ∧ p.y ≤ mx.y) ∧ (mn.z ≤ p.z ∧ p.z ≤ mx.z)

/-- the power of the point `p` with respect to a sphere: zero on its surface, negative inside, positive outside -/
def power {K : Type} [Add K] [Sub K] [Mul K] (c : Vec3 K) (r : K) (p : Vec3 K) : K := Vec3.dot (p - c) (p - c) - r * r

/-- the sphere (surface) with center `c` and radius `r` -/
def OnSphere (c : Vec3 ℝ) (r : ℝ) (p : Vec3 ℝ) : Prop := dist3 p c = r

/-- the point with barycentric coordinates `(1-u-v, u, v)` with respect to `a`, `b`, `c` -/
def bary {K : Type} [Add K] [Sub K] [Mul K] [One K] (a b c : Vec3 K) (u v : K) : Vec3 K := Vec3.smul (1 - u - v) a + Vec3.smul u b + Vec3.smul v c

/-- the closed triangle `a`, `b`, `c` -/
def InTriangle {K : Type} [Field K] [LinearOrder K] (a b c p : Vec3 K) : Prop :=
  ∃ u v, 0 ≤ u ∧ 0 ≤ v ∧ u + v ≤ 1 ∧ p = bary a b c u v

/-- the columns of the matrix are orthonormal -/
def Orthonormal (m : Mat3 ℝ) : Prop :=
  ∀ v w : Vec3 ℝ, Vec3.dot (m.mulVec v) (m.mulVec w) = Vec3.dot v w

/-- the closed rectangle with center `c`, sides `dx`, `dy` along the first two columns of the rotation `m` -/
def InRect {K : Type} [Field K] [LinearOrder K] (c : Vec3 K) (dx dy : K) (m : Mat3 K) (p : Vec3 K) : Prop :=
  ∃ x y, -(dx / 2) ≤ x ∧ x ≤ dx / 2 ∧ -(dy / 2) ≤ y ∧ y ≤ dy / 2 ∧ p = c + m.mulVec ⟨x, y, 0⟩

/-- the solid elliptic cylinder with center `c`, half axes `a`, `b`, height `h`, rotated by `m` -/
def InCyl (c : Vec3 ℝ) (a b h : ℝ) (m : Mat3 ℝ) (p : Vec3 ℝ) : Prop :=
  ∃ x y z, x ^ 2 / a ^ 2 + y ^ 2 / b ^ 2 ≤ 1 ∧ -(h / 2) ≤ z ∧ z ≤ h / 2 ∧ p = c + m.mulVec ⟨x, y, z⟩

/-- its surface: the lateral surface and the two caps -/
def OnCyl (c : Vec3 ℝ) (a b h : ℝ) (m : Mat3 ℝ) (p : Vec3 ℝ) : Prop :=
  ∃ x y z, ((x ^ 2 / a ^ 2 + y ^ 2 / b ^ 2 = 1 ∧ -(h / 2) ≤ z ∧ z ≤ h / 2) ∨
    (x ^ 2 / a ^ 2 + y ^ 2 / b ^ 2 ≤ 1 ∧ (z = h / 2 ∨ z = -(h / 2)))) ∧ p = c + m.mulVec ⟨x, y, z⟩

end Blazert
