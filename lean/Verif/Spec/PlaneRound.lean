/- Specification vocabulary: matrices that are nearly orthonormal, and formats whose finite results are accurate. -/
import Verif.Spec.Geometry
import Verif.Spec.Rounding
import Verif.Spec.Hits

set_option autoImplicit false

namespace Blazert

variable {K : Type} [Field K] [LinearOrder K]

/-- the three vectors are of length one and perpendicular to each other, each product up to `ε` -/
structure NearUnit (ε : K) (a b c : Vec3 K) : Prop where
  aa : |Vec3.dot a a - 1| ≤ ε
  bb : |Vec3.dot b b - 1| ≤ ε
  cc : |Vec3.dot c c - 1| ≤ ε
  ab : |Vec3.dot a b| ≤ ε
  ac : |Vec3.dot a c| ≤ ε
  bc : |Vec3.dot b c| ≤ ε

/-- The rows of the matrix are orthonormal up to `ε`, and so are its columns.  (A matrix of floating point numbers is hardly
ever a rotation; for one whose entries are those of a rotation, correctly rounded, `ε` is a few units in the last place.) -/
def NearOrtho (ε : K) (R : Mat3 K) : Prop := NearUnit ε R.r0 R.r1 R.r2 ∧ NearUnit ε R.trans.r0 R.trans.r1 R.trans.r2

/-- whatever does not overflow is off by a relative error of at most `u` plus an absolute error of at most `η` -/
def Fmt.Faithful (F : Fmt K) (u η : K) : Prop := ∀ r r', F.post r = some r' → |r' - r| ≤ u * |r| + η

/-- The ray `o + t d` meets the rectangle at the parameter `τ`, which is at least `M` after the lower limit `m`, in a point at
least `M` away from the edges, and at an angle to the plane whose sine is at least `κ`. -/
structure MeetsRect [IsStrictOrderedRing K] (c : Vec3 K) (a b : K) (R : Mat3 K) (o d : Vec3 K) (m τ M κ : K) : Prop where
  inner : ∃ x y, along o d τ = c + R.mulVec ⟨x, y, 0⟩ ∧ |x| ≤ a / 2 - M ∧ |y| ≤ b / 2 - M
  late : m + M ≤ τ
  pos : 0 < κ
  steep : κ ≤ |Vec3.dot (perp R) d|

end Blazert
