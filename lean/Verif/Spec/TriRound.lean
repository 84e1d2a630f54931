/- Specification vocabulary: on which side of an edge a ray passes, and lengths whose cubes can be computed. -/
import Verif.Spec.Geometry
import Verif.Spec.Rounding

set_option autoImplicit false

namespace Blazert

/-- On which side of the edge from `P` to `Q` the ray from `o` in direction `d` passes: six times the volume of the tetrahedron
that `d` and the edge span.  The ray passes through a triangle if it passes all of its edges on the same side. -/
def edgeSide {K : Type} [Add K] [Sub K] [Mul K] (o d P Q : Vec3 K) : K := Vec3.dot (Vec3.cross d (P - o)) (Q - P)

/-- twice the area of the triangle `A`, `C`, `B`, as a vector perpendicular to it -/
def normalOf {K : Type} [Sub K] [Mul K] (A B C : Vec3 K) : Vec3 K := Vec3.cross (A - B) (C - A)

/-- sum of the absolute values of the components -/
def oneNorm {K : Type} [Field K] [LinearOrder K] (v : Vec3 K) : K := |v.x| + |v.y| + |v.z|

/-- lengths around `L` can be cubed without overflow, what underflow loses is small compared with the cubes; and so are
quotients by numbers of at least `lo` -/
structure Scale3 {K : Type} [Field K] [LinearOrder K] (u η hi lo L : K) : Prop extends Scale u η hi L where
  η_le_cube : η ≤ u ^ 2 * L ^ 3
  cube_le : 64 * L ^ 3 ≤ hi
  η_inv : η * L ^ 2 ≤ u ^ 2
  lo_pos : 0 < lo
  lo_le : lo ≤ u * L ^ 2
  inv_le : 4 ≤ lo * hi
  quot_le : 4 * L ^ 3 ≤ lo * hi
  η_le_lo : η ≤ u ^ 2 * L * lo

/-- results beyond `hi` overflow, or are rounded to numbers that are not below `hi` -/
def Fmt.Saturates {K : Type} [LT K] [LE K] (F : Fmt K) (hi : K) : Prop :=
  ∀ r, hi < r → F.post r = none ∨ ∃ r', F.post r = some r' ∧ hi ≤ r'

/-- rounding does not depend on the sign -/
def Fmt.Odd {K : Type} [Neg K] (F : Fmt K) : Prop := ∀ r, F.post (-r) = (F.post r).map (- ·)

end Blazert
