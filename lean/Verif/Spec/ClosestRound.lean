/- The range of sizes for which `closest_point_on_triangle` is analysed with rounding. -/
import Verif.Spec.Rounding

set_option autoImplicit false

namespace Blazert

/-- lengths around `L` can be raised to the fourth power without overflow, what underflow loses is small compared with that and with its
inverse, and `1 / (u L⁴)` does not overflow -/
structure Scale4 {K : Type} [Field K] [LinearOrder K] (u η hi L : K) : Prop where
  lin : Scale u η hi L
  quad : Scale u η hi (L ^ 2)
  η_inv : η * L ^ 4 ≤ u ^ 2
  inv_le : 1 ≤ u * L ^ 4 * hi

end Blazert
