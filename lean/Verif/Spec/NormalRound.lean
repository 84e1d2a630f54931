/- Exact points as points of the real space. -/
import Verif.Spec.Geometry

set_option autoImplicit false

namespace Blazert

/-- the point with the same (rational) coordinates -/
def Vec3.toReal (v : Vec3 ℚ) : Vec3 ℝ := ⟨v.x, v.y, v.z⟩

end Blazert
