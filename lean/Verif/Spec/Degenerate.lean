/- Specification vocabulary: infinities and NaN. -/
import Verif.XF
import Verif.Model.Datatypes

set_option autoImplicit false

namespace Blazert

section
variable {K : Type} {F : Fmt K}

/-- an infinity or NaN -/
def XF.NotFinite : XF F → Prop
  | .fin _ _ => False
  | .inf _ => True
  | .nan => True

/-- plus or minus zero -/
def XF.Zero [Field K] : XF F → Prop
  | .fin v _ => v = 0
  | .inf _ => False
  | .nan => False

/-- some component is an infinity or NaN -/
def NotFiniteV (v : Vec3 (XF F)) : Prop := v.x.NotFinite ∨ v.y.NotFinite ∨ v.z.NotFinite

/-- no ray: a component of the origin or of the direction is an infinity or NaN, or the direction is zero -/
def NoRay [Field K] (origin direction : Vec3 (XF F)) : Prop :=
  NotFiniteV origin ∨ NotFiniteV direction ∨ (direction.x.Zero ∧ direction.y.Zero ∧ direction.z.Zero)

end
end Blazert
