/- Specification vocabulary: formats that keep the sign of results. -/
import Verif.XF

set_option autoImplicit false

namespace Blazert
variable {K : Type} [Field K] [LinearOrder K]

/-- Rounding does not make results negative, nor are square roots. -/
structure Fmt.Signed (F : Fmt K) : Prop where
  post : ∀ r r', 0 ≤ r → F.post r = some r' → 0 ≤ r'
  sqrt : ∀ v, 0 < v → 0 ≤ F.sqrt v

end Blazert
