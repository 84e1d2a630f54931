/- Specification vocabulary for any-hit queries (C84). -/
import Verif.Spec.Tested

set_option autoImplicit false

namespace Blazert
variable {T P I : Type} [Scalar T]

/-- the test of `q`, made before any success, fails -/
def Rejects (ix : Intersector T P I) (ray : Ray T) (q : P) : Prop := (ix.isect (ix.prepare ray) q ray).2 = false

/-- the last of the tests `vs` succeeds, all those before it fail -/
def StopsAtFirst (ix : Intersector T P I) (ray : Ray T) (vs : List P) : Prop :=
  ∃ ws q, vs = ws ++ [q] ∧ (∀ q ∈ ws, Rejects ix ray q) ∧ (ix.isect (ix.prepare ray) q ray).2 = true

end Blazert
