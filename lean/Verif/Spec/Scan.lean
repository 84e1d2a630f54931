/- Specification vocabulary: testing a ray against every primitive of a list, without any acceleration structure. -/
import Verif.Model.Traverse

set_option autoImplicit false

namespace Blazert
open Scalar
variable {T P I : Type} [Scalar T]

/-- the intersector after the ray has been tested against all of `ps` in turn -/
def scan (ix : Intersector T P I) (ray : Ray T) (ps : List P) : I :=
  ps.foldl (fun s p => (ix.isect s p ray).1) (ix.prepare ray)

/-- has the scan found something? -/
def scanHit (ix : Intersector T P I) (ray : Ray T) (ps : List P) : Bool := lt (ix.hitDistance (scan ix ray ps)) ray.maxHit

end Blazert
