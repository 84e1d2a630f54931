/- Rays that start at a reported hit (C97). -/
import Verif.Model.Scene

set_option autoImplicit false

namespace Blazert
open Scalar

section
variable {T : Type} [Scalar T]

/-- The hit point as callers compute it, in the arithmetic of the library: `ray.origin + rayhit.hit_distance * ray.direction`
(the expression the library itself uses for normals, `blazert/primitives/sphere.h:113`). -/
def hitPoint (ray : Ray T) (rh : RayHit T) : Vec3 T := ray.origin + Vec3.smul rh.hitDistance ray.direction

/-- The two records name the same primitive. -/
def SamePrim (a b : RayHit T) : Prop := a.geomId = b.geomId ∧ a.primId = b.primId

end
end Blazert
