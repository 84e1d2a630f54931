/- Specification vocabulary: where a reported hit comes from. -/
import Verif.Model.Scene

set_option autoImplicit false

namespace Blazert
open Scalar

section
variable {T P I : Type} [Scalar T]

/-- The record `rh` was produced by the test of the primitive it names: this primitive's test on the ray, started in some state `s0`
with `Start s0`, reports a hit, which is below the max hit distance of the ray; `rh` is that hit after post-processing, together with
the geometry id. -/
def ReportedBy (ix : Intersector T P I) (coll : Collection T P) (Start : I → Prop) (ray : Ray T) (geomId : Nat) (rh : RayHit T) : Prop :=
  ∃ q s0 s temp rh', coll.prim rh.primId = .ok q ∧ Start s0 ∧ ix.isect s0 q ray = (s, true) ∧ ix.hitDistance s = rh.hitDistance ∧
    lt rh.hitDistance ray.maxHit = true ∧ ix.post s temp = .ok rh' ∧ rh = { rh' with geomId := geomId }

/-- the sphere intersector is set up for the ray, with any values for what hits before may have changed -/
def SphereStart (ray : Ray T) (s : SphereI T) : Prop :=
  s.rayOrg = ray.origin ∧ s.rayDir = ray.direction ∧ s.minHit = ray.minHit

/-- the same for planes and cylinders -/
def PlaneStart (ray : Ray T) (s : PlaneI T) : Prop :=
  s.rayOrg = ray.origin ∧ s.rayDir = ray.direction ∧ s.minHit = ray.minHit

/-- the same for triangles -/
def TriStart (ray : Ray T) (s : TriI T) : Prop := s.minHit = ray.minHit

end
end Blazert
