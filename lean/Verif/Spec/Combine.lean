/- Specification vocabulary: the answers of the single geometries of a scene. -/
import Verif.Model.Scene

set_option autoImplicit false

namespace Blazert
variable {T P I C : Type} [Scalar T]

/-- The geometry `p`, queried on its own and with a new `RayHit`, answers with the hit `r`. -/
def PartAnswers (ix : C → Intersector T P I) (ray : Ray T) (p : Option (Part C T P)) (r : RayHit T) : Prop :=
  ∃ q r', p = some q ∧ traverse (ix q.coll) q.nodes ray RayHit.fresh = .ok (true, r') ∧ r = { r' with geomId := q.geomId }

/-- One of the geometries of the scene, queried on its own, answers with the hit `r`. -/
def Scene.Answers (s : Scene T) (ray : Ray T) (r : RayHit T) : Prop :=
  PartAnswers triIx ray s.mesh r ∨ PartAnswers sphereIx ray s.spheres r ∨ PartAnswers (fun _ => planeIx) ray s.planes r ∨
    PartAnswers (fun _ => cylIx) ray s.cylinders r

/-- The geometry `p`, if there is one, can be queried on its own. -/
def PartDefined (ix : C → Intersector T P I) (ray : Ray T) (p : Option (Part C T P)) : Prop :=
  ∀ q, p = some q → ∃ r, traverse (ix q.coll) q.nodes ray RayHit.fresh = .ok r

/-- All geometries of the scene can be queried. -/
structure Scene.Defined (s : Scene T) (ray : Ray T) : Prop where
  mesh : PartDefined triIx ray s.mesh
  spheres : PartDefined sphereIx ray s.spheres
  planes : PartDefined (fun _ => planeIx) ray s.planes
  cylinders : PartDefined (fun _ => cylIx) ray s.cylinders

end Blazert
