/- Specification vocabulary: histories of scene API calls. -/
import Verif.Model.Scene
import Verif.Spec.Tree

set_option autoImplicit false

namespace Blazert
variable {T : Type} [Scalar T]

/-- `History s rs`: the scene `s` can be reached from a default constructed scene by a sequence of API calls that all
return normally, and `rs` lists the values returned by the `add_*` calls (latest last).  Each `commit` may use a different
implementation of `std::partition`. -/
inductive History : Scene T → List Nat → Prop
  | init : History Scene.init []
  | add (part : StdPartition) (s s' : Scene T) (rs : List Nat) (c : Call T) (i : Nat) (h : History s rs)
      (hc : c.exec part s = .ok (s', some i)) : History s' (rs ++ [i])
  | commit (part : StdPartition) (s s' : Scene T) (rs : List Nat) (h : History s rs)
      (hc : Call.exec part s .commit = .ok (s', none)) : History s' rs

/-- the part of the scene a call adds to -/
def Call.occupied (s : Scene T) : Call T → Bool
  | .addMesh _ _ => s.mesh.isSome
  | .addSpheres _ _ => s.spheres.isSome
  | .addPlanes _ _ _ _ => s.planes.isSome
  | .addCylinders _ _ _ _ _ => s.cylinders.isSome
  | .commit => false

/-- `Recommit s s'`: `s'` results from `s` by any number of further `commit` calls -/
inductive Recommit (s : Scene T) : Scene T → Prop
  | refl : Recommit s s
  | step (part : StdPartition) (s' s'' : Scene T) (b : Bool) (h : Recommit s s') (hc : s'.commit part = .ok (s'', b)) :
      Recommit s s''

/-- all trees stored in the scene have depth at most `n` -/
structure DepthAtMost (s : Scene T) (n : Nat) : Prop where
  mesh : ∀ p t, s.mesh = some p → Represents p.nodes 0 t → t.height ≤ n
  spheres : ∀ p t, s.spheres = some p → Represents p.nodes 0 t → t.height ≤ n
  planes : ∀ p t, s.planes = some p → Represents p.nodes 0 t → t.height ≤ n
  cylinders : ∀ p t, s.cylinders = some p → Represents p.nodes 0 t → t.height ≤ n

end Blazert
