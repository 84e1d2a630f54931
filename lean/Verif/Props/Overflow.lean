/- C11: the traversal stack is too small. -/
import Verif.Proofs.DeepTree

set_option autoImplicit false

namespace Blazert
open Scalar

/-- **C11** is false: 31 spheres on the x axis, the i-th with center `2^(520+7i)` and all with radius `2^520`, added to a scene with
default options and committed.  The query with the ray from the origin along the x axis writes past the traversal stack.  (By
`C11_thirty_primitives_safe_partial` 31 is the smallest possible number.) -/
theorem C11_stack_overflow :
    query stablePartition
      [.addSpheres ((List.range 31).map fun i => dvec (2 ^ (520 + 7 * i)) 0 0) (List.replicate 31 (dbl (2 ^ 520))), .commit]
      (Ray.make' (dvec 0 0 0) (dvec 1 0 0)) RayHit.fresh = .error .oobStack := by
  refine (query_deep 31 _ _).trans ?_
  have h : (match deepQuery 31 (Ray.make' (dvec 0 0 0) (dvec 1 0 0)) RayHit.fresh with
      | .error .oobStack => true
      | _ => false) = true := by decide +kernel
  cases hq : deepQuery 31 (Ray.make' (dvec 0 0 0) (dvec 1 0 0)) RayHit.fresh with
  | ok r => rw [hq] at h; cases h
  | error e => rw [hq] at h; cases e <;> first | rfl | cases h

/-- the spheres are ordinary: finite centers, positive radii, none of the values was rounded -/
example : (∀ i < 31, dvec (2 ^ (520 + 7 * i)) 0 0 = (⟨.fin (2 ^ (520 + 7 * i)) false, .fin 0 false, .fin 0 false⟩ : Vec3 Double)) ∧
    dbl (2 ^ 520) = .fin (2 ^ 520) false := by
  decide +kernel

end Blazert
