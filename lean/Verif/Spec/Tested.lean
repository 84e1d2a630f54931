/- Specification vocabulary: which primitives lie below a node, and intersectors that change nothing on a miss. -/
import Verif.Spec.Scan
import Verif.Spec.Rounding
import Verif.Spec.Geometry

set_option autoImplicit false

namespace Blazert
variable {T P I : Type} [Scalar T]

/-- following child indices from node `i` one arrives at a leaf that contains the primitive `q` -/
inductive Under (nodes : List (Node T P)) (q : P) : Nat → Prop where
  | leaf (i : Nat) (nd : Node T P) (h : nodes[i]? = some nd) (hl : nd.leaf = true) (hq : q ∈ nd.prims) : Under nodes q i
  | left (i : Nat) (nd : Node T P) (h : nodes[i]? = some nd) (hl : nd.leaf = false) (hq : Under nodes q nd.child0) :
    Under nodes q i
  | right (i : Nat) (nd : Node T P) (h : nodes[i]? = some nd) (hl : nd.leaf = false) (hq : Under nodes q nd.child1) :
    Under nodes q i

/-- the intersector starts with the ray's upper limit, and a test that fails leaves it as it is -/
structure Quiet (ix : Intersector T P I) (ray : Ray T) : Prop where
  start : ix.hitDistance (ix.prepare ray) = ray.maxHit
  miss : ∀ s q, (ix.isect s q ray).2 = false → (ix.isect s q ray).1 = s

/-- the answer of a query that tests the primitives `vs` one after the other and nothing else -/
def Answers (ix : Intersector T P I) (ray : Ray T) (rayhit : RayHit T) (vs : List P) (hit : Bool) (out : RayHit T) : Prop :=
  hit = scanHit ix ray vs ∧ (hit = true → ix.post (scan ix ray vs) rayhit = .ok out) ∧ (hit = false → out = rayhit)

/-- the closest distance known after some of the tests of `vs` -/
def DistanceAfter (ix : Intersector T P I) (ray : Ray T) (vs : List P) (hd : T) : Prop :=
  ∃ k, hd = ix.hitDistance (scan ix ray (vs.take k))

section
variable {K : Type} [Field K] [LinearOrder K]

/-- no operation of the box test on the coordinate `c` of a box leaves the range `[lo, hi]` (`o`, `d`: coordinates of origin
and direction of the ray) -/
def CoordInRange (lo hi c o d : K) : Prop :=
  Between lo hi (c - o) ∧ (d ≠ 0 → Between lo hi (1 / d) ∧ Between (2 * lo) (hi / 4) ((c - o) / d))

end

end Blazert
