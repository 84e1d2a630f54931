/- Specification vocabulary: the sequence of nodes a traversal looks at. -/
import Verif.Model.Traverse

set_option autoImplicit false

namespace Blazert
variable {T P I : Type} [Scalar T]

/-- The node indices on top of the stack at the beginning of the loop iterations, for at most `n` iterations. -/
def visits (ix : Intersector T P I) (nodes : List (Node T P)) (ray : Ray T) : Nat → TState T I → List Nat
  | 0, _ => []
  | n + 1, st =>
    if st.stack.size > 0 then
      match st.stack.back, traverseStep ix nodes ray st with
      | .ok top, .ok (st', false) => top :: visits ix nodes ray n st'
      | .ok top, _ => [top]
      | .error _, _ => []
    else []

end Blazert
