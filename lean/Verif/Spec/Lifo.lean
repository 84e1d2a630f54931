/- Specification vocabulary: a bounded last-in first-out stack, as a list (top first). -/
import Verif.Model.Datatypes

set_option autoImplicit false

namespace Blazert

/-- operations of a stack of node indices -/
inductive StackOp where
  | push (v : Nat)
  | pop
  | back

/-- One operation on the abstract stack of capacity `cap`: the new content and the value returned.
`push` needs a free slot, `pop` needs an element *and* a free slot, `back` needs an element. -/
def lifoStep (cap : Nat) (l : List Nat) : StackOp → Run (List Nat × Option Nat)
  | .push v => if l.length < cap then .ok (v :: l, none) else .error .oobStack
  | .pop =>
    match l with
    | [] => .error .oobStack
    | _ :: l' => if l.length < cap then .ok (l', none) else .error .oobStack
  | .back =>
    match l with
    | [] => .error .oobStack
    | v :: _ => .ok (l, some v)

/-- the values returned by a sequence of operations on the abstract stack -/
def lifoRun (cap : Nat) : List Nat → List StackOp → Run (List (Option Nat))
  | _, [] => .ok []
  | l, op :: ops => do
    let (l, r) ← lifoStep cap l op
    let rs ← lifoRun cap l ops
    return r :: rs

/-- one operation of the modelled `Stack` -/
def Stack.step (s : Stack) : StackOp → Run (Stack × Option Nat)
  | .push v => do let s ← s.push v; return (s, none)
  | .pop => do let s ← s.pop; return (s, none)
  | .back => do let v ← s.back; return (s, some v)

/-- the values returned by a sequence of operations of the modelled `Stack` -/
def Stack.runOps : Stack → List StackOp → Run (List (Option Nat))
  | _, [] => .ok []
  | s, op :: ops => do
    let (s, r) ← s.step op
    let rs ← s.runOps ops
    return r :: rs

end Blazert
