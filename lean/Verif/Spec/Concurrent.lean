/- Specification vocabulary: several queries running concurrently on one BVH. -/
import Verif.Model.Traverse

set_option autoImplicit false

namespace Blazert
variable {T P I : Type} [Scalar T]

/-- What a query thread is given: its own ray and its own `RayHit`. -/
structure Job (T : Type) where
  ray : Ray T
  rayhit : RayHit T

/-- Local state of a query thread. -/
inductive Thread (T I : Type) where
  | running (st : TState T I)
  | done (r : Run (Bool × RayHit T))

/-- One atomic step of a thread: one iteration of the loop of `traverse`, or its epilogue.  The shared node list is an
in/out argument. -/
def threadStep (ix : Intersector T P I) (job : Job T) (nodes : List (Node T P)) :
    Thread T I → List (Node T P) × Thread T I
  | .done r => (nodes, .done r)
  | .running st =>
    if st.stack.size > 0 then
      match traverseStep ix nodes job.ray st with
      | .error e => (nodes, .done (.error e))
      | .ok (st, brk) =>
        if brk then (nodes, .done (traverseFinish ix job.ray job.rayhit st.isect)) else (nodes, .running st)
    else (nodes, .done (traverseFinish ix job.ray job.rayhit st.isect))

/-- a thread before its first step -/
def threadInit (ix : Intersector T P I) (job : Job T) : Thread T I :=
  match traverseInit ix job.ray with
  | .ok st => .running st
  | .error e => .done (.error e)

/-- Run a schedule: each entry is the number of the thread that makes the next step.  The configuration is the shared
node list and the local states of all threads. -/
def runSchedule (ix : Intersector T P I) (jobs : Nat → Job T) :
    List Nat → List (Node T P) × (Nat → Thread T I) → List (Node T P) × (Nat → Thread T I)
  | [], c => c
  | k :: ks, (nodes, ths) =>
    let r := threadStep ix (jobs k) nodes (ths k)
    runSchedule ix jobs ks (r.1, fun j => if j = k then r.2 else ths j)

end Blazert
