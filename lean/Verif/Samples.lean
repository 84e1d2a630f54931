/- Concrete inputs used by the examples beside the theorems. -/
import Verif.Format
import Verif.Model.Scene
import Mathlib.Data.List.Perm.Basic

set_option autoImplicit false

namespace Blazert

/-- a lawful `std::partition` (order preserving) -/
def stablePartition : StdPartition where
  run l := (l.filter (·.2), l.filter (fun x => !x.2))
  perm l := List.filter_append_perm (fun x : Nat × Bool => x.2) l
  fst_true := by simp
  snd_false := by simp

/-- another lawful `std::partition`: both halves reversed -/
def reversePartition : StdPartition where
  run l := ((l.filter (·.2)).reverse, (l.filter (fun x => !x.2)).reverse)
  perm l := ((List.reverse_perm _).append (List.reverse_perm _)).trans
    (List.filter_append_perm (fun x : Nat × Bool => x.2) l)
  fst_true := by simp
  snd_false := by simp

/-- three unit spheres at `x = 0, 4, 8` -/
def sampleSpheres : SphereColl Double where
  centers := [dvec 0 0 0, dvec 4 0 0, dvec 8 0 0]
  radii := [dbl 1, dbl 1, dbl 1]
  boxes := [(dvec (-1) (-1) (-1), dvec 1 1 1), (dvec 3 (-1) (-1), dvec 5 1 1), (dvec 7 (-1) (-1), dvec 9 1 1)]

/-- small options, so that branches occur -/
def smallOptions : BuildOptions := ⟨1, 28, 2⟩

end Blazert

namespace Blazert

/-- does the run succeed with a result satisfying `q`? -/
def evalOk {α : Type} (x : Run α) (q : α → Bool) : Bool :=
  match x with
  | .ok a => q a
  | .error _ => false

/-- evaluate a run and look at part of its result -/
theorem exists_ok_of_eval {α : Type} {x : Run α} {q : α → Prop} [DecidablePred q]
    (h : evalOk x (fun a => decide (q a)) = true) : ∃ a, x = .ok a ∧ q a := by
  cases x with
  | error e => simp [evalOk] at h
  | ok a => exact ⟨a, rfl, by simpa [evalOk] using h⟩

/-- execute a list of API calls, starting from an empty scene -/
def runCalls {T : Type} [Scalar T] (part : StdPartition) (calls : List (Call T)) : Run (Scene T) :=
  calls.foldlM (init := Scene.init) fun s c => do let r ← c.exec part s; return r.1

/-- build a scene with the API and ask one query -/
def query {T : Type} [Scalar T] (part : StdPartition) (calls : List (Call T)) (ray : Ray T) (rh : RayHit T) :
    Run (Bool × RayHit T) := do
  let s ← runCalls part calls
  s.intersect1 ray rh

/-- one unit sphere at the origin, committed -/
def oneSphere : List (Call Double) := [.addSpheres [dvec 0 0 0] [dbl 1], .commit]

/-- a ray from `(3,0,0)` towards the origin -/
def rayToOrigin : Ray Double := Ray.make' (dvec 3 0 0) (dvec (-1) 0 0)

end Blazert
