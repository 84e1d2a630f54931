/- Interleaved queries. -/
import Verif.Proofs.Loop
import Verif.Spec.Concurrent

set_option autoImplicit false
set_option linter.unusedSectionVars false

namespace Blazert
variable {T P I : Type} [Scalar T]

theorem threadStep_nodes (ix : Intersector T P I) (job : Job T) (nodes : List (Node T P)) (th : Thread T I) :
    (threadStep ix job nodes th).1 = nodes := by
  unfold threadStep
  split
  · rfl
  · split
    · split
      · rfl
      · split <;> rfl
    · rfl

/-- `n` steps of one thread on its own -/
def alone (ix : Intersector T P I) (job : Job T) (nodes : List (Node T P)) : Nat → Thread T I → Thread T I
  | 0, th => th
  | n + 1, th => alone ix job nodes n (threadStep ix job nodes th).2

theorem alone_done (ix : Intersector T P I) (job : Job T) (nodes : List (Node T P)) (n : Nat)
    (r : Run (Bool × RayHit T)) : alone ix job nodes n (.done r) = .done r := by
  induction n with
  | zero => rfl
  | succ n ih => exact ih

theorem alone_add (ix : Intersector T P I) (job : Job T) (nodes : List (Node T P)) (m n : Nat) (th : Thread T I) :
    alone ix job nodes (m + n) th = alone ix job nodes n (alone ix job nodes m th) := by
  induction m generalizing th with
  | zero => simp [alone]
  | succ m ih => rw [Nat.succ_add]; exact ih _

/-- threads do not influence each other -/
theorem runSchedule_eq (ix : Intersector T P I) (jobs : Nat → Job T) (ks : List Nat) (nodes : List (Node T P))
    (ths : Nat → Thread T I) :
    runSchedule ix jobs ks (nodes, ths) =
      (nodes, fun j => alone ix (jobs j) nodes (ks.count j) (ths j)) := by
  induction ks generalizing ths with
  | nil => simp [runSchedule, alone]
  | cons k ks ih =>
    simp only [runSchedule, threadStep_nodes]
    rw [ih]
    congr 1
    funext j
    by_cases hj : j = k
    · subst hj; simp [alone]
    · simp [hj, Ne.symm hj]

/-- a thread left to itself computes the loop -/
theorem alone_loop (ix : Intersector T P I) (job : Job T) (nodes : List (Node T P)) (n : Nat) (st : TState T I)
    (h : traverseLoop ix nodes job.ray n st ≠ .error .outOfFuel) :
    alone ix job nodes (n + 1) (.running st) =
      .done (traverseLoop ix nodes job.ray n st >>= traverseFinish ix job.ray job.rayhit) := by
  induction n generalizing st with
  | zero =>
    unfold traverseLoop at h ⊢
    simp only [alone, threadStep]
    split
    · rename_i hp; rw [if_pos hp] at h; simp at h
    · rfl
  | succ n ih =>
    unfold traverseLoop at h ⊢
    rw [alone, threadStep]
    split
    · rename_i hp
      rw [if_pos hp] at h
      simp only at h
      cases hs : traverseStep ix nodes job.ray st with
      | error e => simp [alone_done]
      | ok q =>
        obtain ⟨st', brk⟩ := q
        rw [hs] at h
        simp only [run_bind_ok] at h ⊢
        cases brk with
        | true => simp [alone_done]
        | false =>
          simp only [Bool.false_eq_true, if_false] at h ⊢
          exact ih st' h
    · simp [alone_done]

theorem alone_traverse (ix : Intersector T P I) (job : Job T) (nodes : List (Node T P))
    (h : traverse ix nodes job.ray job.rayhit ≠ .error .outOfFuel) :
    alone ix job nodes (nodes.length + 2) (threadInit ix job) = .done (traverse ix nodes job.ray job.rayhit) := by
  unfold traverse threadInit at *
  cases hi : traverseInit ix job.ray with
  | error e => simp [alone_done]
  | ok st =>
    rw [hi] at h
    simp only [run_bind_ok] at h ⊢
    exact alone_loop ix job nodes (nodes.length + 1) st fun hc => h (by rw [hc]; rfl)

end Blazert
