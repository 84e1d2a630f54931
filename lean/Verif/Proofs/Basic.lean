/- Small facts about `Run`, `lookup` and the modelled stack. -/
import Verif.Model.Traverse
import Mathlib.Data.List.Basic
import Mathlib.Data.List.Perm.Basic
import Mathlib.Tactic.Common

set_option autoImplicit false

namespace Blazert

variable {α β : Type}

@[simp] theorem run_pure (a : α) : (pure a : Run α) = .ok a := rfl
@[simp] theorem run_bind_ok (a : α) (f : α → Run β) : ((.ok a : Run α) >>= f) = f a := rfl
@[simp] theorem run_bind_error (e : UB) (f : α → Run β) : ((.error e : Run α) >>= f) = .error e := rfl
@[simp] theorem run_throw (e : UB) : (throw e : Run α) = .error e := rfl
@[simp] theorem run_map_ok (a : α) (f : α → β) : (f <$> (.ok a : Run α)) = .ok (f a) := rfl
@[simp] theorem run_map_error (e : UB) (f : α → β) : (f <$> (.error e : Run α)) = .error e := rfl

theorem run_bind_eq_ok {x : Run α} {f : α → Run β} {b : β} :
    (x >>= f) = .ok b ↔ ∃ a, x = .ok a ∧ f a = .ok b := by
  cases x <;> simp

theorem run_bind_assoc {γ : Type} (x : Run α) (f : α → Run β) (g : β → Run γ) :
    ((x >>= f) >>= g) = (x >>= fun a => f a >>= g) := by
  cases x <;> rfl

theorem lookup_eq_ok {u : UB} {l : List α} {i : Nat} {a : α} : lookup u l i = .ok a ↔ l[i]? = some a := by
  unfold lookup; split <;> simp_all

theorem lookup_ok_of_lt {u : UB} {l : List α} {i : Nat} (h : i < l.length) : lookup u l i = .ok l[i] := by
  rw [lookup_eq_ok]; simp [h]

theorem lookup_eq_error {u : UB} {l : List α} {i : Nat} : lookup u l i = .error u ↔ l.length ≤ i := by
  unfold lookup; split <;> simp_all
  rename_i h; exact (List.getElem?_eq_some_iff.1 h).1

theorem lookup_lt {u : UB} {l : List α} {i : Nat} {a : α} (h : lookup u l i = .ok a) : i < l.length := by
  rw [lookup_eq_ok] at h; exact (List.getElem?_eq_some_iff.1 h).1

/-! ### mapM / foldlM in `Run` -/

theorem mapM_nil_run (f : α → Run β) : ([] : List α).mapM f = .ok [] := by simp

theorem mapM_cons_run (f : α → Run β) (a : α) (l : List α) :
    (a :: l).mapM f = (do let b ← f a; let bs ← l.mapM f; return b :: bs) := by
  simp [List.mapM_cons]

theorem mapM_ok_of_forall (f : α → Run β) (l : List α) (h : ∀ a ∈ l, ∃ b, f a = .ok b) :
    ∃ bs, l.mapM f = .ok bs := by
  induction l with
  | nil => exact ⟨[], by simp⟩
  | cons a l ih =>
    obtain ⟨b, hb⟩ := h a (by simp)
    obtain ⟨bs, hbs⟩ := ih fun x hx => h x (by simp [hx])
    exact ⟨b :: bs, by simp [hb, hbs]⟩

theorem mapM_ok_forall₂ (f : α → Run β) (l : List α) (bs : List β) (h : l.mapM f = .ok bs) :
    List.Forall₂ (fun a b => f a = .ok b) l bs := by
  induction l generalizing bs with
  | nil => simp at h; subst h; exact .nil
  | cons a l ih =>
    rw [mapM_cons_run, run_bind_eq_ok] at h
    obtain ⟨b, hb, h⟩ := h
    rw [run_bind_eq_ok] at h
    obtain ⟨bs', hbs, h⟩ := h
    simp at h; subst h
    exact .cons hb (ih _ hbs)

theorem mapM_ok_of_forall₂ (f : α → Run β) (l : List α) (bs : List β)
    (h : List.Forall₂ (fun a b => f a = .ok b) l bs) : l.mapM f = .ok bs := by
  induction h with
  | nil => simp
  | cons h1 _ ih => rw [mapM_cons_run]; simp [h1, ih]

theorem mapM_ok_of_eq (f : α → Run β) (g : α → β) (l : List α) (h : ∀ a ∈ l, f a = .ok (g a)) :
    l.mapM f = .ok (l.map g) := by
  induction l with
  | nil => simp
  | cons a l ih =>
    rw [mapM_cons_run, h a (by simp)]
    simp [ih fun x hx => h x (by simp [hx])]

theorem mapM_length (f : α → Run β) (l : List α) (bs : List β) (h : l.mapM f = .ok bs) : bs.length = l.length :=
  (mapM_ok_forall₂ f l bs h).length_eq.symm

/-! ### the stack -/

namespace Stack

/-- the abstract content of the stack, top first -/
def toList (s : Stack) : List Nat := (s.cells.take s.ss).reverse

theorem toList_length (s : Stack) (h : s.ss ≤ s.cells.length) : s.toList.length = s.ss := by
  simp [toList, h]

theorem push_spec (s : Stack) (v : Nat) (h : s.ss < s.cells.length) :
    ∃ s', s.push v = .ok s' ∧ s'.toList = v :: s.toList ∧ s'.ss = s.ss + 1 ∧ s'.cells.length = s.cells.length := by
  refine ⟨⟨s.cells.set s.ss v, s.ss + 1⟩, by simp [push, h], ?_, rfl, by simp⟩
  simp only [toList]
  rw [List.take_succ_eq_append_getElem (by simpa using h)]
  simp [List.take_set_of_le]

theorem pop_spec (s : Stack) (v : Nat) (l : List Nat) (hl : s.toList = v :: l) (h : s.ss < s.cells.length) :
    ∃ s', s.pop = .ok s' ∧ s'.toList = l ∧ s'.ss + 1 = s.ss ∧ s'.cells.length = s.cells.length := by
  have hlen := toList_length s (Nat.le_of_lt h)
  have hpos : 0 < s.ss := by rw [← hlen, hl]; simp
  refine ⟨⟨s.cells.set s.ss 0, s.ss - 1⟩, by simp [pop, h, hpos], ?_, by simp; omega, by simp⟩
  simp only [toList] at hl ⊢
  rw [List.take_set_of_le (by omega)]
  obtain ⟨n, hn⟩ : ∃ n, s.ss = n + 1 := ⟨s.ss - 1, by omega⟩
  rw [hn, List.take_succ_eq_append_getElem (by omega)] at hl
  simp only [List.reverse_append, List.reverse_cons, List.reverse_nil, List.nil_append, List.cons_append,
    List.cons.injEq] at hl
  rw [hn]; simpa using hl.2

theorem back_spec (s : Stack) (v : Nat) (l : List Nat) (hl : s.toList = v :: l) (h : s.ss ≤ s.cells.length) :
    s.back = .ok v := by
  have hlen := toList_length s h
  have hpos : 0 < s.ss := by rw [← hlen, hl]; simp
  obtain ⟨n, hn⟩ : ∃ n, s.ss = n + 1 := ⟨s.ss - 1, by omega⟩
  simp only [back, hpos, if_true]
  rw [lookup_ok_of_lt (by omega)]
  simp only [toList, hn] at hl
  rw [List.take_succ_eq_append_getElem (by omega)] at hl
  simp only [List.reverse_append, List.reverse_cons, List.reverse_nil, List.nil_append, List.cons_append,
    List.cons.injEq] at hl
  simp [hn, hl.1]

end Stack
end Blazert
