/- Lemmas about printed texts. -/
import Mathlib.Data.List.Chain
import Verif.Proofs.Basic
import Verif.Proofs.Built
import Verif.Spec.Print

set_option autoImplicit false

namespace Blazert

namespace Lexer

theorem run_append (s : Lexer) (a b : Text) : s.run (a ++ b) = (s.run a).run b := List.foldl_append

theorem run_nil (s : Lexer) : s.run [] = s := rfl

theorem step_clean {c : Char} (h : c ∉ ['"', '{', '}', '[', ']', ',', ':', ' ', '\n']) (ts : List Tok) (w : Option Text) :
    step ⟨ts, w, false⟩ c = ⟨ts, some (c :: w.getD []), false⟩ := by
  simp only [List.mem_cons, not_or, List.not_mem_nil, not_false_eq_true, and_true] at h
  simp [step, h]

theorem run_word {w : Text} (h : ∀ c ∈ w, c ∉ ['"', '{', '}', '[', ']', ',', ':', ' ', '\n']) (ts : List Tok) (v : Text) :
    run ⟨ts, some v, false⟩ w = ⟨ts, some (w.reverse ++ v), false⟩ := by
  induction w generalizing v with
  | nil => rfl
  | cons c w ih =>
    rw [run, List.foldl_cons, step_clean (h c (by simp))]
    have := ih (fun c hc => h c (by simp [hc])) (c :: v)
    rw [run] at this
    simp [this]

theorem run_clean {w : Text} (h : Clean w) (ts : List Tok) : run ⟨ts, none, false⟩ w = ⟨ts, some w.reverse, false⟩ := by
  obtain ⟨h1, h2⟩ := h
  cases w with
  | nil => exact absurd rfl h1
  | cons c w =>
    rw [run, List.foldl_cons, step_clean (h2 c (by simp))]
    have := run_word (w := w) (fun c hc => h2 c (List.mem_cons_of_mem _ hc)) ts [c]
    rw [run] at this
    simp [this]

theorem run_cons (s : Lexer) (c : Char) (t : Text) : s.run (c :: t) = (s.step c).run t := rfl

/-- the tokens found so far stay -/
theorem run_toks (s : Lexer) (t : Text) : s.toks <:+ (s.run t).toks := by
  induction t generalizing s with
  | nil => exact List.suffix_rfl
  | cons c t ih =>
    refine List.IsSuffix.trans ?_ (ih (s.step c))
    have hf : s.toks <:+ s.flush.toks := by
      unfold flush
      split
      · exact List.suffix_rfl
      · exact List.suffix_cons _ _
    have he : ∀ x, s.toks <:+ (s.emit x).toks := fun x => hf.trans (List.suffix_cons _ _)
    unfold step
    split_ifs <;> first | exact he _ | exact hf | exact List.suffix_cons _ _ | exact List.suffix_rfl

end Lexer

open Lexer

/-! ### Adjacent tokens in texts of the grammar -/

/-- `b` may follow `a`; only what is needed here -/
def MayFollow : Tok → Tok → Bool
  | .str _, .colon => true
  | .str _, .comma => true
  | .str _, .rbrace => true
  | .str _, .rbracket => true
  | .str _, _ => false
  | .word _, .comma => true
  | .word _, .rbrace => true
  | .word _, .rbracket => true
  | .word _, _ => false
  | .comma, .rbrace => false
  | .comma, .rbracket => false
  | .comma, .comma => false
  | .comma, .colon => false
  | .lbracket, .rbrace => false
  | _, _ => true

/-- Tokens a value may begin with. -/
def Starts (ts : List Tok) : Prop := ∃ t rest, ts = t :: rest ∧ MayFollow .comma t = true ∧ t ≠ .colon

def Adjacent (ts : List Tok) : Prop := List.IsChain (fun a b => MayFollow a b = true) ts

theorem Adjacent.append {a b : List Tok} (ha : Adjacent a) (hb : Adjacent b) (h : ∀ x ∈ a.getLast?, ∀ y ∈ b.head?, MayFollow x y = true) :
    Adjacent (a ++ b) := List.isChain_append.mpr ⟨ha, hb, h⟩

theorem mayFollow_end (x : Tok) (h : x ≠ .comma ∧ x ≠ .lbracket) : MayFollow x .comma = true ∧ MayFollow x .rbrace = true ∧ MayFollow x .rbracket = true := by
  cases x <;> simp_all [MayFollow]

/-- values do not end with a comma or an opening bracket -/
def Ends (ts : List Tok) : Prop := ∀ x ∈ ts.getLast?, x ≠ .comma ∧ x ≠ .lbracket

theorem Ends.app {a b : List Tok} (h : Ends b) (hb : b ≠ []) : Ends (a ++ b) := by
  rwa [Ends, List.getLast?_append_of_ne_nil _ hb]

mutual
theorem Json.fit {atom : Text → Prop} {ts : List Tok} : Json atom ts → Adjacent ts ∧ Starts ts ∧ Ends ts
  | .word _ => ⟨List.isChain_singleton _, ⟨_, _, rfl, rfl, by simp⟩, by simp [Ends]⟩
  | .str => ⟨List.isChain_singleton _, ⟨_, _, rfl, rfl, by simp⟩, by simp [Ends]⟩
  | .emptyObject => ⟨by simp [Adjacent, MayFollow], ⟨_, _, rfl, rfl, by simp⟩, by simp [Ends]⟩
  | .emptyArray => ⟨by simp [Adjacent, MayFollow], ⟨_, _, rfl, rfl, by simp⟩, by simp [Ends]⟩
  | .object h => by
    obtain ⟨h1, h2, h3⟩ := h.fit
    refine ⟨?_, ⟨_, _, rfl, rfl, by simp⟩, Ends.app (a := [Tok.lbrace]) (Ends.app (by simp [Ends]) (by simp)) (by simp)⟩
    refine Adjacent.append (a := [Tok.lbrace]) (List.isChain_singleton _) (Adjacent.append h1 (List.isChain_singleton _) ?_) ?_
    · intro x hx y hy
      obtain rfl : y = .rbrace := by simpa using hy.symm
      exact (mayFollow_end x (h3 x hx)).2.1
    · intro x hx y _
      obtain rfl : x = .lbrace := by simpa using hx.symm
      cases y <;> rfl
  | .array h => by
    obtain ⟨h1, h2, h3⟩ := h.fit
    refine ⟨?_, ⟨_, _, rfl, rfl, by simp⟩, Ends.app (a := [Tok.lbracket]) (Ends.app (by simp [Ends]) (by simp)) (by simp)⟩
    refine Adjacent.append (a := [Tok.lbracket]) (List.isChain_singleton _) (Adjacent.append h1 (List.isChain_singleton _) ?_) ?_
    · intro x hx y hy
      obtain rfl : y = .rbracket := by simpa using hy.symm
      exact (mayFollow_end x (h3 x hx)).2.2
    · intro x hx y hy
      obtain rfl : x = .lbracket := by simpa using hx.symm
      obtain ⟨t, r, rfl, h4, -⟩ := h2
      obtain rfl : y = t := by simpa using hy.symm
      cases y <;> simp_all [MayFollow]
theorem Members.fit {atom : Text → Prop} {ts : List Tok} : Members atom ts → Adjacent ts ∧ Starts ts ∧ Ends ts
  | .one (k := k) (v := v) h => by
    obtain ⟨h1, ⟨t, r, rfl, -, h2⟩, h3⟩ := h.fit
    refine ⟨?_, ⟨_, _, rfl, rfl, by simp⟩, ?_⟩
    · refine Adjacent.append (a := [Tok.str k, .colon]) (by simp [Adjacent, MayFollow]) h1 ?_
      intro x hx y _
      obtain rfl : x = .colon := by simpa using hx.symm
      cases y <;> rfl
    · simpa [Ends, List.getLast?_cons_cons] using h3
  | .more (k := k) (v := v) (ts := ts) h h' => by
    obtain ⟨h1, ⟨t, r, rfl, -, h2⟩, h3⟩ := h.fit
    obtain ⟨g1, ⟨t', r', rfl, g2, -⟩, g3⟩ := h'.fit
    refine ⟨?_, ⟨_, _, rfl, rfl, by simp⟩, ?_⟩
    · refine Adjacent.append (a := [Tok.str k, .colon]) (by simp [Adjacent, MayFollow]) (Adjacent.append h1 (Adjacent.append (a := [Tok.comma])
        (List.isChain_singleton _) g1 ?_) ?_) ?_
      · intro x hx y hy
        obtain rfl : x = .comma := by simpa using hx.symm
        obtain rfl : y = t' := by simpa using hy.symm
        exact g2
      · intro x hx y hy
        obtain rfl : y = .comma := by simpa using hy.symm
        exact (mayFollow_end x (h3 x hx)).1
      · intro x hx y _
        obtain rfl : x = .colon := by simpa using hx.symm
        cases y <;> rfl
    · exact Ends.app (a := [Tok.str k, .colon]) (Ends.app (a := t :: r) (Ends.app (a := [Tok.comma]) g3 (by simp)) (by simp)) (by simp)
theorem Elements.fit {atom : Text → Prop} {ts : List Tok} : Elements atom ts → Adjacent ts ∧ Starts ts ∧ Ends ts
  | .one h => h.fit
  | .more (v := v) (ts := ts) h h' => by
    obtain ⟨h1, ⟨t, r, rfl, s1, s2⟩, h3⟩ := h.fit
    obtain ⟨g1, ⟨t', r', rfl, g2, -⟩, g3⟩ := h'.fit
    refine ⟨?_, ⟨_, _, rfl, s1, s2⟩, ?_⟩
    · refine Adjacent.append h1 (Adjacent.append (a := [Tok.comma]) (List.isChain_singleton _) g1 ?_) ?_
      · intro x hx y hy
        obtain rfl : x = .comma := by simpa using hx.symm
        obtain rfl : y = t' := by simpa using hy.symm
        exact g2
      · intro x hx y hy
        obtain rfl : y = .comma := by simpa using hy.symm
        exact (mayFollow_end x (h3 x hx)).1
    · exact Ends.app (Ends.app (a := [Tok.comma]) g3 (by simp)) (by simp)
end

theorem not_json_of_pair {atom : Text → Prop} {a b : List Tok} {x y : Tok} (h : MayFollow x y = false) :
    ¬ Json atom (a ++ x :: y :: b) := fun hj => by
  have h1 := hj.fit.1
  have h2 := (List.isChain_append.mp h1).2.1
  have h3 := (List.isChain_cons_cons.mp h2).1
  simp [h] at h3

mutual
/-- every word in a text of the grammar is a value -/
theorem Json.words {atom : Text → Prop} {ts : List Tok} {w : Text} : Json atom ts → .word w ∈ ts → atom w
  | .word h, hm => by
    obtain rfl : w = _ := by simpa using hm
    exact h
  | .str, hm => by simp at hm
  | .emptyObject, hm => by simp at hm
  | .emptyArray, hm => by simp at hm
  | .object h, hm => h.words (by simpa using hm)
  | .array h, hm => h.words (by simpa using hm)
theorem Members.words {atom : Text → Prop} {ts : List Tok} {w : Text} : Members atom ts → .word w ∈ ts → atom w
  | .one h, hm => h.words (by simpa using hm)
  | .more h h', hm => by
    simp only [List.mem_cons, reduceCtorEq, List.mem_append, false_or] at hm
    rcases hm with hm | hm
    · exact h.words hm
    · exact h'.words hm
theorem Elements.words {atom : Text → Prop} {ts : List Tok} {w : Text} : Elements atom ts → .word w ∈ ts → atom w
  | .one h, hm => h.words hm
  | .more h h', hm => by
    simp only [List.mem_cons, reduceCtorEq, List.mem_append, false_or] at hm
    rcases hm with hm | hm
    · exact h.words hm
    · exact h'.words hm
end

/-- addresses as they are printed on common platforms are not values of JSON -/
theorem hex_not_atom (w : Text) : ¬ JsonAtom ('0' :: 'x' :: w) := by
  rintro (h | h | h | ⟨sign, int, frac, exp, h, hs, hi, hf, he⟩)
  · cases h
  · cases h
  · cases h
  · have hx : ∀ r : Text, frac ++ exp ≠ 'x' :: r := by
      intro r e
      rcases hf with rfl | ⟨ds, -, rfl⟩
      · rcases he with rfl | ⟨c, s, ds, hc, -, -, rfl⟩
        · cases e
        · rcases hc with rfl | rfl <;> cases e
      · cases e
    rcases hs with rfl | rfl
    · rcases hi with rfl | ⟨⟨h1, h2⟩, h3⟩
      · simp only [List.nil_append, List.cons_append, List.cons.injEq, true_and] at h
        exact hx w h.symm
      · cases int with
        | nil => exact h1 rfl
        | cons c cs =>
          simp only [List.nil_append, List.append_assoc, List.cons_append, List.cons.injEq] at h
          exact h3 (by simp [← h.1])
    · cases h

end Blazert
