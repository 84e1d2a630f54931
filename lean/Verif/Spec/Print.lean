/- Texts in the style of JSON: tokens and grammar. -/
import Verif.Model.Print

set_option autoImplicit false

namespace Blazert

/-- Tokens; a word is anything without quotes (numbers, literals, unquoted names, addresses). -/
inductive Tok where
  | lbrace | rbrace | lbracket | rbracket | comma | colon
  | str (s : Text)
  | word (w : Text)
  deriving DecidableEq

/-- State of the scanner: the tokens found so far (last one first), the word that has begun (last character first), and whether
a string has begun. -/
structure Lexer where
  toks : List Tok
  word : Option Text
  quoted : Bool
  deriving DecidableEq

namespace Lexer

/-- the end of a word -/
def flush (s : Lexer) : Lexer :=
  match s.word with
  | none => s
  | some w => ⟨.word w.reverse :: s.toks, none, s.quoted⟩

def emit (s : Lexer) (t : Tok) : Lexer := { s.flush with toks := t :: s.flush.toks }

def step (s : Lexer) (c : Char) : Lexer :=
  if s.quoted then
    if c = '"' then ⟨.str (s.word.getD []).reverse :: s.toks, none, false⟩
    else { s with word := some (c :: s.word.getD []) }
  else if c = '"' then { s.flush with quoted := true }
  else if c = '{' then s.emit .lbrace
  else if c = '}' then s.emit .rbrace
  else if c = '[' then s.emit .lbracket
  else if c = ']' then s.emit .rbracket
  else if c = ',' then s.emit .comma
  else if c = ':' then s.emit .colon
  else if c = ' ' ∨ c = '\n' then s.flush
  else { s with word := some (c :: s.word.getD []) }

def run (s : Lexer) (t : Text) : Lexer := t.foldl step s

end Lexer

/-- The tokens of a text; nothing if a string is not closed.  (Escape sequences do not occur.) -/
def tokens (t : Text) : Option (List Tok) :=
  let s := (Lexer.run ⟨[], none, false⟩ t).flush
  if s.quoted then none else some s.toks.reverse

/-- A text that is one word: it is not empty and has none of the characters that separate words. -/
def Clean (w : Text) : Prop := w ≠ [] ∧ ∀ c ∈ w, c ∉ ['"', '{', '}', '[', ']', ',', ':', ' ', '\n']

mutual
/-- The grammar of JSON (RFC 8259), over tokens; `atom` says which words are values. -/
inductive Json (atom : Text → Prop) : List Tok → Prop
  | word {w} : atom w → Json atom [.word w]
  | str {s} : Json atom [.str s]
  | emptyObject : Json atom [.lbrace, .rbrace]
  | object {ts} : Members atom ts → Json atom (.lbrace :: (ts ++ [.rbrace]))
  | emptyArray : Json atom [.lbracket, .rbracket]
  | array {ts} : Elements atom ts → Json atom (.lbracket :: (ts ++ [.rbracket]))
inductive Members (atom : Text → Prop) : List Tok → Prop
  | one {k v} : Json atom v → Members atom (.str k :: .colon :: v)
  | more {k v ts} : Json atom v → Members atom ts → Members atom (.str k :: .colon :: (v ++ .comma :: ts))
inductive Elements (atom : Text → Prop) : List Tok → Prop
  | one {v} : Json atom v → Elements atom v
  | more {v ts} : Json atom v → Elements atom ts → Elements atom (v ++ .comma :: ts)
end

/-- `t` is a text of this grammar -/
def IsJson (atom : Text → Prop) (t : Text) : Prop := ∃ ts, tokens t = some ts ∧ Json atom ts

def Digits (w : Text) : Prop := w ≠ [] ∧ ∀ c ∈ w, c.isDigit

/-- The words that are values in JSON: the three literals and numbers (RFC 8259, sections 3 and 6). -/
def JsonAtom (w : Text) : Prop :=
  w = lit "true" ∨ w = lit "false" ∨ w = lit "null" ∨
  ∃ sign int frac exp, w = sign ++ int ++ frac ++ exp ∧ (sign = [] ∨ sign = ['-']) ∧
    (int = ['0'] ∨ Digits int ∧ int.head? ≠ some '0') ∧
    (frac = [] ∨ ∃ ds, Digits ds ∧ frac = '.' :: ds) ∧
    (exp = [] ∨ ∃ e s ds, (e = 'e' ∨ e = 'E') ∧ (s = [] ∨ s = ['+'] ∨ s = ['-']) ∧ Digits ds ∧ exp = e :: (s ++ ds))

/-- What `pr` prints for numbers are words. -/
structure Printer.Words {T : Type} (pr : Printer T) : Prop where
  num : ∀ x, Clean (pr.num x)
  nat : ∀ n, Clean (pr.nat n)

/-- What `pr` prints for numbers counts as a value. -/
structure Printer.Values {T : Type} (pr : Printer T) (atom : Text → Prop) : Prop where
  num : ∀ x, atom (pr.num x)
  nat : ∀ n, atom (pr.nat n)

/-- no collection of the scene is empty -/
def Scene.NoneEmpty {T : Type} (scene : Scene T) : Prop :=
  (∀ q, scene.mesh = some q → 0 < q.coll.faces.length) ∧ (∀ q, scene.spheres = some q → 0 < q.coll.centers.length) ∧
  (∀ q, scene.cylinders = some q → 0 < q.coll.centers.length) ∧ (∀ q, scene.planes = some q → 0 < q.coll.centers.length)

end Blazert
