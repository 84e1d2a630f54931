/- The tokens of printed texts. -/
import Verif.Proofs.Print

set_option autoImplicit false

namespace Blazert

open Lexer

/-- `t` is scanned into the tokens `ts`, in any context that does not end in the middle of a word or string -/
def Lexes (t : Text) (ts : List Tok) : Prop := ∀ before, run ⟨before, none, false⟩ t = ⟨ts.reverse ++ before, none, false⟩

theorem Lexes.append {a b : Text} {ts us : List Tok} (ha : Lexes a ts) (hb : Lexes b us) : Lexes (a ++ b) (ts ++ us) := by
  intro before
  rw [run_append, ha, hb, List.reverse_append, List.append_assoc]

theorem Lexes.nil : Lexes [] [] := fun _ => rfl

theorem Lexes.tokens {t : Text} {ts : List Tok} (h : Lexes t ts) : tokens t = some ts := by
  simp [Blazert.tokens, h [], flush]

theorem Lexes.isJson {atom : Text → Prop} {t : Text} {ts : List Tok} (h : Lexes t ts) : IsJson atom t ↔ Json atom ts := by
  constructor
  · rintro ⟨us, h1, h2⟩
    rw [h.tokens] at h1
    cases h1
    exact h2
  · exact fun h' => ⟨ts, h.tokens, h'⟩

variable {T P : Type}

/-- `"key": word` -/
def tokMember (key : String) (v : List Tok) : List Tok := .str (lit key) :: .colon :: v

def tokVec {A : Type} (f : A → Text) (v : Vec3 A) : List Tok :=
  [.lbracket, .word (f v.x), .comma, .word (f v.y), .comma, .word (f v.z), .rbracket]

def tokMat (pr : Printer T) (m : Mat3 T) : List Tok :=
  .lbracket :: (tokVec pr.num m.r0 ++ .comma :: (tokVec pr.num m.r1 ++ .comma :: (tokVec pr.num m.r2 ++ [.rbracket])))

def Sphere.toks (pr : Printer T) (this : Text) (s : Sphere T) : List Tok :=
  .lbrace :: (tokMember "Sphere" [.word this] ++ .comma :: (tokMember "center" (tokVec pr.num s.center) ++ .comma ::
    (tokMember "radius" [.word (pr.num s.radius)] ++ .comma :: (tokMember "prim_id" [.word (pr.nat s.primId)] ++ [.rbrace]))))

theorem Sphere.lexes {pr : Printer T} (h : pr.Words) {this : Text} (ht : Clean this) (s : Sphere T) :
    Lexes (s.print pr this) (s.toks pr this) := by
  intro before
  simp [Sphere.print, Printer.three, run_append, run_clean (h.num _), run_clean (h.nat _), run_clean ht, run_nil, lit,
     run_cons, step, emit, flush, Sphere.toks, tokMember, tokVec]

def EmbSphere.toks (pr : Printer T) (this : Text) (s : EmbSphere T) : List Tok :=
  .lbrace :: (tokMember "EmbreeSphere" [.word this] ++ .comma :: (tokMember "center" (tokVec pr.num s.center) ++ .comma ::
    (tokMember "radius" [.word (pr.num s.radius)] ++ [.rbrace])))

theorem EmbSphere.lexes {pr : Printer T} (h : pr.Words) {this : Text} (ht : Clean this) (s : EmbSphere T) :
    Lexes (s.print pr this) (s.toks pr this) := by
  intro before
  simp [EmbSphere.print, Printer.three, run_append, run_clean (h.num _), run_clean ht, run_nil, lit,
     run_cons, step, emit, flush, EmbSphere.toks, tokMember, tokVec]

theorem Printer.matrix_lexes {pr : Printer T} (h : pr.Words) (m : Mat3 T) :
    Lexes (pr.matrix m) (tokMember "rotation" (tokMat pr m) ++ [.comma]) := by
  intro before
  simp [Printer.matrix, Printer.three, run_append, run_clean (h.num _), run_nil, lit,
     run_cons, step, emit, flush, tokMember, tokVec, tokMat]

def Plane.toks (pr : Printer T) (this : Text) (p : Plane T) : List Tok :=
  .lbrace :: (tokMember "Plane" [.word this] ++ .comma :: (tokMember "center" (tokVec pr.num p.center) ++ .comma ::
    (tokMember "dx" [.word (pr.num p.dx)] ++ .comma :: (tokMember "dy" [.word (pr.num p.dy)] ++ .comma ::
    (tokMember "rotation" (tokMat pr p.rotation) ++ .comma :: (tokMember "prim_id" [.word (pr.nat p.primId)] ++ [.rbrace]))))))

theorem Plane.lexes {pr : Printer T} (h : pr.Words) {this : Text} (ht : Clean this) (p : Plane T) :
    Lexes (p.print pr this) (p.toks pr this) := by
  intro before
  simp [Plane.print, Printer.three, run_append, run_clean (h.num _), run_clean (h.nat _), run_clean ht, run_nil, lit,
     run_cons, step, emit, flush, Printer.matrix_lexes h _ _, Plane.toks, tokMember, tokVec]

def Triangle.toks (pr : Printer T) (this : Text) (t : Triangle T) : List Tok :=
  .lbrace :: (tokMember "Triangle" [.word this] ++ .comma :: (tokMember "a" (tokVec pr.num ⟨t.a.x, t.c.y, t.a.z⟩) ++ .comma ::
    (tokMember "b" (tokVec pr.num t.b) ++ .comma :: (tokMember "c" (tokVec pr.num t.c) ++ .comma ::
    (tokMember "prim_id" [.word (pr.nat t.primId)] ++ [.rbrace])))))

theorem Triangle.lexes {pr : Printer T} (h : pr.Words) {this : Text} (ht : Clean this) (t : Triangle T) :
    Lexes (t.print pr this) (t.toks pr this) := by
  intro before
  simp [Triangle.print, Printer.three, run_append, run_clean (h.num _), run_clean (h.nat _), run_clean ht, run_nil, lit,
     run_cons, step, emit, flush, Triangle.toks, tokMember, tokVec]

def Cylinder.toks (pr : Printer T) (this : Text) (c : Cylinder T) : List Tok :=
  .lbrace :: (tokMember "Cylinder" [.word this] ++ .comma :: (tokMember "center" (tokVec pr.num c.center) ++ .comma ::
    (tokMember "semi_axis_a" [.word (pr.num c.a)] ++ .comma :: (tokMember "semi_axis_b" [.word (pr.num c.b)] ++ .comma ::
    (tokMember "height" [.word (pr.num c.height)] ++ .comma ::
    (tokMember "rotation" (tokMat pr c.rotation) ++ .comma :: (tokMember "prim_id" [.word (pr.nat c.primId)] ++ [.rbrace])))))))

theorem Cylinder.lexes {pr : Printer T} (h : pr.Words) {this : Text} (ht : Clean this) (c : Cylinder T) :
    Lexes (c.print pr this) (c.toks pr this) := by
  intro before
  simp [Cylinder.print, Printer.three, run_append, run_clean (h.num _), run_clean (h.nat _), run_clean ht, run_nil, lit,
     run_cons, step, emit, flush, Printer.matrix_lexes h _ _, Cylinder.toks, tokMember, tokVec]

/-- a node: the colon is inside the quotes -/
def Node.toks (pr : Printer T) (this : Text) (n : Node T P) : List Tok :=
  .lbrace :: (tokMember "node" [.word this] ++ .comma :: .str (lit "min:") :: (tokVec pr.num n.min ++ .comma ::
    .str (lit "max:") :: (tokVec pr.num n.max ++ .comma :: (tokMember "leaf" [.word (pr.nat (if n.leaf then 1 else 0))] ++
    .comma :: (tokMember "axis" [.word (pr.nat n.axis)] ++ [.rbrace])))))

theorem Node.lexes {pr : Printer T} (h : pr.Words) {this : Text} (ht : Clean this) (n : Node T P) :
    Lexes (n.print pr this) (n.toks pr this) := by
  intro before
  simp [Node.print, Printer.three, run_append, run_clean (h.num _), run_clean (h.nat _), run_clean ht, run_nil, lit,
     run_cons, step, emit, flush, Node.toks, tokMember, tokVec]

def EmbPlane.toks (pr : Printer T) (this : Text) (p : EmbPlane T) : List Tok :=
  .lbrace :: (tokMember "EmbreePlane" [.word this] ++ .comma :: (tokMember "center" (tokVec pr.num p.center) ++ .comma ::
    (tokMember "d1" [.word (pr.num p.d1)] ++ (tokMember "d2" [.word (pr.num p.d2)] ++
    (tokMember "rotation" (tokMat pr p.rot) ++ [.comma, .rbrace])))))

theorem EmbPlane.lexes {pr : Printer T} (h : pr.Words) {this : Text} (ht : Clean this) (p : EmbPlane T) :
    Lexes (p.print pr this) (p.toks pr this) := by
  intro before
  simp [EmbPlane.print, Printer.three, run_append, run_clean (h.num _), run_clean ht, run_nil, lit,
     run_cons, step, emit, flush, Printer.matrix_lexes h _ _, EmbPlane.toks, tokMember, tokVec]

def EmbCyl.toks (pr : Printer T) (this : Text) (c : EmbCyl T) : List Tok :=
  .lbrace :: (tokMember "EmbreeCylinder" [.word this] ++ .comma :: (tokMember "cylinder" (tokVec pr.num c.center) ++ .comma ::
    (tokMember "a" [.word (pr.num c.a)] ++ (tokMember "b" [.word (pr.num c.b)] ++ (tokMember "height" [.word (pr.num c.height)] ++
    (tokMember "rotation" (tokMat pr c.rot) ++ [.comma, .rbrace]))))))

theorem EmbCyl.lexes {pr : Printer T} (h : pr.Words) {this : Text} (ht : Clean this) (c : EmbCyl T) :
    Lexes (c.print pr this) (c.toks pr this) := by
  intro before
  simp [EmbCyl.print, Printer.three, run_append, run_clean (h.num _), run_clean ht, run_nil, lit,
     run_cons, step, emit, flush, Printer.matrix_lexes h _ _, EmbCyl.toks, tokMember, tokVec]

end Blazert
