/- Which printed texts are in the grammar. -/
import Verif.Proofs.PrintLex

set_option autoImplicit false

namespace Blazert

open Lexer

variable {T P : Type}

/-! ### Single objects -/

theorem vec_json {atom : Text → Prop} {A : Type} {f : A → Text} (h : ∀ x, atom (f x)) (v : Vec3 A) : Json atom (tokVec f v) := by
  show Json atom (.lbracket :: (([.word _] ++ .comma :: ([.word _] ++ .comma :: [.word _])) ++ [.rbracket]))
  exact .array (.more (.word (h _)) (.more (.word (h _)) (.one (.word (h _)))))

theorem mat_json {atom : Text → Prop} {pr : Printer T} (h : pr.Values atom) (m : Mat3 T) : Json atom (tokMat pr m) := by
  have e : tokMat pr m = .lbracket :: ((tokVec pr.num m.r0 ++ .comma :: (tokVec pr.num m.r1 ++ .comma :: tokVec pr.num m.r2)) ++
      [.rbracket]) := by simp [tokMat]
  rw [e]
  exact .array (.more (vec_json h.num _) (.more (vec_json h.num _) (.one (vec_json h.num _))))

/-- members up to the end of the object -/
def Rest (atom : Text → Prop) (ts : List Tok) : Prop := ∃ ms, Members atom ms ∧ ts = ms ++ [.rbrace]

theorem Rest.one {atom : Text → Prop} {k : String} {v : List Tok} (h : Json atom v) : Rest atom (tokMember k v ++ [.rbrace]) :=
  ⟨_, .one h, rfl⟩

theorem Rest.more {atom : Text → Prop} {k : String} {v ts : List Tok} (h : Json atom v) (ht : Rest atom ts) :
    Rest atom (tokMember k v ++ .comma :: ts) := by
  obtain ⟨ms, h1, rfl⟩ := ht
  exact ⟨_, .more (k := lit k) h h1, by simp [tokMember]⟩

theorem Rest.object {atom : Text → Prop} {ts : List Tok} (h : Rest atom ts) : Json atom (.lbrace :: ts) := by
  obtain ⟨ms, h1, rfl⟩ := h
  exact .object h1

theorem Sphere.json {atom : Text → Prop} {pr : Printer T} (h : pr.Values atom) {this : Text} (ht : atom this) (s : Sphere T) :
    Json atom (s.toks pr this) :=
  (Rest.more (.word ht) (.more (vec_json h.num _) (.more (.word (h.num _)) (.one (.word (h.nat _)))))).object

theorem EmbSphere.json {atom : Text → Prop} {pr : Printer T} (h : pr.Values atom) {this : Text} (ht : atom this)
    (s : EmbSphere T) : Json atom (s.toks pr this) :=
  (Rest.more (.word ht) (.more (vec_json h.num _) (.one (.word (h.num _))))).object

theorem Plane.json {atom : Text → Prop} {pr : Printer T} (h : pr.Values atom) {this : Text} (ht : atom this) (p : Plane T) :
    Json atom (p.toks pr this) :=
  (Rest.more (.word ht) (.more (vec_json h.num _) (.more (.word (h.num _)) (.more (.word (h.num _)) (.more (mat_json h _)
    (.one (.word (h.nat _)))))))).object

theorem Triangle.json {atom : Text → Prop} {pr : Printer T} (h : pr.Values atom) {this : Text} (ht : atom this) (t : Triangle T) :
    Json atom (t.toks pr this) :=
  (Rest.more (.word ht) (.more (vec_json h.num _) (.more (vec_json h.num _) (.more (vec_json h.num _)
    (.one (.word (h.nat _))))))).object

theorem Cylinder.json {atom : Text → Prop} {pr : Printer T} (h : pr.Values atom) {this : Text} (ht : atom this) (c : Cylinder T) :
    Json atom (c.toks pr this) :=
  (Rest.more (.word ht) (.more (vec_json h.num _) (.more (.word (h.num _)) (.more (.word (h.num _)) (.more (.word (h.num _))
    (.more (mat_json h _) (.one (.word (h.nat _))))))))).object

/-- tokens that never follow each other occur in `ts` -/
def Bad (ts : List Tok) : Prop := ∃ a x y b, ts = a ++ x :: y :: b ∧ MayFollow x y = false

theorem Bad.not_json {atom : Text → Prop} {ts : List Tok} : Bad ts → ¬ Json atom ts := by
  rintro ⟨a, x, y, b, rfl, h⟩
  exact not_json_of_pair h

theorem Bad.append_left {ts : List Tok} (us : List Tok) : Bad ts → Bad (us ++ ts) := by
  rintro ⟨a, x, y, b, rfl, h⟩
  exact ⟨us ++ a, x, y, b, by simp, h⟩

theorem Bad.append_right {ts : List Tok} (us : List Tok) : Bad ts → Bad (ts ++ us) := by
  rintro ⟨a, x, y, b, rfl, h⟩
  exact ⟨a, x, y, b ++ us, by simp, h⟩

theorem Node.bad (pr : Printer T) (this : Text) (n : Node T P) : Bad (n.toks pr this) :=
  ⟨.lbrace :: (tokMember "node" [.word this] ++ [.comma]), _, _, _, rfl, rfl⟩

theorem EmbPlane.bad (pr : Printer T) (this : Text) (p : EmbPlane T) : Bad (p.toks pr this) :=
  ⟨.lbrace :: (tokMember "EmbreePlane" [.word this] ++ .comma :: (tokMember "center" (tokVec pr.num p.center) ++ .comma ::
    tokMember "d1" [])), .word (pr.num p.d1), .str (lit "d2"), _, rfl, rfl⟩

theorem EmbCyl.bad (pr : Printer T) (this : Text) (c : EmbCyl T) : Bad (c.toks pr this) :=
  ⟨.lbrace :: (tokMember "EmbreeCylinder" [.word this] ++ .comma :: (tokMember "cylinder" (tokVec pr.num c.center) ++ .comma ::
    tokMember "a" [])), .word (pr.num c.a), .str (lit "b"), _, rfl, rfl⟩

/-- an object whose first key has no quotes -/
theorem not_json_unquoted {atom : Text → Prop} {t t' : Text} {w : Text}
    (h : run ⟨[], none, false⟩ t = ⟨[.colon, .word w, .lbrace], none, false⟩) : ¬ IsJson atom (t ++ t') := by
  rintro ⟨ts, h1, h2⟩
  unfold tokens at h1
  rw [run_append, h] at h1
  obtain ⟨new, hn⟩ := run_toks ⟨[.colon, .word w, .lbrace], none, false⟩ t'
  set s := run ⟨[.colon, .word w, .lbrace], none, false⟩ t'
  have hf : ∃ new, s.flush.toks = new ++ [.colon, .word w, .lbrace] := by
    unfold flush
    split
    · exact ⟨new, hn.symm⟩
    · rename_i w' _
      exact ⟨.word w'.reverse :: new, by simp [← hn]⟩
  obtain ⟨new', hn'⟩ := hf
  dsimp only at h1
  split_ifs at h1
  obtain rfl : s.flush.toks.reverse = ts := by simpa using h1
  rw [hn'] at h2
  exact not_json_of_pair (a := [.lbrace]) (x := .word w) (y := .colon) (b := new'.reverse) rfl (by simpa using h2)

/-! ### Trees -/

theorem printBVH_lexes {pr : Printer T} (h : pr.Words) {addr : Nat → Text} (ha : ∀ i, Clean (addr i)) (nodes : List (Node T P)) :
    ∃ ts, Lexes (printBVH pr addr nodes) ts ∧ Bad ts := by
  have key : ∀ (n : Nat) (l : List (Node T P)) (k : Nat), ∃ ts, Lexes ((l.zipIdx k).flatMap fun (node, i) =>
      node.print pr (addr i) ++ (if i < n then lit ", " else lit "]") ++ lit "\n") ts ∧ (l ≠ [] → Bad ts) ∧ (l = [] → ts = []) := by
    intro n l
    induction l with
    | nil => exact fun k => ⟨[], .nil, fun h => absurd rfl h, fun _ => rfl⟩
    | cons x l ih =>
      intro k
      obtain ⟨ts, h1, -⟩ := ih (k + 1)
      have hs : ∃ s, Lexes ((if k < n then lit ", " else lit "]") ++ lit "\n") s := by
        split_ifs
        · exact ⟨[.comma], fun _ => rfl⟩
        · exact ⟨[.rbracket], fun _ => rfl⟩
      obtain ⟨s, hs⟩ := hs
      refine ⟨x.toks pr (addr k) ++ s ++ ts, ?_, fun _ => ?_, fun h => by cases h⟩
      · have := ((x.lexes h (ha k)).append hs).append h1
        simpa only [List.zipIdx_cons, List.flatMap_cons, List.append_assoc] using this
      · exact ((x.bad pr _).append_right _).append_right _
  obtain ⟨ts, h1, h2, h3⟩ := key (nodes.length - 1) nodes 0
  have e1 : Lexes (lit "{" ++ lit "\n" ++ lit "\"nodes\": [ " ++ lit "\n") [.lbrace, .str (lit "nodes"), .colon, .lbracket] :=
    fun _ => rfl
  have e2 : Lexes (lit "}" ++ lit "\n") [.rbrace] := fun _ => rfl
  refine ⟨[.lbrace, .str (lit "nodes"), .colon, .lbracket] ++ ts ++ [.rbrace], ?_, ?_⟩
  · have := (e1.append h1).append e2
    simpa only [printBVH, List.append_assoc] using this
  · by_cases hn : nodes = []
    · rw [h3 hn]
      exact ⟨[.lbrace, .str (lit "nodes"), .colon], .lbracket, .rbrace, [], rfl, rfl⟩
    · exact ((h2 hn).append_left _).append_right _

/-! ### Collections -/

theorem Collection.print_lexes {atom : Text → Prop} {pr : Printer T} (h : pr.Words) (hv : pr.Values atom) {head : String}
    {item : Text → P → Text} {addr : Nat → Text} (ha : ∀ i, Clean (addr i)) (hav : ∀ i, atom (addr i)) {coll : Collection T P}
    {name : String} (hhead : ∀ before, run ⟨before, none, false⟩ (lit "{\n" ++ lit head) =
      ⟨[.colon, .str (lit "size"), .lbrace, .lbracket, .colon, .str (lit name), .lbrace] ++ before, none, false⟩)
    {toks : Text → P → List Tok} (hitem : ∀ a p, Clean a → Lexes (item a p) (toks a p))
    (hjson : ∀ a p, atom a → Json atom (toks a p)) {out : Text} (hp : coll.print pr head item addr = .ok out) :
    ∃ ts, Lexes out ts ∧ (0 < coll.size → Json atom ts) ∧ (coll.size = 0 → Bad ts) := by
  unfold Collection.print at hp
  obtain ⟨items, h1, h2⟩ := run_bind_eq_ok.mp hp
  cases h2
  have key : ∀ (n : Nat) (l : List Nat) (items : List Text), (∀ i ∈ l, i ≠ n) → (l.mapM fun i => do
      let p ← coll.prim i
      return item (addr i) p ++ lit (if i = n then "]\n" else ", \n")) = Except.ok items →
      ∃ ts, Lexes items.flatten ts ∧ ∀ us, Elements atom us → Elements atom (ts ++ us) := by
    intro n l
    induction l with
    | nil =>
      intro items _ h
      rw [mapM_nil_run] at h
      cases h
      exact ⟨[], .nil, fun us h => h⟩
    | cons i l ih =>
      intro items hi h
      rw [mapM_cons_run] at h
      obtain ⟨t, h1, h⟩ := run_bind_eq_ok.mp h
      obtain ⟨rest, h2, h⟩ := run_bind_eq_ok.mp h
      cases h
      obtain ⟨p, h3, h4⟩ := run_bind_eq_ok.mp h1
      cases h4
      obtain ⟨ts, g1, g2⟩ := ih rest (fun i hi' => hi i (by simp [hi'])) h2
      rw [if_neg (hi i (by simp))]
      refine ⟨toks (addr i) p ++ [.comma] ++ ts, ?_, fun us hu => ?_⟩
      · rw [List.flatten_cons]
        exact ((hitem _ p (ha i)).append (fun _ => rfl)).append g1
      · rw [List.append_assoc, List.append_assoc]
        exact .more (hjson _ p (hav i)) (g2 us hu)
  have hsize : Lexes (lit "{\n" ++ lit head ++ pr.nat coll.size ++ lit "},\n") ([.lbrace, .str (lit name), .colon, .lbracket] ++
      (.lbrace :: (tokMember "size" [.word (pr.nat coll.size)] ++ [.rbrace])) ++ [.comma]) := by
    intro before
    rw [run_append, run_append, hhead, List.cons_append, run_clean (h.nat _)]
    simp [run_cons, step, emit, flush, lit, run_nil, tokMember]
  have hend : Lexes (lit "}\n") [.rbrace] := fun _ => rfl
  rcases Nat.eq_zero_or_pos coll.size with h0 | h0
  · rw [h0, List.range_zero, mapM_nil_run] at h1
    cases h1
    refine ⟨[.lbrace, .str (lit name), .colon, .lbracket] ++ (.lbrace :: (tokMember "size" [.word (pr.nat coll.size)] ++
      [.rbrace])) ++ [.comma] ++ [.rbrace], ?_, fun h => absurd h (by omega), fun _ => ?_⟩
    · simpa only [List.flatten_nil, List.append_nil] using hsize.append hend
    · exact ⟨_, .comma, .rbrace, [], by rw [List.append_assoc]; rfl, rfl⟩
  · obtain ⟨n, hn⟩ : ∃ n, coll.size = n + 1 := ⟨coll.size - 1, by omega⟩
    rw [hn, List.range_succ] at h1
    simp only [Nat.add_sub_cancel] at h1
    rw [List.mapM_append] at h1
    obtain ⟨init, h2, h1⟩ := run_bind_eq_ok.mp h1
    obtain ⟨last, h3, h1⟩ := run_bind_eq_ok.mp h1
    cases h1
    obtain ⟨ts, g1, g2⟩ := key n (List.range n) init (fun i hi => by
      have := List.mem_range.mp hi
      omega) h2
    rw [mapM_cons_run] at h3
    obtain ⟨t, h4, h3⟩ := run_bind_eq_ok.mp h3
    obtain ⟨p, h5, h4⟩ := run_bind_eq_ok.mp h4
    rw [mapM_nil_run] at h3
    cases h3
    cases h4
    rw [if_pos rfl]
    have hlast : Lexes (item (addr n) p ++ lit "]\n") (toks (addr n) p ++ [.rbracket]) := (hitem _ p (ha n)).append (fun _ => rfl)
    refine ⟨[.lbrace, .str (lit name), .colon, .lbracket] ++ (.lbrace :: (tokMember "size" [.word (pr.nat coll.size)] ++
      [.rbrace])) ++ [.comma] ++ (ts ++ (toks (addr n) p ++ [.rbracket])) ++ [.rbrace], ?_, fun _ => ?_,
      fun h => absurd h (by omega)⟩
    · have := (hsize.append (g1.append hlast)).append hend
      simpa only [List.flatten_append, List.flatten_cons, List.flatten_nil, List.append_nil] using this
    · have e : Elements atom ((.lbrace :: (tokMember "size" [.word (pr.nat coll.size)] ++ [.rbrace])) ++ .comma ::
          (ts ++ toks (addr n) p)) :=
        .more (Rest.one (.word (hv.nat _))).object (g2 _ (.one (hjson _ p (hav n))))
      have := (Rest.one (k := name) (Json.array e)).object
      convert this using 1
      simp [tokMember]

theorem PlaneColl.print_lexes {atom : Text → Prop} {pr : Printer T} (h : pr.Words) (hv : pr.Values atom) {addr : Nat → Text}
    (ha : ∀ i, Clean (addr i)) (hav : ∀ i, atom (addr i)) (c : PlaneColl T) (out : Text) (ho : c.print pr addr = .ok out) :
    ∃ ts, Lexes out ts ∧ (0 < c.centers.length → Json atom ts) ∧ (c.centers.length = 0 → Bad ts) :=
  Collection.print_lexes h hv ha hav (name := "PlaneCollection")
    (fun before => by simp [run_nil, lit, run_cons, step, emit, flush])
    (fun a p hc => p.lexes h hc) (fun a p hc => p.json hv hc) ho

theorem CylColl.print_lexes {atom : Text → Prop} {pr : Printer T} (h : pr.Words) (hv : pr.Values atom) {addr : Nat → Text}
    (ha : ∀ i, Clean (addr i)) (hav : ∀ i, atom (addr i)) (c : CylColl T) (out : Text) (ho : c.print pr addr = .ok out) :
    ∃ ts, Lexes out ts ∧ (0 < c.centers.length → Json atom ts) ∧ (c.centers.length = 0 → Bad ts) :=
  Collection.print_lexes h hv ha hav (name := "CylinderCollection")
    (fun before => by simp [run_nil, lit, run_cons, step, emit, flush])
    (fun a p hc => p.lexes h hc) (fun a p hc => p.json hv hc) ho

theorem SphereColl.print_lexes {atom : Text → Prop} {pr : Printer T} (h : pr.Words) (hv : pr.Values atom) {addr : Nat → Text}
    (ha : ∀ i, Clean (addr i)) (hav : ∀ i, atom (addr i)) (c : SphereColl T) (out : Text) (ho : c.print pr addr = .ok out) :
    ∃ ts, Lexes out ts ∧ (0 < c.centers.length → Json atom ts) ∧ (c.centers.length = 0 → Bad ts) :=
  Collection.print_lexes h hv ha hav (name := "SphereCollection")
    (fun before => by simp [run_nil, lit, run_cons, step, emit, flush])
    (fun a p hc => p.lexes h hc) (fun a p hc => p.json hv hc) ho

theorem MeshColl.print_lexes [Scalar T] {atom : Text → Prop} {pr : Printer T} (h : pr.Words) (hv : pr.Values atom) {addr : Nat → Text}
    (ha : ∀ i, Clean (addr i)) (hav : ∀ i, atom (addr i)) (c : MeshColl T) (out : Text) (ho : c.print pr addr = .ok out) :
    ∃ ts, Lexes out ts ∧ (0 < c.faces.length → Json atom ts) ∧ (c.faces.length = 0 → Bad ts) :=
  Collection.print_lexes h hv ha hav (name := "TriangleMesh")
    (fun before => by simp [run_nil, lit, run_cons, step, emit, flush])
    (fun a p hc => p.lexes h hc) (fun a p hc => p.json hv hc) ho

/-! ### Scenes -/

/-- The text of the last collections of a scene: `present` says whether there are any, `good` whether all have primitives. -/
def Chunk (atom : Text → Prop) (t : Text) (present : Bool) (good : Prop) : Prop :=
  (present = false ∧ t = [] ∧ good) ∨
  (present = true ∧ ∃ ts, Lexes t ts ∧ (good → Elements atom ts) ∧ (¬ good → Bad ts))

theorem Chunk.cons {atom : Text → Prop} {C : Type} {print : C → Run Text} {size : C → Nat} {p : Option (Part C T P)} {s t : Text}
    {present : Bool} {good : Prop} (h : printPart print present p = .ok s)
    (hp : ∀ c out, print c = .ok out → ∃ ts, Lexes out ts ∧ (0 < size c → Json atom ts) ∧ (size c = 0 → Bad ts))
    (ht : Chunk atom t present good) :
    Chunk atom (s ++ t) (p.isSome || present) ((∀ q, p = some q → 0 < size q.coll) ∧ good) := by
  cases p with
  | none =>
    cases h
    rcases ht with ⟨h1, h2, h3⟩ | ⟨h1, ts, h2, h3, h4⟩
    · exact .inl ⟨by simp [h1], by simp [h2], by simp, h3⟩
    · exact .inr ⟨by simp [h1], ts, h2, fun hg => h3 hg.2, fun hg => h4 fun h => hg ⟨by simp, h⟩⟩
  | some q =>
    obtain ⟨out, g1, g2⟩ := run_bind_eq_ok.mp h
    cases g2
    obtain ⟨us, u1, u2, u3⟩ := hp _ _ g1
    have hz : ¬ (0 < size q.coll) → size q.coll = 0 := fun h => by omega
    rcases ht with ⟨h1, rfl, h3⟩ | ⟨h1, ts, h2, h3, h4⟩
    · rw [h1, if_neg (by simp)]
      refine .inr ⟨rfl, us, by simpa using u1, fun hg => .one (u2 (hg.1 q rfl)), fun hg => u3 (hz fun h => hg ⟨?_, h3⟩)⟩
      rintro _ ⟨⟩
      exact h
    · rw [h1, if_pos rfl]
      refine .inr ⟨rfl, us ++ [.comma] ++ ts, ?_, fun hg => ?_, fun hg => ?_⟩
      · exact (u1.append (fun _ => rfl)).append h2
      · rw [List.append_assoc]
        exact .more (u2 (hg.1 q rfl)) (h3 hg.2)
      · by_cases hs : 0 < size q.coll
        · refine (h4 fun hgood => hg ⟨?_, hgood⟩).append_left _
          rintro _ ⟨⟩
          exact hs
        · exact ((u3 (hz hs)).append_right _).append_right _

theorem scene_head {this : Text} (ht : Clean this) :
    Lexes (lit "{\n" ++ lit "  \"Scene\": " ++ this ++ lit ",\n" ++ lit "  \"Collections\": [" ++ lit "\n")
      (.lbrace :: (tokMember "Scene" [.word this] ++ .comma :: tokMember "Collections" [.lbracket])) := by
  intro before
  simp [run_append, run_clean ht, run_nil, lit, run_cons, step, emit, flush, tokMember]

theorem scene_tail : Lexes (lit "  ]\n" ++ lit "}\n") [.rbracket, .rbrace] := fun _ => rfl

theorem scene_wrap {atom : Text → Prop} {this : Text} (htv : atom this) {es : List Tok}
    (hes : Json atom (.lbracket :: (es ++ [.rbracket]))) : Json atom (.lbrace :: (tokMember "Scene" [.word this] ++ .comma ::
      tokMember "Collections" [.lbracket]) ++ es ++ [.rbracket, .rbrace]) := by
  have := (Rest.more (k := "Scene") (Json.word htv) (.one (k := "Collections") hes)).object
  convert this using 1
  simp [tokMember]

theorem scene_lexes {this : Text} (ht : Clean this) {m s c p : Text} {es : List Tok} (hes : Lexes (m ++ (s ++ (c ++ (p ++ [])))) es) :
    Lexes (lit "{\n" ++ lit "  \"Scene\": " ++ this ++ lit ",\n" ++
      lit "  \"Collections\": [" ++ lit "\n" ++ m ++ s ++ c ++ p ++ lit "  ]\n" ++ lit "}\n") (.lbrace ::
      (tokMember "Scene" [.word this] ++ .comma :: tokMember "Collections" [.lbracket]) ++ es ++ [.rbracket, .rbrace]) := by
  have := ((scene_head ht).append hes).append scene_tail
  simpa only [List.append_assoc, List.append_nil] using this

theorem Scene.print_lexes [Scalar T] {atom : Text → Prop} {pr : Printer T} (h : pr.Words) (hv : pr.Values atom) {this : Text}
    (ht : Clean this) (htv : atom this) {addr : Nat → Nat → Text} (ha : ∀ k i, Clean (addr k i)) (hav : ∀ k i, atom (addr k i))
    {scene : Scene T} {out : Text} (hp : scene.print pr this addr = .ok out) :
    ∃ ts, Lexes out ts ∧ (scene.NoneEmpty → Json atom ts) ∧ (¬ scene.NoneEmpty → Bad ts) := by
  unfold Scene.print at hp
  obtain ⟨m, h1, hp⟩ := run_bind_eq_ok.mp hp
  obtain ⟨s, h2, hp⟩ := run_bind_eq_ok.mp hp
  obtain ⟨c, h3, hp⟩ := run_bind_eq_ok.mp hp
  obtain ⟨p, h4, hp⟩ := run_bind_eq_ok.mp hp
  cases hp
  have c0 : Chunk atom [] false True := .inl ⟨rfl, rfl, trivial⟩
  have c1 := c0.cons (size := fun c : PlaneColl T => c.centers.length) h4 (PlaneColl.print_lexes h hv (ha 3) (hav 3))
  rw [Bool.or_false] at c1
  have c2 := c1.cons (size := fun c : CylColl T => c.centers.length) h3 (CylColl.print_lexes h hv (ha 2) (hav 2))
  have c3 := c2.cons (size := fun c : SphereColl T => c.centers.length) h2 (SphereColl.print_lexes h hv (ha 1) (hav 1))
  rw [← Bool.or_assoc] at c3
  have c4 := c3.cons (size := fun c : MeshColl T => c.faces.length) h1 (MeshColl.print_lexes h hv (ha 0) (hav 0))
  have hgood : ((∀ q, scene.mesh = some q → 0 < q.coll.faces.length) ∧ (∀ q, scene.spheres = some q → 0 < q.coll.centers.length) ∧
      (∀ q, scene.cylinders = some q → 0 < q.coll.centers.length) ∧ (∀ q, scene.planes = some q → 0 < q.coll.centers.length) ∧ True)
      ↔ scene.NoneEmpty := by simp [Scene.NoneEmpty]
  rcases c4 with ⟨-, g2, g3⟩ | ⟨-, ts, g2, g3, g4⟩
  · refine ⟨_, scene_lexes ht (es := []) (by rw [g2]; exact .nil), fun _ => scene_wrap htv .emptyArray, fun hn => absurd (hgood.mp g3) hn⟩
  · exact ⟨_, scene_lexes ht g2, fun hn => scene_wrap htv (.array (g3 (hgood.mpr hn))),
      fun hn => ((g4 fun hg => hn (hgood.mp hg)).append_left _).append_right _⟩

end Blazert
