/- C76, C77: what is printed. -/
import Verif.Proofs.PrintJson
import Verif.Proofs.Binary

set_option autoImplicit false

namespace Blazert

variable {T P : Type}

/-! ### C76: is it JSON? -/

/-- **C76**, false for every object: the address of the object is printed as a bare word.  Where addresses begin with `0x`, the
text of a sphere, plane, triangle, cylinder or Embree sphere is never JSON. -/
theorem C76_address_not_json {pr : Printer T} (h : pr.Words) {hex : Text} (hc : Clean ('0' :: 'x' :: hex)) :
    (∀ s : Sphere T, ¬ IsJson JsonAtom (s.print pr ('0' :: 'x' :: hex))) ∧
    (∀ p : Plane T, ¬ IsJson JsonAtom (p.print pr ('0' :: 'x' :: hex))) ∧
    (∀ t : Triangle T, ¬ IsJson JsonAtom (t.print pr ('0' :: 'x' :: hex))) ∧
    (∀ c : Cylinder T, ¬ IsJson JsonAtom (c.print pr ('0' :: 'x' :: hex))) ∧
    (∀ s : EmbSphere T, ¬ IsJson JsonAtom (s.print pr ('0' :: 'x' :: hex))) := by
  refine ⟨fun s => ?_, fun s => ?_, fun s => ?_, fun s => ?_, fun s => ?_⟩ <;> rw [(s.lexes h hc).isJson] <;>
    exact fun hj => hex_not_atom hex (hj.words (by simp [Sphere.toks, Plane.toks, Triangle.toks, Cylinder.toks, EmbSphere.toks,
      tokMember]))

/-- **C76**, false for rays, hits and statistics, whatever is printed for numbers and addresses, and whichever words are
accepted as values: the keys have no quotes. -/
theorem C76_keys_not_json (atom : Text → Prop) (pr : Printer T) (this time : Text) :
    (∀ ray : Ray T, ¬ IsJson atom (ray.print pr this)) ∧
    (∀ rayhit : RayHit T, ¬ IsJson atom (rayhit.print pr this)) ∧
    (∀ stats : Statistics, ¬ IsJson atom (stats.print pr this time)) :=
  ⟨fun _ => not_json_unquoted (t := lit "{\n  Ray: ") (w := lit "Ray") rfl,
    fun _ => not_json_unquoted (t := lit "{\n  Ray: ") (w := lit "Ray") rfl,
    fun _ => not_json_unquoted (t := lit "{\n  statistics: ") (w := lit "statistics") rfl⟩

/-- **C76**, false for nodes, trees, Embree planes and cylinders, whichever words are accepted as values: the colon after `min` is
inside the quotes, the bracket of an empty tree is not closed, and there are no commas between some members. -/
theorem C76_structure_not_json (atom : Text → Prop) {pr : Printer T} (h : pr.Words) {this : Text} (ht : Clean this)
    {addr : Nat → Text} (ha : ∀ i, Clean (addr i)) :
    (∀ n : Node T P, ¬ IsJson atom (n.print pr this)) ∧
    (∀ nodes : List (Node T P), ¬ IsJson atom (printBVH pr addr nodes)) ∧
    (∀ p : EmbPlane T, ¬ IsJson atom (p.print pr this)) ∧
    (∀ c : EmbCyl T, ¬ IsJson atom (c.print pr this)) := by
  refine ⟨fun n => ?_, fun nodes => ?_, fun p => ?_, fun c => ?_⟩
  · rw [(n.lexes h ht).isJson]
    exact (n.bad pr this).not_json
  · obtain ⟨ts, h1, h2⟩ := printBVH_lexes h ha nodes
    rw [h1.isJson]
    exact h2.not_json
  · rw [(p.lexes h ht).isJson]
    exact (p.bad pr this).not_json
  · rw [(c.lexes h ht).isJson]
    exact (c.bad pr this).not_json

/-- **C76**, partial: if numbers and addresses are printed as words that count as values, the texts of the primitives are
well-formed. -/
theorem C76_primitives_partial {atom : Text → Prop} {pr : Printer T} (h : pr.Words) (hv : pr.Values atom) {this : Text}
    (ht : Clean this) (htv : atom this) :
    (∀ s : Sphere T, IsJson atom (s.print pr this)) ∧ (∀ p : Plane T, IsJson atom (p.print pr this)) ∧
    (∀ t : Triangle T, IsJson atom (t.print pr this)) ∧ (∀ c : Cylinder T, IsJson atom (c.print pr this)) ∧
    (∀ s : EmbSphere T, IsJson atom (s.print pr this)) :=
  ⟨fun s => (s.lexes h ht).isJson.mpr (s.json hv htv), fun s => (s.lexes h ht).isJson.mpr (s.json hv htv),
    fun s => (s.lexes h ht).isJson.mpr (s.json hv htv), fun s => (s.lexes h ht).isJson.mpr (s.json hv htv),
    fun s => (s.lexes h ht).isJson.mpr (s.json hv htv)⟩

theorem isJson_iff_of {atom : Text → Prop} {out : Text} {n : Nat}
    (h : ∃ ts, Lexes out ts ∧ (0 < n → Json atom ts) ∧ (n = 0 → Bad ts)) : IsJson atom out ↔ 0 < n := by
  obtain ⟨ts, h1, h2, h3⟩ := h
  rw [h1.isJson]
  refine ⟨fun hj => ?_, h2⟩
  by_contra hn
  exact (h3 (by omega)).not_json hj

/-- **C76**, partial: under the same assumptions the text of a collection is well-formed if and only if it is not empty (the
bracket is closed after the last element only). -/
theorem C76_collections_partial [Scalar T] {atom : Text → Prop} {pr : Printer T} (h : pr.Words) (hv : pr.Values atom)
    {addr : Nat → Text} (ha : ∀ i, Clean (addr i)) (hav : ∀ i, atom (addr i)) (out : Text) :
    (∀ c : SphereColl T, c.print pr addr = .ok out → (IsJson atom out ↔ 0 < c.centers.length)) ∧
    (∀ c : PlaneColl T, c.print pr addr = .ok out → (IsJson atom out ↔ 0 < c.centers.length)) ∧
    (∀ c : CylColl T, c.print pr addr = .ok out → (IsJson atom out ↔ 0 < c.centers.length)) ∧
    (∀ c : MeshColl T, c.print pr addr = .ok out → (IsJson atom out ↔ 0 < c.faces.length)) :=
  ⟨fun c ho => isJson_iff_of (c.print_lexes h hv ha hav out ho), fun c ho => isJson_iff_of (c.print_lexes h hv ha hav out ho),
    fun c ho => isJson_iff_of (c.print_lexes h hv ha hav out ho), fun c ho => isJson_iff_of (c.print_lexes h hv ha hav out ho)⟩

/-- **C76**, partial: likewise the text of a scene is well-formed if and only if none of its collections is empty. -/
theorem C76_scene_partial [Scalar T] {atom : Text → Prop} {pr : Printer T} (h : pr.Words) (hv : pr.Values atom) {this : Text}
    (ht : Clean this) (htv : atom this) {addr : Nat → Nat → Text} (ha : ∀ k i, Clean (addr k i)) (hav : ∀ k i, atom (addr k i))
    (scene : Scene T) (out : Text) (ho : scene.print pr this addr = .ok out) : IsJson atom out ↔ scene.NoneEmpty := by
  obtain ⟨ts, h1, h2, h3⟩ := scene.print_lexes h hv ht htv ha hav ho
  rw [h1.isJson]
  exact ⟨fun hj => by_contra fun hn => (h3 hn).not_json hj, h2⟩

/-! ### C77: does the text determine the object? -/

/-- **C77**, false for triangles: the second coordinate of `a` is not printed (that of `c` is, in its place), so that triangles
which differ there have the same text, whatever is printed for numbers. -/
theorem C77_triangle_ambiguous (pr : Printer T) (this : Text) (t : Triangle T) (y : T) :
    ({ t with a := ⟨t.a.x, y, t.a.z⟩ } : Triangle T).print pr this = t.print pr this := rfl

theorem vec_inj {A : Type} {f : A → Text} (hf : Function.Injective f) {v w : Vec3 A} (hx : f v.x = f w.x) (hy : f v.y = f w.y)
    (hz : f v.z = f w.z) : v = w := by
  cases v
  cases w
  simp_all [hf.eq_iff]

/-- **C77**, partial: if different numbers are printed differently, spheres, planes and cylinders of the same text are equal. -/
theorem C77_determined_partial {pr : Printer T} (h : pr.Words) (hnum : Function.Injective pr.num) (hnat : Function.Injective pr.nat)
    {this : Text} (ht : Clean this) :
    (∀ s s' : Sphere T, s.print pr this = s'.print pr this → s = s') ∧
    (∀ p p' : Plane T, p.print pr this = p'.print pr this → p = p') ∧
    (∀ c c' : Cylinder T, c.print pr this = c'.print pr this → c = c') := by
  have key : ∀ {t t' : Text} {ts ts' : List Tok}, Lexes t ts → Lexes t' ts' → t = t' → ts = ts' := by
    rintro t _ ts ts' h1 h2 rfl
    have := h1.tokens.symm.trans h2.tokens
    exact Option.some.inj this
  refine ⟨fun s s' he => ?_, fun s s' he => ?_, fun s s' he => ?_⟩ <;> have he := key (s.lexes h ht) (s'.lexes h ht) he
  · cases s
    cases s'
    simp only [Sphere.toks, tokMember, tokVec, List.cons_append, List.nil_append, List.cons.injEq, Tok.word.injEq, hnum.eq_iff,
      hnat.eq_iff, true_and, and_true] at he
    simp only [Sphere.mk.injEq]
    exact ⟨vec_inj hnum (by simp [he]) (by simp [he]) (by simp [he]), by simp [he]⟩
  · cases s
    cases s'
    simp only [Plane.toks, tokMember, tokVec, tokMat, List.cons_append, List.nil_append, List.cons.injEq,
      Tok.word.injEq, hnum.eq_iff, hnat.eq_iff, true_and, and_true] at he
    simp only [Plane.mk.injEq]
    refine ⟨vec_inj hnum (by simp [he]) (by simp [he]) (by simp [he]), by simp [he], by simp [he], ?_, by simp [he]⟩
    exact Mat3.ext (vec_inj hnum (by simp [he]) (by simp [he]) (by simp [he]))
      (vec_inj hnum (by simp [he]) (by simp [he]) (by simp [he])) (vec_inj hnum (by simp [he]) (by simp [he]) (by simp [he]))
  · cases s
    cases s'
    simp only [Cylinder.toks, tokMember, tokVec, tokMat, List.cons_append, List.nil_append, List.cons.injEq,
      Tok.word.injEq, hnum.eq_iff, hnat.eq_iff, true_and, and_true] at he
    simp only [Cylinder.mk.injEq]
    refine ⟨vec_inj hnum (by simp [he]) (by simp [he]) (by simp [he]), by simp [he], by simp [he], by simp [he], ?_, by simp [he]⟩
    exact Mat3.ext (vec_inj hnum (by simp [he]) (by simp [he]) (by simp [he]))
      (vec_inj hnum (by simp [he]) (by simp [he]) (by simp [he])) (vec_inj hnum (by simp [he]) (by simp [he]) (by simp [he]))

/-! ### Examples -/

/-- decimal digits, for natural numbers -/
def decimal : Printer Nat := ⟨Nat.toDigits 10, Nat.toDigits 10⟩

theorem digits_clean (n : Nat) : Clean (Nat.toDigits 10 n) := by
  refine ⟨Nat.toDigits_ne_nil, fun c hc hm => ?_⟩
  have := Nat.isDigit_of_mem_toDigits (by omega) (le_refl 10) hc
  simp only [List.mem_cons, List.not_mem_nil, or_false] at hm
  rcases hm with rfl | rfl | rfl | rfl | rfl | rfl | rfl | rfl | rfl <;> simp [Char.isDigit] at this

/-- The hypotheses of the theorems above are met by the decimal digits of natural numbers. -/
example : decimal.Words ∧ decimal.Values (fun w => ∀ c ∈ w, c.isDigit ∨ c = 'x') ∧ Function.Injective decimal.num ∧
    Function.Injective decimal.nat ∧ Clean (lit "0x7ffe") := by
  have hinj : Function.Injective (Nat.toDigits 10) := fun a b h => by
    rw [← Nat.ofDigitChars_toDigits (b := 10) (n := a) (by omega) (by omega), h,
      Nat.ofDigitChars_toDigits (by omega) (by omega)]
  exact ⟨⟨digits_clean, digits_clean⟩, ⟨fun n c hc => .inl (Nat.isDigit_of_mem_toDigits (by omega) (le_refl 10) hc),
    fun n c hc => .inl (Nat.isDigit_of_mem_toDigits (by omega) (le_refl 10) hc)⟩, hinj, hinj, ⟨by decide, by decide⟩⟩

/-- the text of a sphere -/
example : Sphere.print decimal (lit "0x7ffe") ⟨⟨1, 2, 3⟩, 40, 7⟩ =
    lit "{\n  \"Sphere\": 0x7ffe,\n  \"center\": [1,2,3],\n  \"radius\": 40,\n  \"prim_id\": 7\n}\n" := by decide +kernel

/-- an array that is not closed -/
example : SphereColl.print decimal (fun _ => lit "0x7ffe") ⟨[], [], []⟩ = .ok (lit "{\n\"SphereCollection\": [\n{\"size\": 0},\n}\n") := by
  decide +kernel

/-- numbers in the sense of JSON -/
example : JsonAtom (lit "-10.5e+7") ∧ JsonAtom (lit "0") ∧ ¬ JsonAtom (lit "0x7ffe") := by
  refine ⟨.inr (.inr (.inr ⟨['-'], ['1', '0'], lit ".5", lit "e+7", by decide, by decide, .inr ⟨⟨by decide, by decide⟩, by decide⟩,
    .inr ⟨['5'], ⟨by decide, by decide⟩, by decide⟩, .inr ⟨'e', ['+'], ['7'], by decide, by decide, ⟨by decide, by decide⟩,
      by decide⟩⟩)), .inr (.inr (.inr ⟨[], ['0'], [], [], by decide, by decide, .inl rfl, .inl rfl, .inl rfl⟩)),
    hex_not_atom (lit "7ffe")⟩

def emptySpheres : Scene Double := ⟨BuildOptions.default, false, 1, none, some ⟨⟨[], [], []⟩, [], 0⟩, none, none⟩

/-- The hypotheses of `C76_scene_partial` are met: scenes can be printed; this one, with an empty set of spheres, is not JSON. -/
example : ∃ out, Scene.print (T := Double) ⟨fun _ => ['1'], fun _ => ['1']⟩ ['1'] (fun _ _ => ['1'])
    emptySpheres = .ok out ∧ ¬ IsJson (fun _ => True) out := by
  have hc : Clean ['1'] := ⟨by decide, by decide⟩
  refine ⟨_, rfl, ?_⟩
  rw [C76_scene_partial (T := Double) (pr := ⟨fun _ => ['1'], fun _ => ['1']⟩) ⟨fun _ => hc, fun _ => hc⟩
    ⟨fun _ => trivial, fun _ => trivial⟩ hc trivial (fun _ _ => hc) (fun _ _ => trivial) emptySpheres _ rfl]
  rintro ⟨-, h, -⟩
  exact absurd (h _ rfl) (by decide)

end Blazert
