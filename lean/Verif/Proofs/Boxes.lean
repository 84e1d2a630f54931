/- Bounding boxes computed by the builder. -/
import Verif.Proofs.Built
import Verif.Spec.Boxes

set_option autoImplicit false
set_option linter.unusedSectionVars false

namespace Blazert

variable {K : Type} [Field K] [LinearOrder K] [FloorRing K] {F : Fmt K}

theorem mapM_mem_of_out {α β : Type} {f : α → Run β} {l : List α} {bs : List β} (h : l.mapM f = .ok bs) {b : β}
    (hb : b ∈ bs) : ∃ a ∈ l, f a = .ok b := by
  replace h := mapM_ok_forall₂ _ _ _ h
  induction h with
  | nil => simp at hb
  | cons h1 _ ih =>
    rcases List.mem_cons.1 hb with rfl | hb
    · exact ⟨_, by simp, h1⟩
    · obtain ⟨i, hi, h⟩ := ih hb
      exact ⟨i, by simp [hi], h⟩

theorem mapM_mem_of_in {α β : Type} {f : α → Run β} {l : List α} {bs : List β} (h : l.mapM f = .ok bs) {a : α}
    (ha : a ∈ l) : ∃ b ∈ bs, f a = .ok b := by
  replace h := mapM_ok_forall₂ _ _ _ h
  induction h with
  | nil => simp at ha
  | cons h1 _ ih =>
    rcases List.mem_cons.1 ha with rfl | ha
    · exact ⟨_, by simp, h1⟩
    · obtain ⟨i, hi, h⟩ := ih ha
      exact ⟨i, by simp [hi], h⟩

instance (x : XF F) : Decidable x.InRange :=
  match x with
  | .fin v s => decidable_of_iff (-F.maxVal ≤ v ∧ v ≤ F.maxVal)
      ⟨fun h => ⟨v, s, rfl, h⟩, fun ⟨_, _, e, h⟩ => by injection e with e1; subst e1; exact h⟩
  | .inf _ => isFalse (by rintro ⟨_, _, e, _⟩; cases e)
  | .nan => isFalse (by rintro ⟨_, _, e, _⟩; cases e)

instance (b : Vec3 (XF F) × Vec3 (XF F)) : Decidable (BoxInRange b) :=
  inferInstanceAs (Decidable (∀ k, (b.1.get k).InRange ∧ (b.2.get k).InRange))

theorem XF.le_refl_of_inRange {x : XF F} (h : x.InRange) : Scalar.le x x = true := by
  obtain ⟨v, s, rfl, _⟩ := h
  exact decide_eq_true_iff.2 le_rfl

theorem XF.le_trans_inRange {x y z : XF F} (hx : x.InRange) (hy : y.InRange) (hz : z.InRange)
    (h : Scalar.le x y = true) (h' : Scalar.le y z = true) : Scalar.le x z = true := by
  obtain ⟨a, _, rfl, _⟩ := hx
  obtain ⟨b, _, rfl, _⟩ := hy
  obtain ⟨c, _, rfl, _⟩ := hz
  have h1 : a ≤ b := decide_eq_true_iff.1 h
  have h2 : b ≤ c := decide_eq_true_iff.1 h'
  exact decide_eq_true_iff.2 (h1.trans h2)

theorem XF.min_spec {x y : XF F} (hx : x.InRange) (hy : y.InRange) :
    (Scalar.min x y = x ∨ Scalar.min x y = y) ∧ Scalar.le (Scalar.min x y) x = true ∧
      Scalar.le (Scalar.min x y) y = true := by
  obtain ⟨a, s, rfl, _⟩ := hx
  obtain ⟨b, t, rfl, _⟩ := hy
  unfold Scalar.min
  by_cases h : Scalar.lt (XF.fin b t : XF F) (.fin a s) = true
  · rw [if_pos h]
    exact ⟨.inr rfl, decide_eq_true_iff.2 (decide_eq_true_iff.1 h : b < a).le, decide_eq_true_iff.2 le_rfl⟩
  · rw [if_neg h]
    exact ⟨.inl rfl, decide_eq_true_iff.2 le_rfl, decide_eq_true_iff.2 (not_lt.1 fun hh => h (decide_eq_true_iff.2 hh))⟩

theorem XF.max_spec {x y : XF F} (hx : x.InRange) (hy : y.InRange) :
    (Scalar.max x y = x ∨ Scalar.max x y = y) ∧ Scalar.le x (Scalar.max x y) = true ∧
      Scalar.le y (Scalar.max x y) = true := by
  obtain ⟨a, s, rfl, _⟩ := hx
  obtain ⟨b, t, rfl, _⟩ := hy
  unfold Scalar.max
  by_cases h : Scalar.lt (XF.fin a s : XF F) (.fin b t) = true
  · rw [if_pos h]
    exact ⟨.inr rfl, decide_eq_true_iff.2 (decide_eq_true_iff.1 h : a < b).le, decide_eq_true_iff.2 le_rfl⟩
  · rw [if_neg h]
    exact ⟨.inl rfl, decide_eq_true_iff.2 le_rfl, decide_eq_true_iff.2 (not_lt.1 fun hh => h (decide_eq_true_iff.2 hh))⟩

/-- the union of two boxes -/
theorem unity_spec {a b : Vec3 (XF F) × Vec3 (XF F)} (ha : BoxInRange a) (hb : BoxInRange b) :
    BoxInRange (unity a.1 a.2 b.1 b.2) ∧ BoxContains (unity a.1 a.2 b.1 b.2) a ∧
      BoxContains (unity a.1 a.2 b.1 b.2) b ∧ BoxTight (unity a.1 a.2 b.1 b.2) [a, b] := by
  unfold unity
  refine ⟨fun k => ?_, fun k => ?_, fun k => ?_, fun k => ?_⟩
  · simp only [Vec3.get_ofFn]
    constructor
    · rcases (XF.min_spec (hb k).1 (ha k).1).1 with h | h <;> rw [h]
      · exact (hb k).1
      · exact (ha k).1
    · rcases (XF.max_spec (hb k).2 (ha k).2).1 with h | h <;> rw [h]
      · exact (hb k).2
      · exact (ha k).2
  · simp only [Vec3.get_ofFn]
    exact ⟨(XF.min_spec (hb k).1 (ha k).1).2.2, (XF.max_spec (hb k).2 (ha k).2).2.2⟩
  · simp only [Vec3.get_ofFn]
    exact ⟨(XF.min_spec (hb k).1 (ha k).1).2.1, (XF.max_spec (hb k).2 (ha k).2).2.1⟩
  · simp only [Vec3.get_ofFn]
    constructor
    · rcases (XF.min_spec (hb k).1 (ha k).1).1 with h | h
      · exact ⟨b, by simp, h.symm⟩
      · exact ⟨a, by simp, h.symm⟩
    · rcases (XF.max_spec (hb k).2 (ha k).2).1 with h | h
      · exact ⟨b, by simp, h.symm⟩
      · exact ⟨a, by simp, h.symm⟩

theorem BoxContains.refl {a : Vec3 (XF F) × Vec3 (XF F)} (h : BoxInRange a) : BoxContains a a :=
  fun k => ⟨XF.le_refl_of_inRange (h k).1, XF.le_refl_of_inRange (h k).2⟩

theorem BoxContains.trans {a b c : Vec3 (XF F) × Vec3 (XF F)} (ha : BoxInRange a) (hb : BoxInRange b)
    (hc : BoxInRange c) (h : BoxContains a b) (h' : BoxContains b c) : BoxContains a c :=
  fun k => ⟨XF.le_trans_inRange (ha k).1 (hb k).1 (hc k).1 (h k).1 (h' k).1,
    XF.le_trans_inRange (hc k).2 (hb k).2 (ha k).2 (h' k).2 (h k).2⟩

/-- folding boxes into an accumulator -/
theorem foldBoxes_spec (bs : List (Vec3 (XF F) × Vec3 (XF F))) (hbs : ∀ b ∈ bs, BoxInRange b)
    (a : Vec3 (XF F) × Vec3 (XF F)) (ha : BoxInRange a) (r : Vec3 (XF F) × Vec3 (XF F))
    (hr : r = bs.foldl (fun acc b => unity acc.1 acc.2 b.1 b.2) a) :
    BoxInRange r ∧ (∀ b ∈ a :: bs, BoxContains r b) ∧ BoxTight r (a :: bs) := by
  induction bs generalizing a with
  | nil =>
    subst hr
    refine ⟨ha, ?_, fun k => ⟨⟨_, List.mem_cons_self, rfl⟩, ⟨_, List.mem_cons_self, rfl⟩⟩⟩
    intro b hb
    simp at hb; subst hb
    exact .refl ha
  | cons b bs ih =>
    have hb := hbs b (by simp)
    obtain ⟨h1, h2, h3, h4⟩ := unity_spec ha hb
    obtain ⟨h5, h6, h7⟩ := ih (fun c hc => hbs c (by simp [hc])) _ h1 hr
    refine ⟨h5, ?_, ?_⟩
    · intro c hc
      rcases List.mem_cons.1 hc with rfl | hc
      · exact .trans h5 h1 ha (h6 _ (by simp)) h2
      · rcases List.mem_cons.1 hc with rfl | hc
        · exact .trans h5 h1 hb (h6 _ (by simp)) h3
        · exact h6 _ (by simp [hc])
    · intro k
      constructor
      · obtain ⟨c, hc, h⟩ := (h7 k).1
        rcases List.mem_cons.1 hc with rfl | hc
        · obtain ⟨c, hc, h'⟩ := (h4 k).1
          rw [List.mem_cons, List.mem_singleton] at hc
          rcases hc with rfl | rfl
          · exact ⟨c, by simp, h'.trans h⟩
          · exact ⟨c, by simp, h'.trans h⟩
        · exact ⟨c, by simp [hc], h⟩
      · obtain ⟨c, hc, h⟩ := (h7 k).2
        rcases List.mem_cons.1 hc with rfl | hc
        · obtain ⟨c, hc, h'⟩ := (h4 k).2
          rw [List.mem_cons, List.mem_singleton] at hc
          rcases hc with rfl | rfl
          · exact ⟨c, by simp, h'.trans h⟩
          · exact ⟨c, by simp, h'.trans h⟩
        · exact ⟨c, by simp [hc], h⟩

theorem unity_init {b : Vec3 (XF F) × Vec3 (XF F)} (hb : BoxInRange b) :
    unity (Vec3.const Scalar.maxVal) (Vec3.const (-Scalar.maxVal)) b.1 b.2 = b := by
  have hmin : ∀ k, Scalar.min (b.1.get k) ((Vec3.const (Scalar.maxVal : XF F)).get k) = b.1.get k := by
    intro k
    obtain ⟨v, s, h, _, h2⟩ := (hb k).1
    have : (Vec3.const (Scalar.maxVal : XF F)).get k = .fin F.maxVal false := by
      match k with
      | 0 => rfl
      | 1 => rfl
      | 2 => rfl
    rw [this, h]
    unfold Scalar.min
    rw [if_neg]
    intro hh
    exact absurd (decide_eq_true_iff.1 hh : F.maxVal < v) (not_lt.2 h2)
  have hmax : ∀ k, Scalar.max (b.2.get k) ((Vec3.const (-(Scalar.maxVal : XF F))).get k) = b.2.get k := by
    intro k
    obtain ⟨v, s, h, h2, _⟩ := (hb k).2
    have : (Vec3.const (-(Scalar.maxVal : XF F))).get k = .fin (-F.maxVal) true := by
      match k with
      | 0 => rfl
      | 1 => rfl
      | 2 => rfl
    rw [this, h]
    unfold Scalar.max
    rw [if_neg]
    intro hh
    exact absurd (decide_eq_true_iff.1 hh : v < -F.maxVal) (not_lt.2 h2)
  unfold unity
  ext <;> simp only [Vec3.ofFn, hmin, hmax] <;> rfl

theorem computeBoundingBox_eq {T P : Type} [Scalar T] (p : Collection T P) (idx : List Nat) (bs : List (Vec3 T × Vec3 T))
    (h : idx.mapM p.box = .ok bs) :
    computeBoundingBox p idx =
      .ok (bs.foldl (fun acc b => unity acc.1 acc.2 b.1 b.2) (Vec3.const Scalar.maxVal, Vec3.const (-Scalar.maxVal))) := by
  replace h := mapM_ok_forall₂ _ _ _ h
  unfold computeBoundingBox
  generalize ((Vec3.const Scalar.maxVal, Vec3.const (-Scalar.maxVal)) : Vec3 T × Vec3 T) = a
  induction h generalizing a with
  | nil => rfl
  | cons h1 _ ih =>
    rw [List.foldlM_cons, h1]
    simp only [run_bind_ok, run_pure, List.foldl_cons]
    exact ih _

theorem computeBoundingBox_boxes {T P : Type} [Scalar T] (p : Collection T P) (idx : List Nat)
    (r : Vec3 T × Vec3 T) (h : computeBoundingBox p idx = .ok r) : ∃ bs, idx.mapM p.box = .ok bs := by
  unfold computeBoundingBox at h
  generalize ((Vec3.const Scalar.maxVal, Vec3.const (-Scalar.maxVal)) : Vec3 T × Vec3 T) = a at h
  induction idx generalizing a with
  | nil => exact ⟨[], rfl⟩
  | cons i idx ih =>
    rw [List.foldlM_cons, run_bind_assoc, run_bind_eq_ok] at h
    obtain ⟨b, hb, h⟩ := h
    simp only [run_pure, run_bind_ok] at h
    obtain ⟨bs, hbs⟩ := ih _ h
    exact ⟨b :: bs, by rw [mapM_cons_run, hb, hbs]; rfl⟩

/-- the bounding box of a non-empty set of primitives is their union -/
theorem computeBoundingBox_spec {P : Type} (p : Collection (XF F) P) (idx : List Nat)
    (hbox : ∀ i ∈ idx, ∀ b, p.box i = .ok b → BoxInRange b) (r : Vec3 (XF F) × Vec3 (XF F))
    (h : computeBoundingBox p idx = .ok r) :
    ∃ bs, idx.mapM p.box = .ok bs ∧ (∀ b ∈ bs, BoxInRange b) ∧
      (idx = [] → r = (Vec3.const Scalar.maxVal, Vec3.const (-Scalar.maxVal))) ∧
      (idx ≠ [] → BoxInRange r ∧ (∀ b ∈ bs, BoxContains r b) ∧ BoxTight r bs) := by
  obtain ⟨bs, hbs⟩ := computeBoundingBox_boxes p idx r h
  rw [computeBoundingBox_eq p idx bs hbs, Except.ok.injEq] at h
  have hf := mapM_ok_forall₂ _ _ _ hbs
  have hr : ∀ b ∈ bs, BoxInRange b := by
    intro b hb
    obtain ⟨i, hi, hib⟩ := mapM_mem_of_out hbs hb
    exact hbox i hi b hib
  refine ⟨bs, hbs, hr, ?_, ?_⟩
  · rintro rfl
    cases hf
    exact h.symm
  · intro hne
    cases hf with
    | nil => exact absurd rfl hne
    | @cons i b is bs' h1 h2 =>
      have hb := hr b (by simp)
      simp only [List.foldl_cons] at h
      rw [unity_init hb] at h
      exact foldBoxes_spec bs' (fun c hc => hr c (by simp [hc])) b hb r h.symm

/-- where a subtree of a built tree comes from -/
theorem Built.subtree {T P : Type} [Scalar T] {p : Collection T P} {o : BuildOptions} {d : Nat} {idx : List Nat}
    {t : Tree T P} (h : Built p o d idx t) {s : Tree T P} (hs : s ∈ t.subtrees) :
    ∃ d' idx', Built p o d' idx' s ∧ idx'.Subperm idx := by
  induction h with
  | leaf d idx mn mx ps hb hp hl =>
    simp only [Tree.subtrees, List.mem_singleton] at hs
    subst hs
    exact ⟨d, idx, .leaf d idx mn mx ps hb hp hl, List.Subperm.refl _⟩
  | branch d idx il ir mn mx ax l r hb hn hd hax hp hne hl hr ihl ihr =>
    simp only [Tree.subtrees, List.mem_cons, List.mem_append] at hs
    rcases hs with rfl | hs | hs
    · exact ⟨d, idx, .branch d idx il ir mn mx ax l r hb hn hd hax hp hne hl hr, List.Subperm.refl _⟩
    · obtain ⟨d', idx', h1, h2⟩ := ihl hs
      exact ⟨d', idx', h1, h2.trans ((List.sublist_append_left il ir).subperm.trans hp.subperm)⟩
    · obtain ⟨d', idx', h1, h2⟩ := ihr hs
      exact ⟨d', idx', h1, h2.trans ((List.sublist_append_right il ir).subperm.trans hp.subperm)⟩

end Blazert
