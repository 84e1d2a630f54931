/- The binned surface area heuristic of the builder. -/
import Verif.Proofs.Total
import Verif.Proofs.Exact
import Verif.Spec.Sah
import Mathlib.Tactic.Linarith
import Mathlib.Data.List.Perm.Basic

set_option autoImplicit false
set_option linter.unusedSectionVars false

namespace Blazert
open Scalar

section
variable {K : Type} [Field K] [LinearOrder K] [IsStrictOrderedRing K] [FloorRing K] {F : Fmt K}

/-- The box `(mn, mx)` is the hull of the boxes of `l`, or the box that a bin is constructed with. -/
def Covers (box : Nat → Vec3 K × Vec3 K) (l : List Nat) (mn mx : Vec3 (XF F)) : Prop :=
  (l = [] ∧ mn = Vec3.const maxVal ∧ mx = Vec3.const (-maxVal)) ∨ ∃ lo hi, IsHull box l lo hi ∧ IsV mn lo ∧ IsV mx hi

structure Holds (box : Nat → Vec3 K × Vec3 K) (l : List Nat) (n : Nat) (mn mx : Vec3 (XF F)) : Prop where
  count : n = l.length
  covers : Covers box l mn mx

def InRange (F : Fmt K) (box : Nat → Vec3 K × Vec3 K) (l : List Nat) : Prop :=
  ∀ i ∈ l, ∀ a, (box i).1.get a ≤ F.maxVal ∧ -F.maxVal ≤ (box i).2.get a

theorem IsHull.perm {box : Nat → Vec3 K × Vec3 K} {l l' : List Nat} {lo hi : Vec3 K} (h : IsHull box l lo hi)
    (hp : l.Perm l') : IsHull box l' lo hi := by
  intro a
  obtain ⟨⟨h1, i, h2, h3⟩, h4, j, h5, h6⟩ := h a
  exact ⟨⟨fun i hi => h1 i (hp.mem_iff.2 hi), i, hp.mem_iff.1 h2, h3⟩, fun i hi => h4 i (hp.mem_iff.2 hi), j,
    hp.mem_iff.1 h5, h6⟩

theorem Holds.perm {box : Nat → Vec3 K × Vec3 K} {l l' : List Nat} {n : Nat} {mn mx : Vec3 (XF F)} (h : Holds box l n mn mx)
    (hp : l.Perm l') : Holds box l' n mn mx := by
  refine ⟨h.count.trans hp.length_eq, ?_⟩
  rcases h.covers with ⟨rfl, h1⟩ | ⟨lo, hi, h1, h2⟩
  · exact .inl ⟨List.nil_perm.1 hp, h1⟩
  · exact .inr ⟨lo, hi, h1.perm hp, h2⟩

theorem IsHull.append {box : Nat → Vec3 K × Vec3 K} {l l' : List Nat} {lo hi lo' hi' : Vec3 K} (h : IsHull box l lo hi)
    (h' : IsHull box l' lo' hi') :
    IsHull box (l ++ l') (Vec3.ofFn fun k => Min.min (lo'.get k) (lo.get k))
      (Vec3.ofFn fun k => Max.max (hi'.get k) (hi.get k)) := by
  intro a
  obtain ⟨⟨h1, i, h2, h3⟩, h4, j, h5, h6⟩ := h a
  obtain ⟨⟨g1, i', g2, g3⟩, g4, j', g5, g6⟩ := h' a
  simp only [Vec3.get_ofFn]
  refine ⟨⟨?_, ?_⟩, ?_, ?_⟩
  · intro k hk
    rcases List.mem_append.1 hk with hk | hk
    · exact (min_le_right _ _).trans (h1 k hk)
    · exact (min_le_left _ _).trans (g1 k hk)
  · rcases min_choice (lo'.get a) (lo.get a) with e | e <;> rw [e]
    · exact ⟨i', List.mem_append_right _ g2, g3⟩
    · exact ⟨i, List.mem_append_left _ h2, h3⟩
  · intro k hk
    rcases List.mem_append.1 hk with hk | hk
    · exact (h4 k hk).trans (le_max_right _ _)
    · exact (g4 k hk).trans (le_max_left _ _)
  · rcases max_choice (hi'.get a) (hi.get a) with e | e <;> rw [e]
    · exact ⟨j', List.mem_append_right _ g5, g6⟩
    · exact ⟨j, List.mem_append_left _ h5, h6⟩

theorem IsHull.le_max {box : Nat → Vec3 K × Vec3 K} {l : List Nat} {lo hi : Vec3 K} (h : IsHull box l lo hi)
    (hr : InRange F box l) (a : Fin 3) : lo.get a ≤ F.maxVal ∧ -F.maxVal ≤ hi.get a := by
  obtain ⟨⟨h1, i, h2, h3⟩, h4, j, h5, h6⟩ := h a
  exact ⟨h3 ▸ (hr i h2 a).1, h6 ▸ (hr j h5 a).2⟩

theorem const_get {T : Type} (x : T) (a : Fin 3) : (Vec3.const x).get a = x := by
  match a with
  | 0 => rfl
  | 1 => rfl
  | 2 => rfl

theorem ofFn_eq {T : Type} (f : Fin 3 → T) (v : Vec3 T) (h : ∀ a, f a = v.get a) : Vec3.ofFn f = v := by
  ext
  · exact h 0
  · exact h 1
  · exact h 2

theorem unity_covers {box : Nat → Vec3 K × Vec3 K} {l l' : List Nat} {mn mx mn' mx' : Vec3 (XF F)}
    (hr : InRange F box l) (hr' : InRange F box l') (h : Covers box l mn mx) (h' : Covers box l' mn' mx') :
    Covers box (l ++ l') (unity mn mx mn' mx').1 (unity mn mx mn' mx').2 := by
  have hM : (Scalar.maxVal : XF F).Is F.maxVal := XF.Is.maxVal
  have hM' : (-Scalar.maxVal : XF F).Is (-F.maxVal) := hM.neg
  rcases h with ⟨rfl, rfl, rfl⟩ | ⟨lo, hi, h1, h2, h3⟩ <;> rcases h' with ⟨rfl, rfl, rfl⟩ | ⟨lo', hi', g1, g2, g3⟩
  · refine .inl ⟨rfl, ?_, ?_⟩
    · unfold unity
      dsimp only
      refine ofFn_eq _ _ fun a => ?_
      rw [const_get]; unfold Scalar.min; split <;> rfl
    · unfold unity
      dsimp only
      refine ofFn_eq _ _ fun a => ?_
      rw [const_get]; unfold Scalar.max; split <;> rfl
  · refine .inr ⟨lo', hi', by simpa using g1, ?_, ?_⟩
    · have e : lo' = Vec3.ofFn fun a => lo'.get a := (ofFn_eq _ _ fun a => rfl).symm
      rw [e]
      refine IsV.ofFn fun a => ?_
      rw [const_get]
      have := (g2.get a).min hM
      rwa [min_eq_left (g1.le_max hr' a).1] at this
    · have e : hi' = Vec3.ofFn fun a => hi'.get a := (ofFn_eq _ _ fun a => rfl).symm
      rw [e]
      refine IsV.ofFn fun a => ?_
      rw [const_get]
      have := (g3.get a).max hM'
      rwa [max_eq_left (g1.le_max hr' a).2] at this
  · refine .inr ⟨lo, hi, by simpa using h1, ?_, ?_⟩
    · have e : lo = Vec3.ofFn fun a => lo.get a := (ofFn_eq _ _ fun a => rfl).symm
      rw [e]
      refine IsV.ofFn fun a => ?_
      rw [const_get]
      have := hM.min (h2.get a)
      rwa [min_eq_right (h1.le_max hr a).1] at this
    · have e : hi = Vec3.ofFn fun a => hi.get a := (ofFn_eq _ _ fun a => rfl).symm
      rw [e]
      refine IsV.ofFn fun a => ?_
      rw [const_get]
      have := hM'.max (h3.get a)
      rwa [max_eq_right (h1.le_max hr a).2] at this
  · exact .inr ⟨_, _, h1.append g1, IsV.ofFn fun a => (g2.get a).min (h2.get a), IsV.ofFn fun a => (g3.get a).max (h3.get a)⟩

theorem Covers.single {box : Nat → Vec3 K × Vec3 K} {i : Nat} {b : Vec3 (XF F) × Vec3 (XF F)} (h1 : IsV b.1 (box i).1)
    (h2 : IsV b.2 (box i).2) : Covers box [i] b.1 b.2 :=
  .inr ⟨_, _, fun a => by simp, h1, h2⟩

/-! ### Cost of one side -/

/-- the cost of one side, a NaN for an empty side -/
def Side (F : Fmt K) (box : Nat → Vec3 K × Vec3 K) (l : List Nat) (c : XF F) : Prop :=
  (l = [] ∧ c = .nan) ∨ ∃ lo hi, IsHull box l lo hi ∧ c = nat l.length * area F lo hi

theorem abs_sub_congr {x y x' y' : XF F} {a b : K} (h1 : x.Is a) (h2 : y.Is b) (h3 : x'.Is a) (h4 : y'.Is b) :
    Scalar.abs (x - y) = Scalar.abs (x' - y') := by
  obtain ⟨s1, rfl⟩ := h1
  obtain ⟨s2, rfl⟩ := h2
  obtain ⟨s3, rfl⟩ := h3
  obtain ⟨s4, rfl⟩ := h4
  change XF.abs (XF.mk F _ (a + -b)) = XF.abs (XF.mk F _ (a + -b))
  unfold XF.mk
  cases F.post (a + -b) <;> rfl

theorem boxSurface_eq {mn mx : Vec3 (XF F)} {lo hi : Vec3 K} (h1 : IsV mn lo) (h2 : IsV mx hi) :
    boxSurface mn mx = area F lo hi := by
  have e : ∀ a : Fin 3, (Vec3.abs (mx - mn)).get a = Scalar.abs ((.fin (hi.get a) false : XF F) - .fin (lo.get a) false) := by
    intro a
    have : (Vec3.abs (mx - mn)).get a = Scalar.abs (mx.get a - mn.get a) := by
      match a with
      | 0 => rfl
      | 1 => rfl
      | 2 => rfl
    rw [this]
    exact abs_sub_congr (h2.get a) (h1.get a) ⟨_, rfl⟩ ⟨_, rfl⟩
  unfold boxSurface area
  simp only
  rw [← e 0, ← e 1, ← e 2]
  rfl

theorem empty_cost (hF : F.Overflows) : nat 0 * boxSurface (Vec3.const (maxVal : XF F)) (Vec3.const (-maxVal)) = .nan := by
  have e1 : Scalar.abs ((-maxVal : XF F) - maxVal) = .inf false := by
    change XF.abs (XF.mk F _ (-F.maxVal + -F.maxVal)) = _
    unfold XF.mk
    rw [hF.extent]
    rfl
  obtain ⟨v, hv, hv0⟩ := hF.two
  have e2 : (nat 2 : XF F) = .fin v (decide ((2 : K) < 0)) := by
    change XF.mk F false (((2 : ℕ) : ℚ) : K) = _
    unfold XF.mk
    push_cast
    rw [hv]
    simp
  have e3 : (nat 0 : XF F) = .fin 0 false := by
    change XF.mk F false (((0 : ℕ) : ℚ) : K) = _
    unfold XF.mk
    push_cast
    rw [hF.zero]
    simp
  have e4 : boxSurface (Vec3.const (maxVal : XF F)) (Vec3.const (-maxVal)) =
      nat 2 * ((.inf false : XF F) * .inf false + .inf false * .inf false + .inf false * .inf false) := by
    unfold boxSurface Vec3.abs Vec3.map
    simp only [Vec3.sub_x, Vec3.sub_y, Vec3.sub_z]
    simp only [Vec3.const]
    rw [e1]
  rw [e4, e2, e3]
  change XF.mul (.fin 0 false) (XF.mul (.fin v _) (.inf false)) = _
  simp only [XF.mul, hv0, if_false, if_true]

theorem Sweep.side (hF : F.Overflows) {box : Nat → Vec3 K × Vec3 K} {l : List Nat} {s : Sweep (XF F)}
    (h : Holds box l s.count s.min s.max) : Side F box l s.cost := by
  unfold Sweep.cost
  rw [h.count]
  rcases h.covers with ⟨rfl, h1, h2⟩ | ⟨lo, hi, h1, h2, h3⟩
  · exact .inl ⟨rfl, by rw [h1, h2]; exact empty_cost hF⟩
  · exact .inr ⟨lo, hi, h1, by rw [boxSurface_eq h2 h3]⟩

theorem nan_add_left (x : XF F) : (XF.nan : XF F) + x = .nan := by cases x <;> rfl
theorem nan_add_right (x : XF F) : x + (XF.nan : XF F) = .nan := by cases x <;> rfl

theorem Side.total {box : Nat → Vec3 K × Vec3 K} {l r : List Nat} {c c' : XF F} (h : Side F box l c)
    (h' : Side F box r c') : c + c' = .nan ∧ (l = [] ∨ r = []) ∨ SahCost F box l r (c + c') := by
  rcases h with ⟨rfl, rfl⟩ | ⟨lo, hi, h1, h2⟩
  · exact .inl ⟨nan_add_left _, .inl rfl⟩
  · rcases h' with ⟨rfl, rfl⟩ | ⟨lo', hi', g1, g2⟩
    · exact .inl ⟨nan_add_right _, .inr rfl⟩
    · exact .inr ⟨_, _, _, _, h1, g1, by rw [h2, g2]⟩

theorem IsHull.unique {box : Nat → Vec3 K × Vec3 K} {l : List Nat} {lo hi lo' hi' : Vec3 K} (h : IsHull box l lo hi)
    (h' : IsHull box l lo' hi') : lo = lo' ∧ hi = hi' := by
  have key : ∀ a, lo.get a = lo'.get a ∧ hi.get a = hi'.get a := by
    intro a
    obtain ⟨⟨h1, i, h2, h3⟩, h4, j, h5, h6⟩ := h a
    obtain ⟨⟨g1, i', g2, g3⟩, g4, j', g5, g6⟩ := h' a
    exact ⟨le_antisymm (g3 ▸ h1 i' g2) (h3 ▸ g1 i h2), le_antisymm (h6 ▸ g4 j h5) (g6 ▸ h4 j' g5)⟩
  constructor
  · ext
    · exact (key 0).1
    · exact (key 1).1
    · exact (key 2).1
  · ext
    · exact (key 0).2
    · exact (key 1).2
    · exact (key 2).2

theorem IsHull.ne_nil {box : Nat → Vec3 K × Vec3 K} {l : List Nat} {lo hi : Vec3 K} (h : IsHull box l lo hi) : l ≠ [] := by
  rintro rfl
  obtain ⟨⟨-, i, hi, -⟩, -⟩ := h 0
  simp at hi

theorem SahCost.unique {box : Nat → Vec3 K × Vec3 K} {l r : List Nat} {c c' : XF F} (h : SahCost F box l r c)
    (h' : SahCost F box l r c') : c = c' := by
  obtain ⟨a, b, a', b', h1, h2, rfl⟩ := h
  obtain ⟨x, y, x', y', g1, g2, rfl⟩ := h'
  obtain ⟨rfl, rfl⟩ := h1.unique g1
  obtain ⟨rfl, rfl⟩ := h2.unique g2
  rfl

/-! ### Sorting into bins -/

/-- On axis `j`, the bins hold the elements of `ls j` as told by `slot`. -/
structure Sorted (F : Fmt K) (box : Nat → Vec3 K × Vec3 K) (slot : Fin 3 → Nat → Nat) (size : Nat) (ls : Fin 3 → List Nat)
    (bins : List (Bin (XF F))) : Prop where
  length : bins.length = 3 * size
  bin : ∀ (j : Fin 3) (b : Nat), b < size → ∃ x, bins[j.val * size + b]? = some x ∧
    Holds box ((ls j).filter fun i => slot j i = b) x.count x.min x.max

theorem index_inj {size : Nat} {j j' : Fin 3} {b b' : Nat} (hb : b < size) (hb' : b' < size)
    (h : j.val * size + b = j'.val * size + b') : j = j' ∧ b = b' := by
  have h1 : (j.val * size + b) / size = j.val := by
    rw [Nat.mul_comm, Nat.mul_add_div (by omega), Nat.div_eq_of_lt hb, Nat.add_zero]
  have h2 : (j'.val * size + b') / size = j'.val := by
    rw [Nat.mul_comm, Nat.mul_add_div (by omega), Nat.div_eq_of_lt hb', Nat.add_zero]
  rw [h, h2] at h1
  have := Fin.ext h1
  subst this
  exact ⟨rfl, by omega⟩

theorem index_lt {size : Nat} {j : Fin 3} {b : Nat} (hb : b < size) : j.val * size + b < 3 * size := by
  have := j.isLt
  have h2 : j.val * size ≤ 2 * size := Nat.mul_le_mul_right _ (by omega)
  omega

variable {box : Nat → Vec3 K × Vec3 K} {slot : Fin 3 → Nat → Nat} {size : Nat}

theorem Sorted.init : Sorted F box slot size (fun _ => []) (List.replicate (3 * size) Bin.init) := by
  refine ⟨by simp, fun j b hb => ⟨Bin.init, ?_, ?_⟩⟩
  · rw [List.getElem?_replicate, if_pos (index_lt hb)]
  · exact ⟨rfl, .inl ⟨rfl, rfl, rfl⟩⟩

theorem Sorted.enter {ls : Fin 3 → List Nat} {bins bins' : List (Bin (XF F))} (h : Sorted F box slot size ls bins)
    (hr : ∀ j, InRange F box (ls j)) (j : Fin 3) (i : Nat) (hi : InRange F box [i]) (hs : slot j i < size)
    {b : Vec3 (XF F) × Vec3 (XF F)} (h1 : IsV b.1 (box i).1) (h2 : IsV b.2 (box i).2)
    (hm : modifyBin bins (j.val * size + slot j i) (fun bin =>
      { bin with count := bin.count + 1, min := (unity bin.min bin.max b.1 b.2).1,
                 max := (unity bin.min bin.max b.1 b.2).2 }) = .ok bins') :
    Sorted F box slot size (fun j' => if j' = j then ls j ++ [i] else ls j') bins' := by
  unfold modifyBin at hm
  obtain ⟨x, hx, hm⟩ := run_bind_eq_ok.1 hm
  rw [lookup_eq_ok] at hx
  simp only [run_pure, Except.ok.injEq] at hm
  subst hm
  refine ⟨by simpa using h.length, fun j' b' hb' => ?_⟩
  obtain ⟨y, hy, hh⟩ := h.bin j' b' hb'
  by_cases e : j' = j ∧ b' = slot j i
  · obtain ⟨rfl, rfl⟩ := e
    rw [hx] at hy
    cases hy
    refine ⟨_, by rw [List.getElem?_set_self (List.getElem?_eq_some_iff.1 hx).1], ?_⟩
    simp only [if_true]
    rw [List.filter_append]
    have e2 : List.filter (fun k => decide (slot j' k = slot j' i)) [i] = [i] := by simp
    rw [e2]
    refine ⟨by rw [hh.count, List.length_append]; rfl, unity_covers ?_ hi hh.covers (Covers.single h1 h2)⟩
    exact fun k hk => hr j' k (List.mem_of_mem_filter hk)
  · refine ⟨y, ?_, ?_⟩
    · rw [List.getElem?_set_ne, hy]
      intro e'
      obtain ⟨rfl, rfl⟩ := index_inj hs hb' e'
      exact e ⟨rfl, rfl⟩
    · by_cases ej : j' = j
      · subst ej
        simp only [if_true]
        rw [List.filter_append]
        have e2 : List.filter (fun k => decide (slot j' k = b')) [i] = [] := by
          have : slot j' i ≠ b' := fun q => e ⟨rfl, q.symm⟩
          simp [this]
        rw [e2, List.append_nil]
        exact hh
      · simp only [ej, if_false]
        exact hh

variable {P : Type} {p : Collection (XF F) P} {mn mx : Vec3 (XF F)}

theorem binPrimitive_sorted {l : List Nat} {bins bins' : List (Bin (XF F))} (h : Sorted F box slot size (fun _ => l) bins)
    (hs : 1 ≤ size) (hr : InRange F box l) (i : Nat) (hi : InRange F box [i]) (b : Vec3 (XF F) × Vec3 (XF F))
    (hb : p.box i = .ok b) (h1 : IsV b.1 (box i).1) (h2 : IsV b.2 (box i).2) (c : Vec3 (XF F)) (hc : p.center i = .ok c)
    (hslot : ∀ j, ∀ q, roundU ((binCoord size mn (invSize mn mx) c).get j) = some q →
      slot j i = Nat.min (lastBin size) q)
    (hm : binPrimitive p size mn (invSize mn mx) bins i = .ok bins') :
    Sorted F box slot size (fun _ => l ++ [i]) bins' ∧
      ∀ j, ∃ q, roundU ((binCoord size mn (invSize mn mx) c).get j) = some q := by
  have step : ∀ (ls : Fin 3 → List Nat) (bins bins' : List (Bin (XF F))) (j : Fin 3), Sorted F box slot size ls bins →
      (∀ j, InRange F box (ls j)) →
      (match roundU ((Vec3.muls (Vec3.cmul (c - mn) (invSize mn mx)) (nat (lastBin size))).get j) with
        | none => throw UB.badCast
        | some r => modifyBin bins (j.val * size + Nat.min (lastBin size) r) fun bin =>
          { bin with count := bin.count + 1, min := (unity bin.min bin.max b.1 b.2).1,
                     max := (unity bin.min bin.max b.1 b.2).2 }) = (.ok bins' : Run _) →
      Sorted F box slot size (fun j' => if j' = j then ls j ++ [i] else ls j') bins' ∧
        ∃ q, roundU ((binCoord size mn (invSize mn mx) c).get j) = some q := by
    intro ls bins bins' j hS hR hm
    cases hq : roundU ((Vec3.muls (Vec3.cmul (c - mn) (invSize mn mx)) (nat (lastBin size))).get j) with
    | none => rw [hq] at hm; simp at hm
    | some q =>
      rw [hq] at hm
      simp only at hm
      rw [← hslot j q hq] at hm
      have hlt : slot j i < size := by
        rw [hslot j q hq, lastBin_pos hs]
        exact lt_of_le_of_lt (Nat.min_le_left _ _) (by omega)
      exact ⟨hS.enter hR j i hi hlt h1 h2 hm, q, hq⟩
  unfold binPrimitive at hm
  rw [hb, run_bind_ok, hc, run_bind_ok] at hm
  obtain ⟨b1, k1, hm⟩ := run_bind_eq_ok.1 hm
  obtain ⟨b2, k2, k3⟩ := run_bind_eq_ok.1 hm
  have hr' : InRange F box (l ++ [i]) := by
    intro k hk
    rcases List.mem_append.1 hk with hk | hk
    · exact hr k hk
    · exact hi k hk
  obtain ⟨s1, q1⟩ := step _ _ _ 0 h (fun _ => hr) k1
  obtain ⟨s2, q2⟩ := step _ _ _ 1 s1 (fun j => by by_cases e : j = 0 <;> simp only [e, if_true, if_false] <;> assumption) k2
  obtain ⟨s3, q3⟩ := step _ _ _ 2 s2 (fun j => by
    match j with
    | 0 => exact hr'
    | 1 => exact hr'
    | 2 => exact hr) k3
  constructor
  · convert s3 using 2 with j
    match j with
    | 0 => rfl
    | 1 => rfl
    | 2 => rfl
  · intro j
    match j with
    | 0 => exact q1
    | 1 => exact q2
    | 2 => exact q3

/-- what is assumed of the primitives to be binned -/
structure Binned (F : Fmt K) (p : Collection (XF F) P) (box : Nat → Vec3 K × Vec3 K) (ctr : Nat → Vec3 (XF F)) (i : Nat) : Prop where
  hasBox : ∃ b, p.box i = .ok b ∧ IsV b.1 (box i).1 ∧ IsV b.2 (box i).2
  range : InRange F box [i]
  center : p.center i = .ok (ctr i)

theorem sortIntoBins_sorted {ctr : Nat → Vec3 (XF F)} (hs : 1 ≤ size) (idx : List Nat)
    (hb : ∀ i ∈ idx, Binned F p box ctr i)
    (hslot : ∀ i ∈ idx, ∀ j, ∀ q, roundU ((binCoord size mn (invSize mn mx) (ctr i)).get j) = some q →
      slot j i = Nat.min (lastBin size) q) {bins : List (Bin (XF F))} (h : sortIntoBins p idx mn mx size = .ok bins) :
    Sorted F box slot size (fun _ => idx) bins ∧
      ∀ i ∈ idx, ∀ j, ∃ q, roundU ((binCoord size mn (invSize mn mx) (ctr i)).get j) = some q := by
  have key : ∀ (idx l : List Nat) (b0 : List (Bin (XF F))), (∀ i ∈ idx, Binned F p box ctr i) →
      (∀ i ∈ idx, ∀ j, ∀ q, roundU ((binCoord size mn (invSize mn mx) (ctr i)).get j) = some q →
        slot j i = Nat.min (lastBin size) q) → InRange F box l → Sorted F box slot size (fun _ => l) b0 →
      (idx.foldlM (init := b0) fun bins i => binPrimitive p size mn (invSize mn mx) bins i) = .ok bins →
      Sorted F box slot size (fun _ => l ++ idx) bins ∧
        ∀ i ∈ idx, ∀ j, ∃ q, roundU ((binCoord size mn (invSize mn mx) (ctr i)).get j) = some q := by
    intro idx
    induction idx with
    | nil =>
      intro l b0 _ _ _ h0 h
      simp only [List.foldlM_nil, run_pure, Except.ok.injEq] at h
      subst h
      exact ⟨by simpa using h0, by simp⟩
    | cons i idx ih =>
      intro l b0 hb hslot hr h0 h
      rw [List.foldlM_cons] at h
      obtain ⟨b1, h1, h⟩ := run_bind_eq_ok.1 h
      have hbi := hb i (by simp)
      obtain ⟨b, g1, g2, g3⟩ := hbi.hasBox
      obtain ⟨s1, s2⟩ := binPrimitive_sorted h0 hs hr i hbi.range b g1 g2 g3 _ hbi.center (hslot i (by simp)) h1
      have hr' : InRange F box (l ++ [i]) := by
        intro k hk
        rcases List.mem_append.1 hk with hk | hk
        · exact hr k hk
        · exact hbi.range k hk
      obtain ⟨t1, t2⟩ := ih (l ++ [i]) b1 (fun k hk => hb k (by simp [hk])) (fun k hk => hslot k (by simp [hk])) hr' s1 h
      refine ⟨by simpa using t1, fun k hk => ?_⟩
      rcases List.mem_cons.1 hk with rfl | hk
      · exact s2
      · exact t2 k hk
  have := key idx [] _ hb hslot (by intro i hi; simp at hi) Sorted.init h
  simpa using this

/-! ### Sweeps -/

theorem Sweep.add_holds {l l' : List Nat} {s : Sweep (XF F)} {b : Bin (XF F)} (hr : InRange F box l) (hr' : InRange F box l')
    (h : Holds box l s.count s.min s.max) (h' : Holds box l' b.count b.min b.max) :
    Holds box (l ++ l') (s.add b).count (s.add b).min (s.add b).max :=
  ⟨by rw [List.length_append, ← h.count, ← h'.count]; rfl, unity_covers hr hr' h.covers h'.covers⟩

theorem Sweep.init_holds : Holds (F := F) box [] (Sweep.init : Sweep (XF F)).count Sweep.init.min Sweep.init.max :=
  ⟨rfl, .inl ⟨rfl, rfl, rfl⟩⟩

theorem filter_split (l : List Nat) (f : Nat → Nat) (k : Nat) :
    (l.filter fun i => f i < k + 1).Perm ((l.filter fun i => f i < k) ++ l.filter fun i => f i = k) := by
  induction l with
  | nil => simp
  | cons i l ih =>
    rcases lt_trichotomy (f i) k with h | h | h
    · rw [List.filter_cons_of_pos (by simp; omega), List.filter_cons_of_pos (by simpa using h),
        List.filter_cons_of_neg (by simp; omega)]
      exact ih.cons i
    · rw [List.filter_cons_of_pos (by simp; omega), List.filter_cons_of_neg (by simp; omega),
        List.filter_cons_of_pos (by simpa using h)]
      exact (ih.cons i).trans List.perm_middle.symm
    · rw [List.filter_cons_of_neg (by simp; omega), List.filter_cons_of_neg (by simp; omega),
        List.filter_cons_of_neg (by simp; omega)]
      exact ih

theorem filter_split' (l : List Nat) (f : Nat → Nat) (k : Nat) :
    (l.filter fun i => k ≤ f i).Perm ((l.filter fun i => k + 1 ≤ f i) ++ l.filter fun i => f i = k) := by
  induction l with
  | nil => simp
  | cons i l ih =>
    rcases lt_trichotomy (f i) k with h | h | h
    · rw [List.filter_cons_of_neg (by simp; omega), List.filter_cons_of_neg (by simp; omega),
        List.filter_cons_of_neg (by simp; omega)]
      exact ih
    · rw [List.filter_cons_of_pos (by simp; omega), List.filter_cons_of_neg (by simp; omega),
        List.filter_cons_of_pos (by simpa using h)]
      exact (ih.cons i).trans List.perm_middle.symm
    · rw [List.filter_cons_of_pos (by simp; omega), List.filter_cons_of_pos (by simp; omega),
        List.filter_cons_of_neg (by simp; omega)]
      exact ih.cons i

theorem InRange.filter {l : List Nat} (h : InRange F box l) (q : Nat → Bool) : InRange F box (l.filter q) :=
  fun i hi => h i (List.mem_of_mem_filter hi)

/-- the costs stored by the left sweep on axis `j` -/
def RightCosts (F : Fmt K) (box : Nat → Vec3 K × Vec3 K) (slot : Fin 3 → Nat → Nat) (size : Nat) (idx : List Nat) (j : Fin 3)
    (m : Nat) (bins : List (Bin (XF F))) : Prop :=
  ∀ k, m < k → k < size → ∃ x, bins[j.val * size + k]? = some x ∧ Side F box (idx.filter fun i => k ≤ slot j i) x.cost

theorem Sorted.setCost {ls : Fin 3 → List Nat} {bins : List (Bin (XF F))} (h : Sorted F box slot size ls bins) {k : Nat}
    {x : Bin (XF F)} (hx : bins[k]? = some x) (c : XF F) : Sorted F box slot size ls (bins.set k { x with cost := c }) := by
  refine ⟨by simpa using h.length, fun j b hb => ?_⟩
  obtain ⟨y, hy, hh⟩ := h.bin j b hb
  by_cases e : k = j.val * size + b
  · subst e
    rw [hx] at hy
    cases hy
    exact ⟨{ x with cost := c }, by rw [List.getElem?_set_self (List.getElem?_eq_some_iff.1 hx).1], hh⟩
  · exact ⟨y, by rw [List.getElem?_set_ne e, hy], hh⟩

theorem sweepLeft_sorted (hF : F.Overflows) {idx : List Nat} (hr : InRange F box idx) (j : Fin 3) (n : Nat) (hn : n < size)
    (s : Sweep (XF F)) (bins bins' : List (Bin (XF F))) (h : Sorted F box slot size (fun _ => idx) bins)
    (hs : Holds box (idx.filter fun i => n + 1 ≤ slot j i) s.count s.min s.max)
    (hc : RightCosts F box slot size idx j n bins) (hm : sweepLeft j.val size n s bins = .ok bins') :
    Sorted F box slot size (fun _ => idx) bins' ∧ RightCosts F box slot size idx j 0 bins' := by
  induction n generalizing s bins with
  | zero =>
    unfold sweepLeft at hm
    cases hm
    exact ⟨h, hc⟩
  | succ n ih =>
    unfold sweepLeft at hm
    obtain ⟨x, hx, hm⟩ := run_bind_eq_ok.1 hm
    rw [lookup_eq_ok] at hx
    obtain ⟨y, hy, hh⟩ := h.bin j (n + 1) hn
    rw [hx] at hy
    cases hy
    have hadd := (Sweep.add_holds (hr.filter _) (hr.filter _) hs hh).perm (filter_split' idx (slot j) (n + 1)).symm
    refine ih (by omega) (s.add x) _ (h.setCost hx _) hadd ?_ hm
    intro k hk1 hk2
    by_cases e : k = n + 1
    · subst e
      exact ⟨_, by rw [List.getElem?_set_self (List.getElem?_eq_some_iff.1 hx).1], Sweep.side hF hadd⟩
    · obtain ⟨z, hz, hz'⟩ := hc k (by omega) hk2
      exact ⟨z, by rw [List.getElem?_set_ne (by omega), hz], hz'⟩

/-- The cheapest among the cuts before bins `1..m` of axis `j`, found with cost `c` at `k`; or none has cost below `max`. -/
def BestCut (F : Fmt K) (box : Nat → Vec3 K × Vec3 K) (slot : Fin 3 → Nat → Nat) (idx : List Nat) (j : Fin 3)
    (m : Nat) (c : XF F) (k : Nat) : Prop :=
  (∀ k' c', 1 ≤ k' → k' ≤ m → SahCost F box (idx.filter fun i => slot j i < k') (idx.filter fun i => k' ≤ slot j i) c' →
    lt c' c = false) ∧
  (c = maxVal ∧ k = 1 ∨ (1 ≤ k ∧ k ≤ m ∧ lt c maxVal = true ∧
    SahCost F box (idx.filter fun i => slot j i < k) (idx.filter fun i => k ≤ slot j i) c))

theorem XF.lt_trans' {x y z : XF F} (h1 : Scalar.lt x y = true) (h2 : Scalar.lt y z = true) : Scalar.lt x z = true := by
  change XF.lt x y = true at h1
  change XF.lt y z = true at h2
  change XF.lt x z = true
  cases x <;> cases y <;> cases z <;> simp_all [XF.lt]
  exact h1.trans h2

theorem sweepRight_best (hF : F.Overflows) {idx : List Nat} (hr : InRange F box idx) (j : Fin 3) (n i : Nat)
    (hn : i + n + 1 = size) (s : Sweep (XF F)) (bins : List (Bin (XF F))) (h : Sorted F box slot size (fun _ => idx) bins)
    (hc : RightCosts F box slot size idx j 0 bins)
    (hs : Holds box (idx.filter fun k => slot j k < i) s.count s.min s.max) (c : XF F) (k : Nat)
    (hb : BestCut F box slot idx j i c k) (c' : XF F) (k' : Nat)
    (hm : sweepRight j.val size bins n i s c k = .ok (c', k')) : BestCut F box slot idx j (size - 1) c' k' := by
  induction n generalizing i s c k with
  | zero =>
    unfold sweepRight at hm
    cases hm
    have : i = size - 1 := by omega
    exact this ▸ hb
  | succ n ih =>
    unfold sweepRight at hm
    obtain ⟨x, hx, hm⟩ := run_bind_eq_ok.1 hm
    obtain ⟨y, hy, hm⟩ := run_bind_eq_ok.1 hm
    rw [lookup_eq_ok] at hx hy
    obtain ⟨x', hx', hh⟩ := h.bin j i (by omega)
    rw [hx] at hx'
    cases hx'
    obtain ⟨y', hy', hside⟩ := hc (i + 1) (by omega) (by omega)
    rw [← Nat.add_assoc, hy] at hy'
    cases hy'
    have hadd := (Sweep.add_holds (hr.filter _) (hr.filter _) hs hh).perm (filter_split idx (slot j) i).symm
    have htot := (Sweep.side hF hadd).total hside
    simp only at hm
    have hold : ∀ c'', (lt c'' c = true ∨ c'' = c) → ∀ k' c', 1 ≤ k' → k' ≤ i →
        SahCost F box (idx.filter fun i => slot j i < k') (idx.filter fun i => k' ≤ slot j i) c' → lt c' c'' = false := by
      intro c'' hlt k' c' h1 h2 h3
      have h4 := hb.1 k' c' h1 h2 h3
      rcases hlt with hlt | rfl
      · rw [Bool.eq_false_iff]
        intro h5
        rw [XF.lt_trans' h5 hlt] at h4
        cases h4
      · exact h4
    split at hm
    · rename_i hlt
      refine ih (i + 1) (by omega) _ hadd _ _ ⟨?_, ?_⟩ hm
      · intro k' c' h1 h2 h3
        by_cases e : k' = i + 1
        · subst e
          rcases htot with ⟨hnan, -⟩ | htot
          · rw [hnan] at hlt
            cases c <;> cases hlt
          · rw [h3.unique htot, Bool.eq_false_iff]
            intro h5
            have := XF.lt_trans' h5 hlt
            exact absurd h5 (by
              change ¬ XF.lt _ _ = true
              generalize (s.add x).cost + y.cost = z
              cases z <;> simp [XF.lt])
        · exact hold _ (.inl hlt) k' c' h1 (by omega) h3
      · rcases htot with ⟨hnan, -⟩ | htot
        · rw [hnan] at hlt
          cases c <;> cases hlt
        · refine .inr ⟨by omega, le_rfl, ?_, htot⟩
          rcases hb.2 with ⟨rfl, -⟩ | ⟨-, -, h3, -⟩
          · exact hlt
          · exact XF.lt_trans' hlt h3
    · rename_i hlt
      refine ih (i + 1) (by omega) _ hadd _ _ ⟨?_, ?_⟩ hm
      · intro k' c' h1 h2 h3
        by_cases e : k' = i + 1
        · subst e
          rcases htot with ⟨-, hnil⟩ | htot
          · obtain ⟨a, b, a', b', q1, q2, -⟩ := h3
            rcases hnil with q | q
            · exact absurd q q1.ne_nil
            · exact absurd q q2.ne_nil
          · rw [h3.unique htot]
            simpa using hlt
        · exact hold _ (.inr rfl) k' c' h1 (by omega) h3
      · rcases hb.2 with e | ⟨h1, h2, h3⟩
        · exact .inl e
        · exact .inr ⟨h1, by omega, h3⟩

theorem bestSplitAxis_best (hF : F.Overflows) {idx : List Nat} (hr : InRange F box idx) (hs : 1 ≤ size)
    (hslot : ∀ j, ∀ i ∈ idx, slot j i < size) (j : Fin 3)
    {bins bins' : List (Bin (XF F))} (h : Sorted F box slot size (fun _ => idx) bins) {c cut : XF F}
    (hm : bestSplitAxis mn mx size j bins = .ok (bins', c, cut)) :
    Sorted F box slot size (fun _ => idx) bins' ∧ ∃ k, BestCut F box slot idx j (size - 1) c k ∧
      cut = nat k * ((mx.get j - mn.get j) / nat size) + mn.get j := by
  unfold bestSplitAxis at hm
  obtain ⟨b1, h1, hm⟩ := run_bind_eq_ok.1 hm
  obtain ⟨⟨c', k⟩, h2, hm⟩ := run_bind_eq_ok.1 hm
  simp only [run_pure, Except.ok.injEq, Prod.mk.injEq] at hm
  obtain ⟨rfl, rfl, rfl⟩ := hm
  rw [lastBin_pos hs] at h1 h2
  have e0 : (idx.filter fun i => size - 1 + 1 ≤ slot j i) = [] := by
    rw [List.filter_eq_nil_iff]
    intro i hi
    have := hslot j i hi
    simp only [decide_eq_true_eq]
    omega
  obtain ⟨s1, s2⟩ := sweepLeft_sorted hF hr j (size - 1) (by omega) Sweep.init bins _ h (by rw [e0]; exact Sweep.init_holds)
    (fun k hk1 hk2 => by omega) h1
  have e1 : (idx.filter fun i => slot j i < 0) = [] := by simp
  have := sweepRight_best hF hr j (size - 1) 0 (by omega) Sweep.init _ s1 s2 (by rw [e1]; exact Sweep.init_holds) maxVal 1
    ⟨fun k' c' h1 h2 => by omega, .inl ⟨rfl, rfl⟩⟩ c' k h2
  exact ⟨s1, k, this, rfl⟩

theorem XF.lt_of_lt_of_not_lt {d c e : XF F} (h1 : Scalar.lt d c = true) (h2 : Scalar.lt e c = false) (he : e ≠ .nan) :
    Scalar.lt d e = true := by
  change XF.lt d c = true at h1
  change XF.lt e c = false at h2
  change XF.lt d e = true
  cases d <;> cases c <;> cases e <;> simp_all [XF.lt]
  exact lt_of_lt_of_le h1 h2

theorem XF.not_lt_self (x : XF F) : Scalar.lt x x = false := by
  change XF.lt x x = false
  cases x <;> simp [XF.lt]

theorem XF.not_lt_of_lt {x y : XF F} (h : Scalar.lt x y = true) : Scalar.lt y x = false := by
  rw [Bool.eq_false_iff]
  intro h'
  have := XF.lt_trans' h h'
  rw [XF.not_lt_self] at this
  cases this

theorem BestCut.ne_nan {idx : List Nat} {j : Fin 3} {m k : Nat} {c : XF F} (h : BestCut F box slot idx j m c k) : c ≠ .nan := by
  rcases h.2 with ⟨rfl, -⟩ | ⟨-, -, h, -⟩
  · exact nofun
  · rintro rfl
    cases h

/-- the best cut of all axes -/
theorem findBestSplit_best (hF : F.Overflows) {idx : List Nat} (hs : 1 ≤ size) {ctr : Nat → Vec3 (XF F)}
    (hb : ∀ i ∈ idx, Binned F p box ctr i) {axis : Fin 3} {cut : Vec3 (XF F)}
    (h : findBestSplit p idx mn mx size = .ok (axis, cut)) :
    ∃ slot : Fin 3 → Nat → Nat,
      (∀ j, ∀ i ∈ idx, IsSlot F (mn.get j) (mx.get j) ((ctr i).get j) size (slot j i)) ∧
      ∃ c k, (∀ j, ∀ k' c', 1 ≤ k' → k' < size →
          SahCost F box (idx.filter fun i => slot j i < k') (idx.filter fun i => k' ≤ slot j i) c' → lt c' c = false) ∧
        (c = maxVal ∧ k = 1 ∨ (1 ≤ k ∧ k < size ∧ lt c maxVal = true ∧
          SahCost F box (idx.filter fun i => slot axis i < k) (idx.filter fun i => k ≤ slot axis i) c)) ∧
        cut.get axis = nat k * ((mx.get axis - mn.get axis) / nat size) + mn.get axis := by
  let slot : Fin 3 → Nat → Nat := fun j i =>
    Nat.min (lastBin size) ((roundU ((binCoord size mn (invSize mn mx) (ctr i)).get j)).getD 0)
  have hslot : ∀ i ∈ idx, ∀ j, ∀ q, roundU ((binCoord size mn (invSize mn mx) (ctr i)).get j) = some q →
      slot j i = Nat.min (lastBin size) q := by
    intro i _ j q hq
    simp only [slot, hq, Option.getD_some]
  have hlt : ∀ j, ∀ i ∈ idx, slot j i < size := by
    intro j i _
    simp only [slot]
    rw [lastBin_pos hs]
    exact lt_of_le_of_lt (Nat.min_le_left _ _) (by omega)
  have hr : InRange F box idx := fun i hi => (hb i hi).range i (by simp)
  unfold findBestSplit at h
  obtain ⟨b0, h0, h⟩ := run_bind_eq_ok.1 h
  obtain ⟨⟨b1, c0, p0⟩, h1, h⟩ := run_bind_eq_ok.1 h
  obtain ⟨⟨b2, c1, p1⟩, h2, h⟩ := run_bind_eq_ok.1 h
  obtain ⟨⟨b3, c2, p2⟩, h3, h⟩ := run_bind_eq_ok.1 h
  simp only [run_pure, Except.ok.injEq, Prod.mk.injEq] at h
  obtain ⟨hax, rfl⟩ := h
  obtain ⟨s0, q0⟩ := sortIntoBins_sorted hs idx hb hslot h0
  obtain ⟨s1, k0, B0, e0⟩ := bestSplitAxis_best hF hr hs hlt 0 s0 h1
  obtain ⟨s2, k1, B1, e1⟩ := bestSplitAxis_best hF hr hs hlt 1 s1 h2
  obtain ⟨s3, k2, B2, e2⟩ := bestSplitAxis_best hF hr hs hlt 2 s2 h3
  refine ⟨slot, ?_, ?_⟩
  · intro j i hi
    obtain ⟨q, hq⟩ := q0 i hi j
    refine ⟨q, ?_, ?_⟩
    · rw [← hq]
      unfold binCoord
      rw [lastBin_pos hs]
      match j with
      | 0 => rfl
      | 1 => rfl
      | 2 => rfl
    · rw [hslot i hi j q hq, lastBin_pos hs]
  have fin : ∀ (c : XF F) (k : Nat) (axis : Fin 3), BestCut F box slot idx axis (size - 1) c k → lt c0 c = false →
      lt c1 c = false → lt c2 c = false → (⟨p0, p1, p2⟩ : Vec3 (XF F)).get axis =
        nat k * ((mx.get axis - mn.get axis) / nat size) + mn.get axis →
      ∃ c k, (∀ j, ∀ k' c', 1 ≤ k' → k' < size →
          SahCost F box (idx.filter fun i => slot j i < k') (idx.filter fun i => k' ≤ slot j i) c' → lt c' c = false) ∧
        (c = maxVal ∧ k = 1 ∨ (1 ≤ k ∧ k < size ∧ lt c maxVal = true ∧
          SahCost F box (idx.filter fun i => slot axis i < k) (idx.filter fun i => k ≤ slot axis i) c)) ∧
        (⟨p0, p1, p2⟩ : Vec3 (XF F)).get axis = nat k * ((mx.get axis - mn.get axis) / nat size) + mn.get axis := by
    intro c k axis hB g0 g1 g2 he
    refine ⟨c, k, ?_, ?_, he⟩
    · intro j k' c' hk1 hk2 hc
      rw [Bool.eq_false_iff]
      intro hlt
      have key : ∀ (cj : XF F) (kj : Nat), BestCut F box slot idx j (size - 1) cj kj → lt cj c = false → False := by
        intro cj kj hBj hj
        have := hBj.1 k' c' hk1 (by omega) hc
        rw [XF.lt_of_lt_of_not_lt hlt hj hBj.ne_nan] at this
        cases this
      match j with
      | 0 => exact key _ _ B0 g0
      | 1 => exact key _ _ B1 g1
      | 2 => exact key _ _ B2 g2
    · rcases hB.2 with e | ⟨a1, a2, a3⟩
      · exact .inl e
      · exact .inr ⟨a1, by omega, a3⟩
  by_cases l1 : lt c1 c0 = true
  · rw [if_pos l1, if_pos l1] at hax
    by_cases l2 : lt c2 c1 = true
    · rw [if_pos l2] at hax
      subst hax
      exact fin c2 k2 2 B2 (XF.not_lt_of_lt (XF.lt_trans' l2 l1)) (XF.not_lt_of_lt l2) (XF.not_lt_self _) e2
    · rw [if_neg l2] at hax
      subst hax
      exact fin c1 k1 1 B1 (XF.not_lt_of_lt l1) (XF.not_lt_self _) (by simpa using l2) e1
  · rw [if_neg l1, if_neg l1] at hax
    by_cases l2 : lt c2 c0 = true
    · rw [if_pos l2] at hax
      subst hax
      refine fin c2 k2 2 B2 (XF.not_lt_of_lt l2) ?_ (XF.not_lt_self _) e2
      rw [Bool.eq_false_iff]
      intro h5
      exact l1 (XF.lt_trans' h5 l2)
    · rw [if_neg l2] at hax
      subst hax
      exact fin c0 k0 0 B0 (XF.not_lt_self _) (by simpa using l1) (by simpa using l2) e0

end
end Blazert
