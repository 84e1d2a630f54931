/- When the builder returns normally. -/
import Verif.Proofs.Built

set_option autoImplicit false
set_option linter.unusedSectionVars false

namespace Blazert
open Scalar

variable {T P : Type} [Scalar T]

theorem modifyBin_total (bins : List (Bin T)) (i : Nat) (f : Bin T → Bin T) (h : i < bins.length) :
    ∃ bins', modifyBin bins i f = .ok bins' ∧ bins'.length = bins.length := by
  unfold modifyBin
  rw [lookup_ok_of_lt h]
  exact ⟨_, rfl, by simp⟩

theorem lastBin_pos {size : Nat} (h : 1 ≤ size) : lastBin size = size - 1 := by
  unfold lastBin; rw [if_neg (by omega)]

/-- the bin coordinate of a primitive -/
def binCoord (size : Nat) (mn inv c : Vec3 T) : Vec3 T :=
  Vec3.muls (Vec3.cmul (c - mn) inv) (nat (lastBin size))

theorem bin_index_lt {size j r : Nat} (h : 1 ≤ size) (hj : j < 3) : j * size + Nat.min (lastBin size) r < 3 * size := by
  rw [lastBin_pos h]
  have h1 : Nat.min (size - 1) r ≤ size - 1 := Nat.min_le_left _ _
  have h2 : j * size ≤ 2 * size := Nat.mul_le_mul_right _ (by omega)
  omega

theorem binPrimitive_total (p : Collection T P) (size : Nat) (mn inv : Vec3 T) (bins : List (Bin T)) (i : Nat)
    (hs : 1 ≤ size) (hl : bins.length = 3 * size) (b : Vec3 T × Vec3 T) (hb : p.box i = .ok b) (c : Vec3 T)
    (hc : p.center i = .ok c) (hr : ∀ j, roundU ((binCoord size mn inv c).get j) ≠ none) :
    ∃ bins', binPrimitive p size mn inv bins i = .ok bins' ∧ bins'.length = bins.length := by
  have step : ∀ (bins : List (Bin T)) (j : Fin 3), bins.length = 3 * size →
      ∃ bins', (match roundU ((Vec3.muls (Vec3.cmul (c - mn) inv) (nat (lastBin size))).get j) with
        | none => throw UB.badCast
        | some r => modifyBin bins (j.val * size + Nat.min (lastBin size) r) fun bin =>
          { bin with count := bin.count + 1, min := (unity bin.min bin.max b.1 b.2).1,
                     max := (unity bin.min bin.max b.1 b.2).2 }) = (.ok bins' : Run _) ∧
        bins'.length = bins.length := by
    intro bins j hl
    have := hr j
    unfold binCoord at this
    cases h : roundU ((Vec3.muls (Vec3.cmul (c - mn) inv) (nat (lastBin size))).get j) with
    | none => exact absurd h this
    | some r => exact modifyBin_total bins _ _ (by rw [hl]; exact bin_index_lt hs j.isLt)
  unfold binPrimitive
  rw [hb, run_bind_ok, hc, run_bind_ok]
  obtain ⟨b1, h1, l1⟩ := step bins 0 hl
  obtain ⟨b2, h2, l2⟩ := step b1 1 (l1.trans hl)
  obtain ⟨b3, h3, l3⟩ := step b2 2 (l2.trans (l1.trans hl))
  refine ⟨b3, ?_, l3.trans (l2.trans l1)⟩
  rw [run_bind_eq_ok]
  refine ⟨b1, h1, ?_⟩
  rw [run_bind_eq_ok]
  exact ⟨b2, h2, h3⟩

theorem sortIntoBins_total (p : Collection T P) (idx : List Nat) (mn mx : Vec3 T) (size : Nat) (hs : 1 ≤ size)
    (hok : ∀ i ∈ idx, ∃ b c, p.box i = .ok b ∧ p.center i = .ok c ∧
      ∀ j, roundU ((binCoord size mn (invSize mn mx) c).get j) ≠ none) :
    ∃ bins, sortIntoBins p idx mn mx size = .ok bins ∧ bins.length = 3 * size := by
  unfold sortIntoBins
  have hl : (List.replicate (3 * size) (Bin.init : Bin T)).length = 3 * size := by simp
  generalize List.replicate (3 * size) (Bin.init : Bin T) = bins at hl
  induction idx generalizing bins with
  | nil => exact ⟨bins, rfl, hl⟩
  | cons i idx ih =>
    obtain ⟨b, c, hb, hc, hr⟩ := hok i (by simp)
    obtain ⟨bins', h1, h2⟩ := binPrimitive_total p size mn (invSize mn mx) bins i hs hl b hb c hc hr
    rw [List.foldlM_cons, h1, run_bind_ok]
    exact ih (fun i hi => hok i (by simp [hi])) bins' (h2.trans hl)

theorem sweepLeft_total (j size n : Nat) (s : Sweep T) (bins : List (Bin T)) (hj : j < 3) (hn : n ≤ size - 1)
    (hs : 1 ≤ size) (hl : bins.length = 3 * size) :
    ∃ bins', sweepLeft j size n s bins = .ok bins' ∧ bins'.length = 3 * size := by
  induction n generalizing s bins with
  | zero => exact ⟨bins, rfl, hl⟩
  | succ n ih =>
    have h2 : j * size ≤ 2 * size := Nat.mul_le_mul_right _ (by omega)
    unfold sweepLeft
    rw [lookup_ok_of_lt (by omega), run_bind_ok]
    exact ih _ _ (by omega) (by simpa using hl)

theorem sweepRight_total (j size n i : Nat) (s : Sweep T) (bins : List (Bin T)) (c : T) (m : Nat) (hj : j < 3)
    (hn : i + n ≤ size - 1) (hs : 1 ≤ size) (hl : bins.length = 3 * size) :
    ∃ q, sweepRight j size bins n i s c m = .ok q := by
  induction n generalizing i s c m with
  | zero => exact ⟨_, rfl⟩
  | succ n ih =>
    have h2 : j * size ≤ 2 * size := Nat.mul_le_mul_right _ (by omega)
    unfold sweepRight
    rw [lookup_ok_of_lt (by omega), run_bind_ok, lookup_ok_of_lt (by omega), run_bind_ok]
    simp only
    split
    · exact ih _ _ _ _ (by omega)
    · exact ih _ _ _ _ (by omega)

theorem bestSplitAxis_total (mn mx : Vec3 T) (size : Nat) (j : Fin 3) (bins : List (Bin T)) (hs : 1 ≤ size)
    (hl : bins.length = 3 * size) :
    ∃ q, bestSplitAxis mn mx size j bins = .ok q ∧ q.1.length = 3 * size := by
  unfold bestSplitAxis
  rw [lastBin_pos hs]
  obtain ⟨b1, h1, l1⟩ := sweepLeft_total j.val size (size - 1) Sweep.init bins j.isLt le_rfl hs hl
  rw [h1, run_bind_ok]
  obtain ⟨q, h2⟩ := sweepRight_total j.val size (size - 1) 0 Sweep.init b1 maxVal 1 j.isLt (by omega) hs l1
  rw [h2, run_bind_ok]
  exact ⟨_, rfl, l1⟩

theorem findBestSplit_total (p : Collection T P) (idx : List Nat) (mn mx : Vec3 T) (size : Nat) (hs : 1 ≤ size)
    (hok : ∀ i ∈ idx, ∃ b c, p.box i = .ok b ∧ p.center i = .ok c ∧
      ∀ j, roundU ((binCoord size mn (invSize mn mx) c).get j) ≠ none) :
    ∃ q, findBestSplit p idx mn mx size = .ok q := by
  unfold findBestSplit
  obtain ⟨b0, h0, l0⟩ := sortIntoBins_total p idx mn mx size hs hok
  rw [h0, run_bind_ok]
  obtain ⟨⟨b1, c1, q1⟩, h1, l1⟩ := bestSplitAxis_total mn mx size 0 b0 hs l0
  rw [h1, run_bind_ok]
  obtain ⟨⟨b2, c2, q2⟩, h2, l2⟩ := bestSplitAxis_total mn mx size 1 b1 hs l1
  simp only
  rw [h2, run_bind_ok]
  obtain ⟨⟨b3, c3, q3⟩, h3, l3⟩ := bestSplitAxis_total mn mx size 2 b2 hs l2
  simp only
  rw [h3, run_bind_ok]
  exact ⟨_, rfl⟩

theorem splitLoop_total (part : StdPartition) (p : Collection T P) (cut : Vec3 T) (tries : Nat) (axis : Fin 3)
    (idx : List Nat) (bad : Nat) (hc : ∀ i ∈ idx, ∃ c, p.center i = .ok c) :
    ∃ q, splitLoop part p cut tries axis idx bad = .ok q := by
  induction tries generalizing axis idx bad with
  | zero =>
    obtain ⟨keys, hk⟩ : ∃ keys, splitKeys p cut axis idx = .ok keys :=
      mapM_ok_of_forall _ _ fun i hi => by
        obtain ⟨c, h⟩ := hc i hi
        exact ⟨_, by rw [h, run_bind_ok]; rfl⟩
    unfold splitLoop
    rw [hk, run_bind_ok]
    simp only
    split
    · exact ⟨_, rfl⟩
    · exact ⟨_, rfl⟩
  | succ tries ih =>
    obtain ⟨keys, hk⟩ : ∃ keys, splitKeys p cut axis idx = .ok keys :=
      mapM_ok_of_forall _ _ fun i hi => by
        obtain ⟨c, h⟩ := hc i hi
        exact ⟨_, by rw [h, run_bind_ok]; rfl⟩
    unfold splitLoop
    rw [hk, run_bind_ok]
    simp only
    split
    · refine ih _ _ _ fun i hi => hc i ?_
      have hperm := ((part.perm keys).map Prod.fst).trans (by rw [splitKeys_map_fst _ _ _ _ _ hk])
      rw [List.map_append] at hperm
      exact hperm.mem_iff.1 hi
    · exact ⟨_, rfl⟩

/-- every float to unsigned conversion of the binning is defined -/
def CastsDefined (p : Collection T P) (size : Nat) : Prop :=
  ∀ idx : List Nat, idx ≠ [] → (∀ i ∈ idx, i < p.size) → ∀ mn mx, computeBoundingBox p idx = .ok (mn, mx) →
    ∀ i ∈ idx, ∀ c, p.center i = .ok c → ∀ j, roundU ((binCoord size mn (invSize mn mx) c).get j) ≠ none

theorem computeBoundingBox_total (p : Collection T P) (idx : List Nat) (h : ∀ i ∈ idx, ∃ b, p.box i = .ok b) :
    ∃ r, computeBoundingBox p idx = .ok r := by
  unfold computeBoundingBox
  generalize ((Vec3.const Scalar.maxVal, Vec3.const (-Scalar.maxVal)) : Vec3 T × Vec3 T) = a
  induction idx generalizing a with
  | nil => exact ⟨a, rfl⟩
  | cons i idx ih =>
    obtain ⟨b, hb⟩ := h i (by simp)
    rw [List.foldlM_cons, hb, run_bind_ok]
    simp only [run_pure, run_bind_ok]
    exact ih (fun i hi => h i (by simp [hi])) _

theorem buildTree_total (part : StdPartition) (p : Collection T P) (o : BuildOptions)
    (hb : ∀ i, i < p.size → ∃ b, p.box i = .ok b) (hc : ∀ i, i < p.size → ∃ c, p.center i = .ok c)
    (hp : ∀ i, i < p.size → ∃ q, p.prim i = .ok q)
    (hs : p.size ≤ o.minLeaf ∨ o.maxDepth = 0 ∨ (1 ≤ o.binSize ∧ CastsDefined p o.binSize))
    (fuel depth : Nat) (hd : o.maxDepth ≤ fuel + depth) (idx : List Nat) (hidx : ∀ i ∈ idx, i < p.size)
    (hlen : idx.length ≤ p.size) :
    ∃ q, buildTree part p o fuel depth idx = .ok q := by
  induction fuel generalizing depth idx with
  | zero =>
    obtain ⟨r, hr⟩ := computeBoundingBox_total p idx fun i hi => hb i (hidx i hi)
    obtain ⟨ps, hps⟩ := mapM_ok_of_forall p.prim idx fun i hi => hp i (hidx i hi)
    unfold buildTree
    rw [hr, run_bind_ok]
    simp only
    rw [if_pos (by right; omega), hps]
    exact ⟨_, rfl⟩
  | succ fuel ih =>
    obtain ⟨r, hr⟩ := computeBoundingBox_total p idx fun i hi => hb i (hidx i hi)
    unfold buildTree
    rw [hr, run_bind_ok]
    simp only
    split
    · obtain ⟨ps, hps⟩ := mapM_ok_of_forall p.prim idx fun i hi => hp i (hidx i hi)
      rw [hps]
      exact ⟨_, rfl⟩
    · rename_i hcond
      rw [not_or] at hcond
      rcases hs with hs | hs | ⟨hs1, hs2⟩
      · omega
      · omega
      have hne : idx ≠ [] := by
        rintro rfl
        exact hcond.1 (Nat.zero_le _)
      obtain ⟨⟨axis, cut⟩, hq⟩ := findBestSplit_total p idx r.1 r.2 o.binSize hs1 fun i hi => by
        obtain ⟨b, h1⟩ := hb i (hidx i hi)
        obtain ⟨c, h2⟩ := hc i (hidx i hi)
        exact ⟨b, c, h1, h2, hs2 idx hne hidx r.1 r.2 hr i hi c h2⟩
      rw [hq, run_bind_ok]
      obtain ⟨q, hq2⟩ := splitLoop_total part p cut 2 axis idx 0 fun i hi => hc i (hidx i hi)
      simp only
      rw [hq2, run_bind_ok]
      obtain ⟨hperm, -⟩ := splitLoop_spec _ _ _ _ _ _ _ _ hq2
      have hl := hperm.length_eq
      rw [List.length_append] at hl
      obtain ⟨tl, htl⟩ := ih (depth + 1) (by omega) q.2.1
        (fun i hi => hidx i (hperm.mem_iff.1 (by simp [hi]))) (by omega)
      obtain ⟨tr, htr⟩ := ih (depth + 1) (by omega) q.2.2.1
        (fun i hi => hidx i (hperm.mem_iff.1 (by simp [hi]))) (by omega)
      rw [htl, run_bind_ok, htr, run_bind_ok]
      exact ⟨_, rfl⟩

/-- the builder returns normally if the collection can be read and no cast overflows -/
theorem build_total (part : StdPartition) (p : Collection T P) (o : BuildOptions) (nodes : List (Node T P))
    (hb : ∀ i, i < p.size → ∃ b, p.box i = .ok b) (hc : ∀ i, i < p.size → ∃ c, p.center i = .ok c)
    (hp : ∀ i, i < p.size → ∃ q, p.prim i = .ok q)
    (hs : p.size ≤ o.minLeaf ∨ o.maxDepth = 0 ∨ (1 ≤ o.binSize ∧ CastsDefined p o.binSize)) :
    ∃ out, build part p o nodes = .ok out := by
  obtain ⟨q, hq⟩ := buildTree_total part p o hb hc hp hs o.maxDepth 0 (by omega) (List.range p.size) (by simp) (by simp)
  unfold build
  rw [buildRecursive_eq, hq]
  exact ⟨_, rfl⟩

end Blazert
