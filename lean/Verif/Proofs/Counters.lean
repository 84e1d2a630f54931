/- The counters of the builder do not wrap around. -/
import Verif.Model.Counters
import Verif.Proofs.Built

set_option autoImplicit false
set_option linter.unusedSectionVars false

namespace Blazert
open Scalar

variable {T P : Type} [Scalar T]

theorem u32_of_lt {n : Nat} (h : n < 2 ^ 32) : u32 n = n := Nat.mod_eq_of_lt h

theorem foldlM_congr_inv {σ α : Type} (Inv : Nat → σ → Prop) (f g : σ → α → Run σ) (N : Nat)
    (h : ∀ k s a, k < N → Inv k s → f s a = g s a ∧ ∀ s', g s a = .ok s' → Inv (k + 1) s') :
    ∀ (l : List α) (k : Nat) (s : σ), Inv k s → k + l.length ≤ N → l.foldlM f s = l.foldlM g s
  | [], _, _, _, _ => rfl
  | a :: l, k, s, hs, hN => by
    rw [List.length_cons] at hN
    obtain ⟨h1, h2⟩ := h k s a (by omega) hs
    rw [List.foldlM_cons, List.foldlM_cons, h1]
    cases hg : g s a with
    | error e => rfl
    | ok s' => exact foldlM_congr_inv Inv f g N h l (k + 1) s' (h2 s' hg) (by omega)

theorem modifyBin_congr {bins : List (Bin T)} {i : Nat} {f g : Bin T → Bin T} (h : ∀ b ∈ bins, f b = g b) :
    modifyBin bins i f = modifyBin bins i g := by
  unfold modifyBin
  cases hl : lookup UB.oobBin bins i with
  | error e => rfl
  | ok b =>
    rw [run_bind_ok, run_bind_ok, h b (List.mem_of_getElem? (lookup_eq_ok.1 hl))]

theorem modifyBin_forall {bins bins' : List (Bin T)} {i : Nat} {f : Bin T → Bin T} {Q R : Bin T → Prop}
    (h : modifyBin bins i f = .ok bins') (hQ : ∀ b ∈ bins, Q b) (hQR : ∀ b, Q b → R b) (hf : ∀ b, Q b → R (f b)) :
    ∀ b ∈ bins', R b := by
  unfold modifyBin at h
  rw [run_bind_eq_ok] at h
  obtain ⟨b, hb, h⟩ := h
  cases h
  intro x hx
  rcases List.mem_or_eq_of_mem_set hx with hx | rfl
  · exact hQR x (hQ x hx)
  · exact hf b (hQ b (List.mem_of_getElem? (lookup_eq_ok.1 hb)))

/-- the position of a bin -/
theorem bin_index {j size idx : Nat} (hj : j < 3) (hs : 3 * size < 2 ^ 32) (hidx : idx ≤ lastBin size) :
    u32 (u32 (j * size) + idx) = j * size + idx := by
  have h1 : j * size ≤ 2 * size := Nat.mul_le_mul_right _ (by omega)
  unfold lastBin at hidx
  rw [u32_of_lt (by omega : j * size < 2 ^ 32)]
  refine u32_of_lt ?_
  split_ifs at hidx with h0
  · subst h0; omega
  · omega

theorem three_steps {S S' : List (Bin T) → Fin 3 → Run (List (Bin T))}
    (key : ∀ (bins : List (Bin T)) (j : Fin 3) (c : Nat), (∀ b ∈ bins, b.count ≤ c) → c + 1 < 2 ^ 32 →
      S bins j = S' bins j ∧ ∀ bins', S' bins j = .ok bins' → ∀ b ∈ bins', b.count ≤ c + 1)
    (bins : List (Bin T)) (c : Nat) (hc : ∀ b ∈ bins, b.count ≤ c) (hc' : c + 3 < 2 ^ 32) :
    (S bins 0 >>= fun bins => S bins 1 >>= fun bins => S bins 2) = (S' bins 0 >>= fun bins => S' bins 1 >>= fun bins => S' bins 2) ∧
      ∀ bins', (S' bins 0 >>= fun bins => S' bins 1 >>= fun bins => S' bins 2) = .ok bins' → ∀ b ∈ bins', b.count ≤ c + 3 := by
  obtain ⟨k1, k2⟩ := key bins 0 c hc (by omega)
  rw [k1]
  cases h0 : S' bins 0 with
  | error e => exact ⟨rfl, by simp⟩
  | ok b1 =>
    rw [run_bind_ok, run_bind_ok]
    obtain ⟨l1, l2⟩ := key b1 1 (c + 1) (k2 b1 h0) (by omega)
    rw [l1]
    cases h1 : S' b1 1 with
    | error e => exact ⟨rfl, by simp⟩
    | ok b2 =>
      rw [run_bind_ok, run_bind_ok]
      exact key b2 2 (c + 2) (l2 b2 h1) (by omega)

theorem binPrimitive32_eq (p : Collection T P) {size : Nat} (hs : 3 * size < 2 ^ 32) (mn inv : Vec3 T) (bins : List (Bin T)) (i : Nat)
    (c : Nat) (hc : ∀ b ∈ bins, b.count ≤ c) (hc' : c + 3 < 2 ^ 32) :
    binPrimitive32 p size mn inv bins i = binPrimitive p size mn inv bins i ∧
      ∀ bins', binPrimitive p size mn inv bins i = .ok bins' → ∀ b ∈ bins', b.count ≤ c + 3 := by
  unfold binPrimitive32 binPrimitive
  cases hb : p.box i with
  | error e => exact ⟨rfl, by simp⟩
  | ok b =>
  cases hce : p.center i with
  | error e => exact ⟨rfl, by simp⟩
  | ok ce =>
  simp only [run_bind_ok]
  generalize Vec3.muls (Vec3.cmul (ce - mn) inv) (nat (lastBin size)) = N
  refine three_steps
    (S := fun bins j => match roundU (N.get j) with
      | none => throw UB.badCast
      | some r =>
        modifyBin bins (u32 (u32 (j.val * size) + Nat.min (lastBin size) r)) fun bin =>
          { bin with
            count := u32 (bin.count + 1), min := (unity bin.min bin.max b.1 b.2).1, max := (unity bin.min bin.max b.1 b.2).2 })
    (S' := fun bins j => match roundU (N.get j) with
      | none => throw UB.badCast
      | some r =>
        modifyBin bins (j.val * size + Nat.min (lastBin size) r) fun bin =>
          { bin with count := bin.count + 1, min := (unity bin.min bin.max b.1 b.2).1, max := (unity bin.min bin.max b.1 b.2).2 })
    ?_ bins c hc hc'
  intro bins j c hc hc'
  cases roundU (N.get j) with
  | none => exact ⟨rfl, by simp⟩
  | some r =>
    simp only
    rw [bin_index j.isLt hs (Nat.min_le_left _ _)]
    refine ⟨modifyBin_congr fun b hb => ?_, fun bins' h => modifyBin_forall h hc (fun b h => by omega) fun b h => ?_⟩
    · rw [u32_of_lt (by have := hc b hb; omega)]
    · exact Nat.add_le_add_right h 1

theorem sortIntoBins32_eq (p : Collection T P) (idx : List Nat) (mn mx : Vec3 T) {size : Nat} (hs : 3 * size < 2 ^ 32)
    (hn : 3 * idx.length < 2 ^ 32) : sortIntoBins32 p idx mn mx size = sortIntoBins p idx mn mx size := by
  unfold sortIntoBins32 sortIntoBins
  rw [u32_of_lt hs]
  refine foldlM_congr_inv (fun k bins => ∀ b ∈ bins, b.count ≤ 3 * k) _ _ idx.length ?_ idx 0 _ ?_ (by omega)
  · intro k bins i hk hinv
    obtain ⟨h1, h2⟩ := binPrimitive32_eq p hs mn (invSize mn mx) bins i (3 * k) hinv (by omega)
    exact ⟨h1, fun s' hs' b hb => (h2 s' hs' b hb).trans (by omega)⟩
  · intro b hb
    rw [List.eq_of_mem_replicate hb]
    exact Nat.zero_le _

theorem sweepLeft32_eq {j size : Nat} (hj : j < 3) (hs : 3 * size < 2 ^ 32) : ∀ (n : Nat) (s : Sweep T) (bins : List (Bin T)),
    n ≤ lastBin size → sweepLeft32 j size n s bins = sweepLeft j size n s bins
  | 0, _, _, _ => rfl
  | n + 1, s, bins, hn => by
    unfold sweepLeft32 sweepLeft
    rw [bin_index hj hs hn]
    cases lookup UB.oobBin bins (j * size + (n + 1)) with
    | error e => rfl
    | ok b => exact sweepLeft32_eq hj hs n _ _ (by omega)

theorem lastBin_lt {size : Nat} (hs : 3 * size < 2 ^ 32) : lastBin size < 2 ^ 32 := by
  unfold lastBin
  split_ifs <;> omega

theorem sweepRight32_eq {j size : Nat} (hj : j < 3) (hs : 3 * size < 2 ^ 32) (bins : List (Bin T)) :
    ∀ (n i : Nat) (s : Sweep T) (c : T) (m : Nat), n + i ≤ lastBin size →
      sweepRight32 j size bins n i s c m = sweepRight j size bins n i s c m
  | 0, _, _, _, _, _ => rfl
  | n + 1, i, s, c, m, hn => by
    unfold sweepRight32 sweepRight
    have e : u32 (j * size + i + 1) = j * size + i + 1 := by
      have := bin_index hj hs (show i + 1 ≤ lastBin size by omega)
      rw [← Nat.add_assoc] at this
      have h1 : j * size ≤ 2 * size := Nat.mul_le_mul_right _ (by omega)
      rwa [u32_of_lt (by omega : j * size < 2 ^ 32)] at this
    rw [bin_index hj hs (show i ≤ lastBin size by omega), e, u32_of_lt (show i + 1 < 2 ^ 32 by have := lastBin_lt hs; omega)]
    cases lookup UB.oobBin bins (j * size + i) with
    | error e => rfl
    | ok b =>
      cases lookup UB.oobBin bins (j * size + i + 1) with
      | error e => rfl
      | ok nb =>
        simp only [run_bind_ok]
        rw [sweepRight32_eq hj hs bins n (i + 1) _ _ _ (by omega), sweepRight32_eq hj hs bins n (i + 1) _ _ _ (by omega)]

theorem findBestSplit32_eq (p : Collection T P) (idx : List Nat) (mn mx : Vec3 T) {size : Nat} (hs : 3 * size < 2 ^ 32)
    (hn : 3 * idx.length < 2 ^ 32) : findBestSplit32 p idx mn mx size = findBestSplit p idx mn mx size := by
  have h : ∀ (j : Fin 3) (bins : List (Bin T)), bestSplitAxis32 mn mx size j bins = bestSplitAxis mn mx size j bins := fun j bins => by
    unfold bestSplitAxis32 bestSplitAxis
    rw [sweepLeft32_eq j.isLt hs _ _ _ le_rfl]
    simp only [sweepRight32_eq j.isLt hs _ _ _ _ _ _ (le_refl (lastBin size + 0))]
  unfold findBestSplit32 findBestSplit
  rw [sortIntoBins32_eq p idx mn mx hs hn]
  simp only [h]

/-- the sizes of a built tree -/
theorem Built.sizes {p : Collection T P} {o : BuildOptions} {d : Nat} {idx : List Nat} {t : Tree T P} (h : Built p o d idx t)
    (ho : 1 ≤ o.minLeaf) (hi : idx ≠ []) : t.leaves.length ≤ idx.length ∧ t.numNodes + 1 ≤ 2 * idx.length ∧ t.numBranches + 1 ≤ idx.length := by
  have h5 := length_le_flatten_length _ (h.leaves_nonempty ho hi)
  obtain ⟨qs, hq1, hq2⟩ := h.prims_perm
  have h6 := mapM_length _ _ _ hq1
  rw [← hq2.length_eq] at h6
  unfold Tree.prims at h6
  have h7 := t.numNodes_eq
  have h8 := t.numBranches_eq
  omega

theorem buildRecursive32_eq (part : StdPartition) (p : Collection T P) (o : BuildOptions) (ho : 1 ≤ o.minLeaf)
    (hd : o.maxDepth < 2 ^ 32) (hs : 3 * o.binSize < 2 ^ 32) (fuel : Nat) : ∀ (depth : Nat) (nodes : List (Node T P)) (idx : List Nat)
      (stats : Statistics), 3 * idx.length < 2 ^ 32 → nodes.length + 2 * idx.length < 2 ^ 32 → stats.leafNodes + idx.length + 1 < 2 ^ 32 →
      stats.branchNodes + idx.length < 2 ^ 32 → stats.badSplits + 3 * idx.length < 2 ^ 32 →
      buildRecursive32 part p o fuel depth nodes idx stats = buildRecursive part p o fuel depth nodes idx stats := by
  induction fuel with
  | zero =>
    intro depth nodes idx stats h0 h1 h2 h3 h4
    unfold buildRecursive32 buildRecursive
    rw [u32_of_lt (show nodes.length < 2 ^ 32 by omega), u32_of_lt (show idx.length < 2 ^ 32 by omega)]
    cases computeBoundingBox p idx with
    | error e => rfl
    | ok b =>
      simp only [run_bind_ok]
      split
      · cases createLeaf p idx b.1 b.2 with
        | error e => rfl
        | ok lf =>
          simp only [run_bind_ok, Statistics.primitivesPerLeaf]
          rw [u32_of_lt]
          split <;> (try simp only) <;> omega
      · rfl
  | succ fuel ih =>
    intro depth nodes idx stats h0 h1 h2 h3 h4
    unfold buildRecursive32 buildRecursive
    rw [u32_of_lt (show nodes.length < 2 ^ 32 by omega), u32_of_lt (show idx.length < 2 ^ 32 by omega)]
    cases computeBoundingBox p idx with
    | error e => rfl
    | ok b =>
      simp only [run_bind_ok]
      split
      · cases createLeaf p idx b.1 b.2 with
        | error e => rfl
        | ok lf =>
          simp only [run_bind_ok, Statistics.primitivesPerLeaf]
          rw [u32_of_lt]
          split <;> (try simp only) <;> omega
      · rename_i hc
        rw [not_or] at hc
        simp only [createBranch32, createBranch, split32, split]
        rw [findBestSplit32_eq p idx b.1 b.2 hs h0]
        cases hf : findBestSplit p idx b.1 b.2 o.binSize with
        | error e => rfl
        | ok ac =>
          simp only [run_bind_ok]
          cases hsp : splitLoop part p ac.2 2 ac.1 idx 0 with
          | error e => rfl
          | ok q =>
            obtain ⟨q1, q2, -, q3⟩ := splitLoop_spec _ _ _ _ _ _ _ _ hsp
            have q4 := q1.length_eq
            rw [List.length_append] at q4
            obtain ⟨n1, n2⟩ := q2 (by omega)
            have m1 := List.length_pos_iff_ne_nil.2 n1
            have m2 := List.length_pos_iff_ne_nil.2 n2
            simp only [run_bind_ok, run_pure]
            set st : Statistics := if stats.maxTreeDepth < depth then { stats with maxTreeDepth := depth } else stats with hst
            have s1 : st.leafNodes = stats.leafNodes := by rw [hst]; split <;> rfl
            have s2 : st.branchNodes = stats.branchNodes := by rw [hst]; split <;> rfl
            have s3 : st.badSplits = stats.badSplits := by rw [hst]; split <;> rfl
            rw [u32_of_lt (show st.badSplits + q.2.2.2 < 2 ^ 32 by omega), u32_of_lt (show st.branchNodes + 1 < 2 ^ 32 by omega),
              u32_of_lt (show depth + 1 < 2 ^ 32 by omega)]
            rw [ih _ _ q.2.1 _ (by omega) (by simp; omega) (by simp only; omega) (by simp only; omega) (by simp only; omega),
              buildRecursive_eq]
            cases hl : buildTree part p o fuel (depth + 1) q.2.1 with
            | error e => rfl
            | ok tl =>
              obtain ⟨t1, t2⟩ := buildTree_built _ _ _ _ _ _ _ _ hl
              obtain ⟨z1, z2, z3⟩ := t1.sizes ho n1
              simp only [run_bind_ok, run_pure]
              rw [modifyNode_append]
              simp only [run_bind_ok]
              rw [ih _ _ q.2.2.1 _ (by omega) (by simp; omega) (by simp only [statsAfter]; omega) (by simp only [statsAfter]; omega)
                (by simp only [statsAfter]; omega)]

end Blazert
