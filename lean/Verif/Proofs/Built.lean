/- Structural facts about every tree the builder produces. -/
import Verif.Proofs.BuildTree
import Mathlib.Data.List.Forall2

set_option autoImplicit false
set_option linter.unusedSectionVars false

namespace Blazert

variable {T P : Type} [Scalar T]

/-- `Built p o d idx t`: the tree `t` was built from the primitives with indices `idx` at depth `d`. -/
inductive Built (p : Collection T P) (o : BuildOptions) : Nat → List Nat → Tree T P → Prop
  | leaf (d : Nat) (idx : List Nat) (mn mx : Vec3 T) (ps : List P) (hb : computeBoundingBox p idx = .ok (mn, mx))
      (hp : idx.mapM p.prim = .ok ps) (hl : idx.length ≤ o.minLeaf ∨ o.maxDepth ≤ d) : Built p o d idx (.leaf mn mx ps)
  | branch (d : Nat) (idx il ir : List Nat) (mn mx : Vec3 T) (ax : Nat) (l r : Tree T P)
      (hb : computeBoundingBox p idx = .ok (mn, mx)) (hn : o.minLeaf < idx.length) (hd : d < o.maxDepth)
      (hax : ax < 3) (hp : (il ++ ir).Perm idx) (hne : 2 ≤ idx.length → il ≠ [] ∧ ir ≠ [])
      (hl : Built p o (d + 1) il l) (hr : Built p o (d + 1) ir r) : Built p o d idx (.branch mn mx ax l r)

theorem splitKeys_map_fst (p : Collection T P) (cut : Vec3 T) (axis : Fin 3) (idx : List Nat) (keys : List (Nat × Bool))
    (h : splitKeys p cut axis idx = .ok keys) : keys.map Prod.fst = idx := by
  have := mapM_ok_forall₂ _ _ _ h
  clear h
  induction this with
  | nil => rfl
  | cons h _ ih =>
    rw [run_bind_eq_ok] at h
    obtain ⟨c, _, h⟩ := h
    simp at h
    simp [← h, ih]

theorem splitLoop_spec (part : StdPartition) (p : Collection T P) (cut : Vec3 T) (tries : Nat) (axis : Fin 3)
    (idx : List Nat) (bad : Nat) (q : Fin 3 × List Nat × List Nat × Nat)
    (h : splitLoop part p cut tries axis idx bad = .ok q) :
    (q.2.1 ++ q.2.2.1).Perm idx ∧ (2 ≤ idx.length → q.2.1 ≠ [] ∧ q.2.2.1 ≠ []) ∧ bad ≤ q.2.2.2 ∧
      q.2.2.2 ≤ bad + tries + 1 := by
  induction tries generalizing axis idx bad with
  | zero =>
    unfold splitLoop at h
    rw [run_bind_eq_ok] at h
    obtain ⟨keys, hk, h⟩ := h
    have hperm := ((part.perm keys).map Prod.fst).trans (by rw [splitKeys_map_fst _ _ _ _ _ hk])
    rw [List.map_append] at hperm
    rcases hlr : part.run keys with ⟨L, R⟩
    rw [hlr] at h hperm
    simp only at h hperm
    split at h
    · simp only [run_pure, Except.ok.injEq] at h
      subst h
      refine ⟨by simpa using hperm, fun h2 => ?_, by simp, by simp⟩
      have hlen := hperm.length_eq
      constructor
      · rw [← List.length_pos_iff_ne_nil, List.length_take]
        omega
      · rw [← List.length_pos_iff_ne_nil, List.length_drop]
        omega
    · rename_i hc
      simp only [run_pure, Except.ok.injEq] at h
      subst h
      refine ⟨hperm, fun _ => ?_, by simp, by simp⟩
      rw [not_or] at hc
      exact ⟨List.length_pos_iff_ne_nil.1 (Nat.pos_of_ne_zero hc.1), List.length_pos_iff_ne_nil.1 (Nat.pos_of_ne_zero hc.2)⟩
  | succ tries ih =>
    unfold splitLoop at h
    rw [run_bind_eq_ok] at h
    obtain ⟨keys, hk, h⟩ := h
    have hperm := ((part.perm keys).map Prod.fst).trans (by rw [splitKeys_map_fst _ _ _ _ _ hk])
    rw [List.map_append] at hperm
    rcases hlr : part.run keys with ⟨L, R⟩
    rw [hlr] at h hperm
    simp only at h hperm
    split at h
    · obtain ⟨h1, h2, h3, h4⟩ := ih _ _ _ h
      refine ⟨h1.trans hperm, fun hn => h2 ?_, by omega, by omega⟩
      rw [hperm.length_eq]; exact hn
    · rename_i hc
      simp only [run_pure, Except.ok.injEq] at h
      subst h
      refine ⟨hperm, fun _ => ?_, by simp, by simp; omega⟩
      rw [not_or] at hc
      exact ⟨List.length_pos_iff_ne_nil.1 (Nat.pos_of_ne_zero hc.1), List.length_pos_iff_ne_nil.1 (Nat.pos_of_ne_zero hc.2)⟩

theorem buildTree_built (part : StdPartition) (p : Collection T P) (o : BuildOptions) (fuel depth : Nat)
    (idx : List Nat) (t : Tree T P) (bad : Nat) (h : buildTree part p o fuel depth idx = .ok (t, bad)) :
    Built p o depth idx t ∧ bad ≤ 3 * t.numBranches := by
  induction fuel generalizing depth idx t bad with
  | zero =>
    unfold buildTree at h
    rw [run_bind_eq_ok] at h
    obtain ⟨b, hb, h⟩ := h
    simp only at h
    split at h
    · rename_i hc
      rw [run_bind_eq_ok] at h
      obtain ⟨ps, hp, h⟩ := h
      simp only [run_pure, Except.ok.injEq, Prod.mk.injEq] at h
      obtain ⟨rfl, rfl⟩ := h
      exact ⟨.leaf _ _ _ _ _ hb hp hc, by simp⟩
    · simp at h
  | succ fuel ih =>
    unfold buildTree at h
    rw [run_bind_eq_ok] at h
    obtain ⟨b, hb, h⟩ := h
    simp only at h
    split at h
    · rename_i hc
      rw [run_bind_eq_ok] at h
      obtain ⟨ps, hp, h⟩ := h
      simp only [run_pure, Except.ok.injEq, Prod.mk.injEq] at h
      obtain ⟨rfl, rfl⟩ := h
      exact ⟨.leaf _ _ _ _ _ hb hp hc, by simp⟩
    · rename_i hc
      rw [not_or] at hc
      rw [run_bind_eq_ok] at h
      obtain ⟨ac, _, h⟩ := h
      rw [run_bind_eq_ok] at h
      obtain ⟨⟨qa, ql, qr, qb⟩, hq, h⟩ := h
      rw [run_bind_eq_ok] at h
      obtain ⟨tl, htl, h⟩ := h
      rw [run_bind_eq_ok] at h
      obtain ⟨tr, htr, h⟩ := h
      simp only [run_pure, Except.ok.injEq, Prod.mk.injEq] at h
      obtain ⟨rfl, rfl⟩ := h
      obtain ⟨h1, h2, _, h4⟩ := splitLoop_spec _ _ _ _ _ _ _ _ hq
      obtain ⟨hl, hlb⟩ := ih _ _ _ _ htl
      obtain ⟨hr, hrb⟩ := ih _ _ _ _ htr
      refine ⟨.branch _ _ _ _ _ _ _ _ _ hb (by omega) (by omega) qa.isLt h1 h2 hl hr, ?_⟩
      simp only [Tree.numBranches] at *; omega

section
variable {p : Collection T P} {o : BuildOptions} {d : Nat} {idx : List Nat} {t : Tree T P}

theorem Built.axesOk (h : Built p o d idx t) : t.AxesOk := by
  induction h with
  | leaf => trivial
  | branch d idx il ir mn mx ax l r hb hn hd hax hp hne hl hr ihl ihr => exact ⟨hax, ihl, ihr⟩

/-- the leaves partition the indices -/
theorem Built.leaves_idx (h : Built p o d idx t) :
    ∃ ls : List (List Nat), ls.flatten.Perm idx ∧ List.Forall₂ (fun is ps => is.mapM p.prim = .ok ps) ls t.leaves := by
  induction h with
  | leaf d idx mn mx ps hb hp hl => exact ⟨[idx], by simp, by simp [Tree.leaves, hp]⟩
  | branch d idx il ir mn mx ax l r hb hn hd hax hp hne hl hr ihl ihr =>
    obtain ⟨a, ha1, ha2⟩ := ihl
    obtain ⟨b, hb1, hb2⟩ := ihr
    refine ⟨a ++ b, ?_, List.rel_append ha2 hb2⟩
    rw [List.flatten_append]
    exact (ha1.append hb1).trans hp

theorem mapM_append_ok {α β : Type} (f : α → Run β) (l m : List α) (bs cs : List β) (h1 : l.mapM f = .ok bs)
    (h2 : m.mapM f = .ok cs) : (l ++ m).mapM f = .ok (bs ++ cs) := by
  apply mapM_ok_of_forall₂
  exact List.rel_append (mapM_ok_forall₂ _ _ _ h1) (mapM_ok_forall₂ _ _ _ h2)

theorem mapM_flatten_ok {α β : Type} (f : α → Run β) (ls : List (List α)) (ms : List (List β))
    (h : List.Forall₂ (fun is ps => is.mapM f = .ok ps) ls ms) : ls.flatten.mapM f = .ok ms.flatten := by
  induction h with
  | nil => simp
  | cons h1 _ ih =>
    rw [List.flatten_cons, List.flatten_cons]
    exact mapM_append_ok _ _ _ _ _ h1 ih

theorem mapM_perm_ok {α β : Type} (f : α → Run β) (l m : List α) (hp : l.Perm m) (bs : List β)
    (h : l.mapM f = .ok bs) : ∃ cs, m.mapM f = .ok cs ∧ bs.Perm cs := by
  have hf := mapM_ok_forall₂ _ _ _ h
  obtain ⟨cs, h1, h2⟩ := List.perm_comp_forall₂ hp.symm hf
  exact ⟨cs, mapM_ok_of_forall₂ _ _ _ h1, h2.symm⟩

/-- the primitives of the tree, in some order, are the primitives with the given indices -/
theorem Built.prims_perm (h : Built p o d idx t) : ∃ ps, idx.mapM p.prim = .ok ps ∧ t.prims.Perm ps := by
  obtain ⟨ls, h1, h2⟩ := h.leaves_idx
  exact mapM_perm_ok _ _ _ h1 _ (mapM_flatten_ok _ _ _ h2)

theorem Built.height_le (h : Built p o d idx t) : t.height ≤ o.maxDepth - d := by
  induction h with
  | leaf => simp [Tree.height]
  | branch d idx il ir mn mx ax l r hb hn hd hax hp hne hl hr ihl ihr =>
    simp only [Tree.height, Nat.max_def]; split <;> omega

theorem Built.leaf_limits (h : Built p o d idx t) :
    ∀ x ∈ t.leavesAt d, x.2.length ≤ o.minLeaf ∨ o.maxDepth ≤ x.1 := by
  induction h with
  | leaf d idx mn mx ps hb hp hl =>
    intro x hx
    simp only [Tree.leavesAt, List.mem_singleton] at hx
    subst hx
    rw [mapM_length _ _ _ hp]; exact hl
  | branch d idx il ir mn mx ax l r hb hn hd hax hp hne hl hr ihl ihr =>
    intro x hx
    simp only [Tree.leavesAt, List.mem_append] at hx
    rcases hx with hx | hx
    · exact ihl x hx
    · exact ihr x hx

theorem Built.leaves_nonempty (h : Built p o d idx t) (ho : 1 ≤ o.minLeaf) (hi : idx ≠ []) :
    ∀ ps ∈ t.leaves, ps ≠ [] := by
  induction h with
  | leaf d idx mn mx ps hb hp hl =>
    intro x hx
    simp only [Tree.leaves, List.mem_singleton] at hx
    subst hx
    rw [← List.length_pos_iff_ne_nil, mapM_length _ _ _ hp]
    exact List.length_pos_iff_ne_nil.2 hi
  | branch d idx il ir mn mx ax l r hb hn hd hax hp hne hl hr ihl ihr =>
    intro x hx
    simp only [Tree.leaves, List.mem_append] at hx
    obtain ⟨h1, h2⟩ := hne (by omega)
    rcases hx with hx | hx
    · exact ihl h1 x hx
    · exact ihr h2 x hx

/-- each branch holds more than `minLeaf` primitives -/
theorem Built.branch_big (h : Built p o d idx t) : ∀ mn mx ax l r, Tree.branch mn mx ax l r ∈ t.subtrees →
    o.minLeaf < (Tree.branch mn mx ax l r).prims.length := by
  induction h with
  | leaf d idx mn mx ps hb hp hl => simp [Tree.subtrees]
  | branch d idx il ir mn mx ax l r hb hn hd hax hp hne hl hr ihl ihr =>
    intro mn' mx' ax' l' r' hm
    simp only [Tree.subtrees, List.mem_cons, List.mem_append] at hm
    rcases hm with hm | hm | hm
    · rw [hm]
      obtain ⟨ps, h1, h2⟩ := (Built.branch d idx il ir mn mx ax l r hb hn hd hax hp hne hl hr).prims_perm
      rw [h2.length_eq, mapM_length _ _ _ h1]; exact hn
    · exact ihl _ _ _ _ _ hm
    · exact ihr _ _ _ _ _ hm

/-- boxes of all subtrees are bounding boxes of their indices -/
theorem Built.box (h : Built p o d idx t) : computeBoundingBox p idx = .ok t.box := by
  cases h <;> assumption

end

theorem build_eq (part : StdPartition) (p : Collection T P) (o : BuildOptions) (nodes : List (Node T P)) :
    build part p o nodes =
      (do let (t, bad) ← buildTree part p o o.maxDepth 0 (List.range p.size)
          return (nodes ++ t.layout nodes.length, statsAfter t 0 bad Statistics.init)) := by
  unfold build
  rw [buildRecursive_eq]
  cases buildTree part p o o.maxDepth 0 (List.range p.size) <;> rfl

/-- summary of a successful build -/
theorem build_ok (part : StdPartition) (p : Collection T P) (o : BuildOptions) (nodes : List (Node T P))
    (out : List (Node T P) × Statistics) (h : build part p o nodes = .ok out) :
    ∃ t bad, Built p o 0 (List.range p.size) t ∧ bad ≤ 3 * t.numBranches ∧
      out = (nodes ++ t.layout nodes.length, statsAfter t 0 bad Statistics.init) := by
  rw [build_eq, run_bind_eq_ok] at h
  obtain ⟨⟨t, bad⟩, h1, h2⟩ := h
  simp only [run_pure, Except.ok.injEq] at h2
  obtain ⟨h3, h4⟩ := buildTree_built _ _ _ _ _ _ _ _ h1
  exact ⟨t, bad, h3, h4, h2.symm⟩

theorem foldl_max_spec (ls : List (List P)) (m : Nat) :
    (∀ ps ∈ ls, ps.length ≤ ls.foldl (fun m ps => Nat.max ps.length m) m) ∧
    m ≤ ls.foldl (fun m ps => Nat.max ps.length m) m ∧
    (ls.foldl (fun m ps => Nat.max ps.length m) m = m ∨
      ∃ ps ∈ ls, ps.length = ls.foldl (fun m ps => Nat.max ps.length m) m) := by
  induction ls generalizing m with
  | nil => simp
  | cons a ls ih =>
    obtain ⟨h1, h2, h3⟩ := ih (Nat.max a.length m)
    simp only [List.foldl_cons]
    have ha : a.length ≤ Nat.max a.length m := Nat.le_max_left _ _
    have hm : m ≤ Nat.max a.length m := Nat.le_max_right _ _
    refine ⟨fun ps hps => ?_, by omega, ?_⟩
    · rcases List.mem_cons.1 hps with rfl | hps
      · omega
      · exact h1 ps hps
    · rcases h3 with h3 | ⟨ps, hps, h3⟩
      · have : Nat.max a.length m = a.length ∨ Nat.max a.length m = m := by
          change max _ _ = _ ∨ max _ _ = _; omega
        rcases this with h4 | h4
        · exact .inr ⟨a, by simp, by omega⟩
        · exact .inl (by omega)
      · exact .inr ⟨ps, by simp [hps], h3⟩

theorem foldl_min_spec (ls : List (List P)) (m : Nat) :
    (∀ ps ∈ ls, ls.foldl (fun m ps => Nat.min ps.length m) m ≤ ps.length) ∧
    ls.foldl (fun m ps => Nat.min ps.length m) m ≤ m ∧
    (ls.foldl (fun m ps => Nat.min ps.length m) m = m ∨
      ∃ ps ∈ ls, ps.length = ls.foldl (fun m ps => Nat.min ps.length m) m) := by
  induction ls generalizing m with
  | nil => simp
  | cons a ls ih =>
    obtain ⟨h1, h2, h3⟩ := ih (Nat.min a.length m)
    simp only [List.foldl_cons]
    have ha : Nat.min a.length m ≤ a.length := Nat.min_le_left _ _
    have hm : Nat.min a.length m ≤ m := Nat.min_le_right _ _
    refine ⟨fun ps hps => ?_, by omega, ?_⟩
    · rcases List.mem_cons.1 hps with rfl | hps
      · omega
      · exact h1 ps hps
    · rcases h3 with h3 | ⟨ps, hps, h3⟩
      · have : Nat.min a.length m = a.length ∨ Nat.min a.length m = m := by
          change min _ _ = _ ∨ min _ _ = _; omega
        rcases this with h4 | h4
        · exact .inr ⟨a, by simp, by omega⟩
        · exact .inl (by omega)
      · exact .inr ⟨ps, by simp [hps], h3⟩

/-- every leaf of a non-empty list of non-empty lists contributes an element -/
theorem length_le_flatten_length (ls : List (List P)) (h : ∀ ps ∈ ls, ps ≠ []) : ls.length ≤ ls.flatten.length := by
  induction ls with
  | nil => simp
  | cons a ls ih =>
    have h1 := List.length_pos_iff_ne_nil.2 (h a (by simp))
    have h2 := ih fun ps hps => h ps (by simp [hps])
    rw [List.flatten_cons, List.length_append, List.length_cons]; omega

end Blazert
