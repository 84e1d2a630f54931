/- C15: bounding volumes. -/
import Verif.Proofs.Boxes
import Verif.Proofs.Loop
import Verif.Samples

set_option autoImplicit false

namespace Blazert

variable {K : Type} [Field K] [LinearOrder K] [FloorRing K] {F : Fmt K} {P : Type}

/-- **C15**.  In every built BVH, for every reachable node (subtree `s` with box `s.box`): the node's box is the exact
union of the boxes `bs` of the primitives below it, i.e. it contains all of them and each of its six faces is a face of
one of them.  This holds for every format and every rounding: the code only compares.  Boxes have to be free of NaN and
infinities.  (`idx` are the positions in the collection of the primitives below the node.) -/
theorem C15_boxes_are_unions (part : StdPartition) (p : Collection (XF F) P) (o : BuildOptions)
    (nodes : List (Node (XF F) P)) (stats : Statistics) (h : build part p o [] = .ok (nodes, stats))
    (hbox : ∀ i, i < p.size → ∀ b, p.box i = .ok b → BoxInRange b)
    (t : Tree (XF F) P) (ht : Represents nodes 0 t) (s : Tree (XF F) P) (hs : s ∈ t.subtrees) :
    ∃ idx ps bs, idx.Nodup ∧ (∀ i ∈ idx, i < p.size) ∧ idx.mapM p.prim = .ok ps ∧ s.prims.Perm ps ∧
      idx.mapM p.box = .ok bs ∧ (∀ b ∈ bs, BoxContains s.box b) ∧ (idx ≠ [] → BoxTight s.box bs) := by
  obtain ⟨t', bad, h1, _, h3⟩ := build_ok part p o [] _ h
  simp only [List.nil_append, List.length_nil, Prod.mk.injEq] at h3
  obtain ⟨rfl, rfl⟩ := h3
  have hocc := layout_occupies t' h1.axesOk [] []
  simp only [List.nil_append, List.append_nil, List.length_nil] at hocc
  obtain rfl := ht.unique hocc.represents
  obtain ⟨d, idx, h4, h5⟩ := h1.subtree hs
  obtain ⟨ps, h6, h7⟩ := h4.prims_perm
  have hlt : ∀ i ∈ idx, i < p.size := fun i hi => List.mem_range.1 (h5.subset hi)
  obtain ⟨bs, h8, _, h9, h10⟩ := computeBoundingBox_spec p idx (fun i hi => hbox i (hlt i hi)) _ h4.box
  refine ⟨idx, ps, bs, (by
    obtain ⟨l, hl, hl'⟩ := h5
    exact hl.nodup_iff.1 (hl'.nodup List.nodup_range)), hlt, h6, h7, h8, ?_, fun hne => (h10 hne).2.2⟩
  by_cases hne : idx = []
  · subst hne
    simp only [List.mapM_nil, run_pure, Except.ok.injEq] at h8
    subst h8
    simp
  · exact (h10 hne).2.1

/-- **C15**, nesting: every inner node's box contains the boxes of both children. -/
theorem C15_boxes_nest (part : StdPartition) (p : Collection (XF F) P) (o : BuildOptions)
    (nodes : List (Node (XF F) P)) (stats : Statistics) (h : build part p o [] = .ok (nodes, stats))
    (hbox : ∀ i, i < p.size → ∀ b, p.box i = .ok b → BoxInRange b)
    (t : Tree (XF F) P) (ht : Represents nodes 0 t) (mn mx : Vec3 (XF F)) (ax : Nat) (l r : Tree (XF F) P)
    (hs : Tree.branch mn mx ax l r ∈ t.subtrees) :
    BoxContains (mn, mx) l.box ∧ BoxContains (mn, mx) r.box := by
  obtain ⟨t', bad, h1, _, h3⟩ := build_ok part p o [] _ h
  simp only [List.nil_append, List.length_nil, Prod.mk.injEq] at h3
  obtain ⟨rfl, rfl⟩ := h3
  have hocc := layout_occupies t' h1.axesOk [] []
  simp only [List.nil_append, List.append_nil, List.length_nil] at hocc
  obtain rfl := ht.unique hocc.represents
  obtain ⟨d, idx, h4, h5⟩ := h1.subtree hs
  have hlt : ∀ i ∈ idx, i < p.size := fun i hi => List.mem_range.1 (h5.subset hi)
  cases h4 with
  | branch _ _ il ir _ _ _ _ _ hb hn hd hax hp hne hl hr =>
    have hidx : idx ≠ [] := by
      intro h0; subst h0; simp at hn
    obtain ⟨bs, h8, hbr, _, h10⟩ := computeBoundingBox_spec p idx (fun i hi => hbox i (hlt i hi)) _ hb
    obtain ⟨hr0, hcont, _⟩ := h10 hidx
    have key : ∀ (c : Tree (XF F) P) (ic : List Nat), Built p o (d + 1) ic c → (∀ i ∈ ic, i ∈ idx) →
        BoxContains (mn, mx) c.box := by
      intro c ic hc hsub
      obtain ⟨bs', h8', _, h9', h10'⟩ := computeBoundingBox_spec p ic (fun i hi => hbox i (hlt i (hsub i hi))) _ hc.box
      by_cases hic : ic = []
      · rw [h9' hic]
        intro k
        obtain ⟨⟨v, s, e, e1, e2⟩, ⟨v', s', e', e1', e2'⟩⟩ := hr0 k
        simp only at e e'
        rw [e, e']
        have c1 : (Vec3.const (Scalar.maxVal : XF F)).get k = .fin F.maxVal false := by
          match k with
          | 0 => rfl
          | 1 => rfl
          | 2 => rfl
        have c2 : (Vec3.const (-(Scalar.maxVal : XF F))).get k = .fin (-F.maxVal) true := by
          match k with
          | 0 => rfl
          | 1 => rfl
          | 2 => rfl
        simp only
        rw [c1, c2]
        exact ⟨decide_eq_true_iff.2 e2, decide_eq_true_iff.2 e1'⟩
      · obtain ⟨_, _, htight⟩ := h10' hic
        have hmem : ∀ b ∈ bs', b ∈ bs := by
          intro b hb
          obtain ⟨i, hi, hib⟩ := mapM_mem_of_out h8' hb
          obtain ⟨b', hb', hib'⟩ := mapM_mem_of_in h8 (hsub i hi)
          rw [hib, Except.ok.injEq] at hib'
          exact hib' ▸ hb'
        intro k
        obtain ⟨⟨b, hb, e⟩, ⟨b', hb', e'⟩⟩ := htight k
        rw [← e, ← e']
        exact ⟨(hcont b (hmem b hb) k).1, (hcont b' (hmem b' hb') k).2⟩
    exact ⟨key l il hl fun i hi => hp.subset (by simp [hi]), key r ir hr fun i hi => hp.subset (by simp [hi])⟩

/-- the hypotheses are met by the sample scene, whose root is a branch with two different child boxes -/
example : (∀ i, i < sampleSpheres.toCollection.size → ∀ b, sampleSpheres.toCollection.box i = .ok b → BoxInRange b) ∧
    ∃ out, build stablePartition sampleSpheres.toCollection smallOptions [] = .ok out ∧
      out.1.map (fun nd => (nd.min.x, nd.max.x)) =
        [(dbl (-1), dbl 9), (dbl (-1), dbl 1), (dbl 3, dbl 9), (dbl 3, dbl 5), (dbl 7, dbl 9)] := by
  refine ⟨fun i hi b hb => ?_, exists_ok_of_eval (by decide +kernel)⟩
  have h : ∀ b ∈ sampleSpheres.boxes, BoxInRange b := by decide +kernel
  exact h b (List.mem_of_getElem? (lookup_eq_ok.1 hb))

end Blazert
