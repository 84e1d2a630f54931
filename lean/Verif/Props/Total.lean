/- C19: when the builder returns normally. -/
import Verif.Proofs.Casts
import Verif.Samples
import Verif.SampleScene

set_option autoImplicit false

namespace Blazert
open Format

section
variable {K : Type} [Field K] [LinearOrder K] [IsStrictOrderedRing K] [FloorRing K] {F : Fmt K} {P : Type}

/-- **C19**.  In every format with gradual underflow: for every well-formed collection whose box coordinates are either
equal or differ by at least `lo` and at most `hi`, and any number of bins from 1 to `2^29`, the builder returns normally,
whatever `std::partition` does and whatever the other options are: all bin indices are in range, all casts are defined,
all lookups succeed and the recursion ends.  The restriction on the coordinate differences cannot be dropped, see
`C19_tiny_boxes` and `C19_huge_boxes`. -/
theorem C19_build_returns_partial {u η lo hi : K} (hF : F.Gradual u η hi) (hn : Fine u η lo hi) (part : StdPartition)
    (p : Collection (XF F) P) (wf : WellFormed p) (hsp : Spread lo hi p) (o : BuildOptions) (h1 : 1 ≤ o.binSize)
    (h2 : o.binSize ≤ 2 ^ 29) (nodes : List (Node (XF F) P)) :
    ∃ out, build part p o nodes = .ok out := by
  have hr := wf.reads
  exact build_total part p o nodes (fun i hi => ⟨_, (hr i hi).choose_spec.choose_spec.choose_spec.1⟩)
    (fun i hi => ⟨_, (hr i hi).choose_spec.choose_spec.choose_spec.2.1⟩)
    (fun i hi => ⟨_, (hr i hi).choose_spec.choose_spec.choose_spec.2.2⟩)
    (.inr (.inr ⟨h1, castsDefined_of_gradual hF hn p wf hsp o.binSize h1 h2⟩))

end

/-- `double`: coordinates are equal or differ by at least the smallest normal number, and by at most the largest number -/
theorem C19_build_returns_double_partial {P : Type} (part : StdPartition) (p : Collection Double P) (wf : WellFormed p)
    (hsp : Spread binary64.tiny binary64.maxVal p) (o : BuildOptions) (h1 : 1 ≤ o.binSize) (h2 : o.binSize ≤ 2 ^ 29)
    (nodes : List (Node Double P)) : ∃ out, build part p o nodes = .ok out :=
  C19_build_returns_partial binary64_gradual binary64_fine part p wf hsp o h1 h2 nodes

/-- `float` -/
theorem C19_build_returns_float_partial {P : Type} (part : StdPartition) (p : Collection Single P) (wf : WellFormed p)
    (hsp : Spread binary32.tiny binary32.maxVal p) (o : BuildOptions) (h1 : 1 ≤ o.binSize) (h2 : o.binSize ≤ 2 ^ 29)
    (nodes : List (Node Single P)) : ∃ out, build part p o nodes = .ok out :=
  C19_build_returns_partial binary32_gradual binary32_fine part p wf hsp o h1 h2 nodes

/-- In exact arithmetic no restriction on the coordinates is needed. -/
theorem C19_build_returns_exact_partial {F : Fmt ℝ} (hF : F.Exact) {P : Type} (part : StdPartition)
    (p : Collection (XF F) P) (wf : WellFormed p) (o : BuildOptions) (h1 : 1 ≤ o.binSize) (h2 : o.binSize ≤ 2 ^ 29)
    (nodes : List (Node (XF F) P)) : ∃ out, build part p o nodes = .ok out := by
  have hr := wf.reads
  exact build_total part p o nodes (fun i hi => ⟨_, (hr i hi).choose_spec.choose_spec.choose_spec.1⟩)
    (fun i hi => ⟨_, (hr i hi).choose_spec.choose_spec.choose_spec.2.1⟩)
    (fun i hi => ⟨_, (hr i hi).choose_spec.choose_spec.choose_spec.2.2⟩)
    (.inr (.inr ⟨h1, castsDefined_of_exact hF p wf o.binSize h1 h2⟩))

/-- A collection that fits into one leaf is built without any casts: only the lookups have to succeed. -/
theorem C19_single_leaf {T P : Type} [Scalar T] (part : StdPartition) (p : Collection T P)
    (reads : ∀ i, i < p.size → ∃ b c q, p.box i = .ok b ∧ p.center i = .ok c ∧ p.prim i = .ok q) (o : BuildOptions)
    (h : p.size ≤ o.minLeaf) (nodes : List (Node T P)) : ∃ out, build part p o nodes = .ok out :=
  build_total part p o nodes (fun i hi => ⟨_, (reads i hi).choose_spec.choose_spec.choose_spec.1⟩)
    (fun i hi => ⟨_, (reads i hi).choose_spec.choose_spec.choose_spec.2.1⟩)
    (fun i hi => ⟨_, (reads i hi).choose_spec.choose_spec.choose_spec.2.2⟩) (.inl h)

/-! ### Examples -/

/-- evaluates `WellFormed` and `Spread` for a collection in a computable format -/
def checkCollection {F : Fmt ℚ} {P : Type} (lo hi : ℚ) (p : Collection (XF F) P) : Bool :=
  let fin : XF F → Option ℚ := fun x => match x with
    | .fin v _ => some v
    | _ => none
  (List.range p.size).all fun i =>
    match p.box i, p.center i, p.prim i with
    | .ok b, .ok c, .ok _ =>
      (List.finRange 3).all fun k =>
        match fin (b.1.get k), fin (b.2.get k) with
        | some x, some y =>
          decide (-F.maxVal ≤ x ∧ x ≤ F.maxVal ∧ -F.maxVal ≤ y ∧ y ≤ F.maxVal) &&
          Scalar.le (b.1.get k) (c.get k) && Scalar.le (c.get k) (b.2.get k) &&
          (List.range p.size).all fun j =>
            match p.box j with
            | .ok b' => (match fin (b'.2.get k) with
              | some y' => decide (y' ≤ x ∨ (lo ≤ y' - x ∧ y' - x ≤ hi))
              | none => false)
            | .error _ => false
        | _, _ => false
    | _, _, _ => false

theorem check_axis {F : Fmt ℚ} {P : Type} {lo hi : ℚ} {p : Collection (XF F) P} (h : checkCollection lo hi p = true)
    (i : Nat) (hi' : i < p.size) : ∃ b c q, p.box i = .ok b ∧ p.center i = .ok c ∧ p.prim i = .ok q ∧
      ∀ k, (b.1.get k).InRange ∧ (b.2.get k).InRange ∧ Scalar.le (b.1.get k) (c.get k) = true ∧
        Scalar.le (c.get k) (b.2.get k) = true ∧ ∀ j, j < p.size → ∀ b', p.box j = .ok b' →
          ∀ x y, (b.1.get k).Is x → (b'.2.get k).Is y → y ≤ x ∨ (lo ≤ y - x ∧ y - x ≤ hi) := by
  unfold checkCollection at h
  rw [List.all_eq_true] at h
  have h := h i (by simpa using hi')
  split at h
  · rename_i b c q hb hc hq
    refine ⟨b, c, q, hb, hc, hq, fun k => ?_⟩
    rw [List.all_eq_true] at h
    have h := h k (List.mem_finRange k)
    split at h
    · rename_i x y hx hy
      rw [Bool.and_eq_true, Bool.and_eq_true, Bool.and_eq_true, decide_eq_true_iff, List.all_eq_true] at h
      obtain ⟨⟨⟨⟨r1, r2, r3, r4⟩, l1⟩, l2⟩, h⟩ := h
      have fin_some : ∀ {z : XF F} {v : ℚ}, (match z with | .fin v _ => some v | _ => none) = some v → z.Is v := by
        intro z v hz
        cases z with
        | fin w s => simp only [Option.some.injEq] at hz; subst hz; exact ⟨s, rfl⟩
        | inf => simp at hz
        | nan => simp at hz
      have hx' := fin_some hx
      have hy' := fin_some hy
      refine ⟨?_, ?_, l1, l2, ?_⟩
      · obtain ⟨s, hs⟩ := hx'; exact ⟨x, s, hs, r1, r2⟩
      · obtain ⟨s, hs⟩ := hy'; exact ⟨y, s, hs, r3, r4⟩
      · intro j hj b' hb' x' y' hx2 hy2
        have h := h j (by simpa using hj)
        rw [hb'] at h
        simp only at h
        split at h
        · rename_i w hw
          obtain rfl := hx'.unique hx2
          obtain rfl := (fin_some hw).unique hy2
          exact of_decide_eq_true h
        · exact absurd h (by simp)
    · exact absurd h (by simp)
  · exact absurd h (by simp)

theorem wellFormed_of_check {F : Fmt ℚ} {P : Type} {lo hi : ℚ} {p : Collection (XF F) P}
    (h : checkCollection lo hi p = true) : WellFormed p ∧ Spread lo hi p := by
  refine ⟨⟨fun i hi' => ?_, fun i hi' b hb => ?_, fun i hi' b c hb hc k => ?_⟩, fun i j hi' hj bi bj hbi hbj k x y hx hy => ?_⟩
  all_goals obtain ⟨b1, c1, q1, e1, e2, e3, hk⟩ := check_axis h i hi'
  · exact ⟨b1, c1, q1, e1, e2, e3⟩
  · rw [e1, Except.ok.injEq] at hb
    subst hb
    exact fun k => ⟨(hk k).1, (hk k).2.1⟩
  · rw [e1, Except.ok.injEq] at hb
    rw [e2, Except.ok.injEq] at hc
    subst hb hc
    exact ⟨(hk k).2.2.1, (hk k).2.2.2.1⟩
  · rw [e1, Except.ok.injEq] at hbi
    subst hbi
    exact (hk k).2.2.2.2 j hj bj hbj x y hx hy

/-- The three spheres at `x = 0, 4, 8` satisfy the hypotheses of `C19_build_returns_double_partial`. -/
example : WellFormed sampleSpheres.toCollection ∧ Spread binary64.tiny binary64.maxVal sampleSpheres.toCollection :=
  wellFormed_of_check (by decide +kernel)

/-- **C19**, for scenes: in exact arithmetic `commit` returns normally (and returns `true`) for every scene reachable by
API calls whose content is meaningful and in range.  Missing from the full claim: cylinders, and rounding (see
`C19_tiny_boxes` and `C19_huge_boxes` for what goes wrong with it). -/
theorem C19_commit_returns_partial {F : Fmt ℝ} (hF : F.Exact) {s : Scene (XF F)} {rs : List Nat} (hist : History s rs)
    (hgood : s.Good) (part : StdPartition) : ∃ s', s.commit part = .ok (s', true) := commit_total hF hist hgood part

example : ∃ mesh sph, History (sampleBefore mesh sph) [0, 1] ∧ (sampleBefore mesh sph).Good := by
  obtain ⟨mesh, sph, hm, hs, h1, h2, h⟩ := sample_history sampleBalls
  exact ⟨mesh, sph, h, sample_good sampleBalls_small hm hs h1 h2⟩

/-! ### Where it fails -/

/-- does the run end with the undefined behaviour `u`? -/
def evalUB {α : Type} (x : Run α) (u : UB) : Bool :=
  match x with
  | .ok _ => false
  | .error e => decide (e = u)

theorem error_of_eval {α : Type} {x : Run α} {u : UB} (h : evalUB x u = true) : x = .error u := by
  cases x with
  | ok a => simp [evalUB] at h
  | error e => simp only [evalUB, decide_eq_true_iff] at h; rw [h]

/-- if the search for the best split of the root fails then so does `build`, whatever `std::partition` does -/
theorem build_error_of_split {T P : Type} [Scalar T] (part : StdPartition) (p : Collection T P) (o : BuildOptions)
    (nodes : List (Node T P)) (e : UB) (h1 : o.minLeaf < p.size) (h2 : 0 < o.maxDepth)
    (h : (do let b ← computeBoundingBox p (List.range p.size)
             findBestSplit p (List.range p.size) b.1 b.2 o.binSize) = .error e) :
    build part p o nodes = .error e := by
  obtain ⟨d, hd⟩ : ∃ d, o.maxDepth = d + 1 := ⟨o.maxDepth - 1, by omega⟩
  unfold build
  rw [buildRecursive_eq, hd]
  unfold buildTree
  cases hb : computeBoundingBox p (List.range p.size) with
  | error e' => rw [hb] at h; simpa using h
  | ok b =>
    rw [hb, run_bind_ok] at h
    rw [run_bind_ok]
    simp only
    rw [if_neg (by rw [List.length_range]; omega)]
    simp [h]

/-- `n` spheres of radius `r` at `c` -/
def manySpheres (n : Nat) (c : Vec3 Double) (r : ℚ) : SphereColl Double :=
  ⟨List.replicate n c, List.replicate n (dbl r), List.replicate n (sphereBox c (dbl r))⟩

/-- **C19 is false** for boxes smaller than the normal numbers: with five spheres of radius `2^-1040` at the origin the
collection is well-formed, but `1 / size` overflows to infinity, and the bin coordinate infinity is converted to
`unsigned`: undefined behaviour. -/
theorem C19_tiny_boxes (part : StdPartition) : WellFormed (manySpheres 5 (dvec 0 0 0) (pow2 (-1040))).toCollection ∧
    build part (manySpheres 5 (dvec 0 0 0) (pow2 (-1040))).toCollection .default [] = .error .badCast :=
  ⟨(wellFormed_of_check (lo := 0) (hi := 1) (by decide +kernel)).1,
    build_error_of_split _ _ _ _ _ (by decide) (by decide) (error_of_eval (by decide +kernel))⟩

/-- **C19 is false** for boxes whose size overflows: if the box is `[-2^1023, 2^1023]` along `x` and the center lies on
its upper boundary, the size is infinite, `1 / size` is zero, and the bin coordinate is `inf * 0`, which is NaN. -/
theorem C19_huge_boxes (part : StdPartition) :
    WellFormed (SphereColl.toCollection ⟨List.replicate 5 (dvec (pow2 1023) 0 0), List.replicate 5 (dbl 1),
      List.replicate 5 (dvec (-pow2 1023) 0 0, dvec (pow2 1023) 0 0)⟩) ∧
    build part (SphereColl.toCollection ⟨List.replicate 5 (dvec (pow2 1023) 0 0), List.replicate 5 (dbl 1),
      List.replicate 5 (dvec (-pow2 1023) 0 0, dvec (pow2 1023) 0 0)⟩) .default [] = .error .badCast :=
  ⟨(wellFormed_of_check (lo := 0) (hi := pow2 1025) (by decide +kernel)).1,
    build_error_of_split _ _ _ _ _ (by decide) (by decide) (error_of_eval (by decide +kernel))⟩

/-- With `bin_size = 0` the first bin access is out of bounds. -/
theorem C19_zero_bins (part : StdPartition) :
    build part sampleSpheres.toCollection ⟨1, 28, 0⟩ [] = .error .oobBin :=
  build_error_of_split _ _ _ _ _ (by decide) (by decide) (error_of_eval (by decide +kernel))

/-- Spheres of negative radius have empty boxes, which do not contain the center: `C19` does not apply, and the cast of
the negative bin coordinate is undefined. -/
theorem C19_negative_radius (part : StdPartition) :
    build part (SphereColl.toCollection ⟨dvec (-10) 0 0 :: List.replicate 4 (dvec 0 0 0),
      dbl (-2) :: List.replicate 4 (dbl (1/2)),
      sphereBox (dvec (-10) 0 0) (dbl (-2)) :: List.replicate 4 (sphereBox (dvec 0 0 0) (dbl (1/2)))⟩) .default [] = .error .badCast :=
  build_error_of_split _ _ _ _ _ (by decide) (by decide) (error_of_eval (by decide +kernel))

end Blazert
