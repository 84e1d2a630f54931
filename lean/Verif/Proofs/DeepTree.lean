/- A scene whose tree is so deep that the traversal stack overflows.

All boxes in it have an infinite surface, so that every cost is infinite or NaN, no cost is less than the initial value, and the cut
is always made after the first bin.  The centers are arranged such that this cuts off one sphere at a time. -/
import Verif.Proofs.Basic
import Verif.Proofs.Gradual
import Verif.Samples

set_option autoImplicit false

namespace Blazert
open Scalar

/-! ### not negative, or infinite -/

/-- not less than zero: a NaN, infinite or not negative -/
def NotNeg (x : Double) : Prop := x = .nan ∨ x = .inf false ∨ ∃ v s, x = .fin v s ∧ 0 ≤ v
/-- infinite or a NaN -/
def Huge (x : Double) : Prop := x = .nan ∨ x = .inf false

theorem Huge.notNeg {x : Double} (h : Huge x) : NotNeg x := by
  rcases h with rfl | rfl
  · exact .inl rfl
  · exact .inr (.inl rfl)

theorem notNeg_mk (s : Bool) {r : ℚ} (hr : 0 ≤ r) : NotNeg (XF.mk Format.binary64 s r) := by
  unfold XF.mk
  split
  · exact .inr (.inl (by rw [decide_eq_false (not_lt.2 hr)]))
  · rename_i r' h
    refine .inr (.inr ⟨_, _, rfl, ?_⟩)
    rw [show Format.binary64 = Format.binary 53 (-1074) 1023 by with_unfolding_all rfl] at h
    exact roundBinary_nonneg _ _ _ _ _ h hr

theorem notNeg_nat (k : Nat) : NotNeg (nat k : Double) := notNeg_mk _ (by positivity)

theorem notNeg_abs (x : Double) : NotNeg (abs x) := by
  cases x with
  | fin v s => exact .inr (.inr ⟨_, _, rfl, abs_nonneg v⟩)
  | inf s => exact .inr (.inl rfl)
  | nan => exact .inl rfl

theorem sgn_of_pos {v : ℚ} {s : Bool} (h : 0 ≤ v) (h0 : v ≠ 0) : XF.sgn v s = false := by
  unfold XF.sgn
  rw [if_neg h0]; exact decide_eq_false (not_lt.2 h)

theorem NotNeg.mul_huge {x y : Double} (hx : NotNeg x) (hy : Huge y) : Huge (x * y) := by
  rcases hy with rfl | rfl
  · rcases hx with rfl | rfl | ⟨v, s, rfl, hv⟩ <;> exact .inl rfl
  · rcases hx with rfl | rfl | ⟨v, s, rfl, hv⟩
    · exact .inl rfl
    · exact .inr rfl
    · change Huge (if v = 0 then XF.nan else XF.inf (xor (XF.sgn v s) false))
      split
      · exact .inl rfl
      · rename_i h; rw [sgn_of_pos hv h]; exact .inr rfl

theorem Huge.mul {x y : Double} (hx : Huge x) (hy : NotNeg y) : Huge (x * y) := by
  rcases hx with rfl | rfl
  · rcases hy with rfl | rfl | ⟨v, s, rfl, hv⟩ <;> exact .inl rfl
  · rcases hy with rfl | rfl | ⟨v, s, rfl, hv⟩
    · exact .inl rfl
    · exact .inr rfl
    · change Huge (if v = 0 then XF.nan else XF.inf (xor false (XF.sgn v s)))
      split
      · exact .inl rfl
      · rename_i h; rw [sgn_of_pos hv h]; exact .inr rfl

theorem NotNeg.mul {x y : Double} (hx : NotNeg x) (hy : NotNeg y) : NotNeg (x * y) := by
  rcases hy with rfl | rfl | ⟨w, t, rfl, hw⟩
  · exact (hx.mul_huge (.inl rfl)).notNeg
  · exact (hx.mul_huge (.inr rfl)).notNeg
  · rcases hx with rfl | rfl | ⟨v, s, rfl, hv⟩
    · exact .inl rfl
    · exact (Huge.mul (.inr rfl) (.inr (.inr ⟨w, t, rfl, hw⟩))).notNeg
    · exact notNeg_mk _ (mul_nonneg hv hw)

/-- an infinite sum stays infinite (or becomes NaN), whatever is added -/
theorem Huge.add {x : Double} (hx : Huge x) (y : Double) : Huge (x + y) := by
  rcases hx with rfl | rfl
  · cases y <;> exact .inl rfl
  · cases y with
    | fin v s => exact .inr rfl
    | inf s =>
      change Huge (if false = s then XF.inf false else XF.nan)
      split
      · exact .inr rfl
      · exact .inl rfl
    | nan => exact .inl rfl

theorem Huge.add_left {x y : Double} (hx : NotNeg x) (hy : Huge y) : Huge (x + y) := by
  rcases hy with rfl | rfl <;> rcases hx with rfl | rfl | ⟨v, s, rfl, hv⟩ <;> first | exact .inl rfl | exact .inr rfl

theorem Huge.not_lt {x : Double} (hx : Huge x) : lt x (maxVal : Double) = false := by
  rcases hx with rfl | rfl <;> rfl

/-! ### boxes with an infinite surface -/

/-- nothing yet, or wide in y and z direction -/
def WideBox (mn mx : Vec3 Double) : Prop :=
  (mn.y = maxVal ∧ mx.y = -maxVal ∧ mn.z = maxVal ∧ mx.z = -maxVal) ∨
  (mn.y = dbl (-2 ^ 520) ∧ mx.y = dbl (2 ^ 520) ∧ mn.z = dbl (-2 ^ 520) ∧ mx.z = dbl (2 ^ 520))

theorem WideBox.empty : WideBox (Vec3.const maxVal) (Vec3.const (-maxVal)) := .inl ⟨rfl, rfl, rfl, rfl⟩

theorem WideBox.unity {a b c d : Vec3 Double} (h1 : WideBox a b) (h2 : WideBox c d) :
    WideBox (unity a b c d).1 (unity a b c d).2 := by
  have e : ∀ x y : Vec3 Double, ∀ f : Double → Double → Double,
      (Vec3.ofFn fun k => f (x.get k) (y.get k)).y = f x.y y.y ∧ (Vec3.ofFn fun k => f (x.get k) (y.get k)).z = f x.z y.z :=
    fun _ _ _ => ⟨rfl, rfl⟩
  unfold WideBox Blazert.unity
  simp only
  rw [(e c a Scalar.min).1, (e c a Scalar.min).2, (e d b Scalar.max).1, (e d b Scalar.max).2]
  rcases h1 with ⟨p1, p2, p3, p4⟩ | ⟨p1, p2, p3, p4⟩ <;> rcases h2 with ⟨q1, q2, q3, q4⟩ | ⟨q1, q2, q3, q4⟩ <;>
    rw [p1, p2, p3, p4, q1, q2, q3, q4]
  · left; decide +kernel
  · right; decide +kernel
  · right; decide +kernel
  · right; decide +kernel

theorem WideBox.surface {mn mx : Vec3 Double} (h : WideBox mn mx) : Huge (boxSurface mn mx) := by
  have hyz : Huge (abs (mx.y - mn.y) * abs (mx.z - mn.z)) := by
    rcases h with ⟨p1, p2, p3, p4⟩ | ⟨p1, p2, p3, p4⟩ <;> rw [p1, p2, p3, p4] <;> right <;> decide +kernel
  refine (notNeg_nat 2).mul_huge (Huge.add (Huge.add_left ?_ hyz) _)
  exact (notNeg_abs _).mul (notNeg_abs _)

/-- all bins hold wide boxes -/
def WideBins (bins : List (Bin Double)) : Prop := ∀ b ∈ bins, WideBox b.min b.max

theorem WideBins.set {bins : List (Bin Double)} (h : WideBins bins) {b : Bin Double} (hb : WideBox b.min b.max) (i : Nat) :
    WideBins (bins.set i b) := by
  intro x hx
  rcases List.mem_or_eq_of_mem_set hx with k | rfl
  · exact h x k
  · exact hb

section
variable {P : Type} (p : Collection Double P) (hp : ∀ i b, p.box i = .ok b → WideBox b.1 b.2)
include hp

theorem binPrimitive_wide {size : Nat} {mn inv : Vec3 Double} {bins bins' : List (Bin Double)} {i : Nat}
    (h : binPrimitive p size mn inv bins i = .ok bins') (hb : WideBins bins) :
    WideBins bins' ∧ bins'.length = bins.length := by
  unfold binPrimitive at h
  obtain ⟨b, h1, h⟩ := run_bind_eq_ok.1 h
  obtain ⟨c, _, h⟩ := run_bind_eq_ok.1 h
  have hbox := hp _ _ h1
  have step : ∀ (x : Double) (k : Nat) (bins bins' : List (Bin Double)),
      (match roundU x with
        | none => (throw UB.badCast : Run (List (Bin Double)))
        | some r => modifyBin bins (k * size + Nat.min (lastBin size) r) fun bin =>
            let u := unity bin.min bin.max b.1 b.2
            { bin with count := bin.count + 1, min := u.1, max := u.2 }) = .ok bins' → WideBins bins →
      WideBins bins' ∧ bins'.length = bins.length := by
    intro x k bins bins' h hb
    split at h
    · simp at h
    · unfold modifyBin at h
      obtain ⟨q, hq, h⟩ := run_bind_eq_ok.1 h
      simp only [run_pure, Except.ok.injEq] at h
      subst h
      refine ⟨hb.set ?_ _, List.length_set⟩
      exact (hb q (List.mem_of_getElem? (lookup_eq_ok.1 hq))).unity hbox
  obtain ⟨b1, k1, h⟩ := run_bind_eq_ok.1 h
  obtain ⟨b2, k2, k3⟩ := run_bind_eq_ok.1 h
  obtain ⟨w1, l1⟩ := step _ _ _ _ k1 hb
  obtain ⟨w2, l2⟩ := step _ _ _ _ k2 w1
  obtain ⟨w3, l3⟩ := step _ _ _ _ k3 w2
  exact ⟨w3, by rw [l3, l2, l1]⟩

theorem sortIntoBins_wide {idx : List Nat} {mn mx : Vec3 Double} {size : Nat} {bins : List (Bin Double)}
    (h : sortIntoBins p idx mn mx size = .ok bins) : WideBins bins ∧ bins.length = 3 * size := by
  have key : ∀ (idx : List Nat) (b0 bins : List (Bin Double)), WideBins b0 →
      (idx.foldlM (init := b0) fun bins i => binPrimitive p size mn (invSize mn mx) bins i) = .ok bins →
      WideBins bins ∧ bins.length = b0.length := by
    intro idx
    induction idx with
    | nil => intro b0 bins h0 h; simp only [List.foldlM_nil, run_pure, Except.ok.injEq] at h; subst h; exact ⟨h0, rfl⟩
    | cons i l ih =>
      intro b0 bins h0 h
      rw [List.foldlM_cons] at h
      obtain ⟨b1, h1, h⟩ := run_bind_eq_ok.1 h
      obtain ⟨w1, l1⟩ := binPrimitive_wide p hp h1 h0
      obtain ⟨w2, l2⟩ := ih b1 bins w1 h
      exact ⟨w2, by rw [l2, l1]⟩
  obtain ⟨h1, h2⟩ := key idx _ bins (by
    intro b hb
    rw [List.eq_of_mem_replicate hb]
    exact WideBox.empty) h
  exact ⟨h1, by rw [h2, List.length_replicate]⟩

end

theorem sweepLeft_wide (j size : Nat) (n : Nat) (s : Sweep Double) (bins : List (Bin Double)) (hb : WideBins bins)
    (hn : j * size + n < bins.length) :
    ∃ bins', sweepLeft j size n s bins = .ok bins' ∧ WideBins bins' ∧ bins'.length = bins.length := by
  induction n generalizing s bins with
  | zero => exact ⟨bins, rfl, hb, rfl⟩
  | succ n ih =>
    have hw := hb _ (List.getElem_mem hn)
    obtain ⟨bins', h1, h2, h3⟩ := ih (s.add bins[j * size + (n + 1)])
      (bins.set (j * size + (n + 1)) { bins[j * size + (n + 1)] with cost := (s.add bins[j * size + (n + 1)]).cost })
      (WideBins.set hb (by exact hw) _) (by rw [List.length_set]; omega)
    refine ⟨bins', ?_, h2, by rw [h3, List.length_set]⟩
    unfold sweepLeft
    rw [lookup_ok_of_lt hn, run_bind_ok]
    exact h1

theorem sweepRight_wide (j size : Nat) (bins : List (Bin Double)) (hb : WideBins bins) (n i : Nat) (s : Sweep Double)
    (hs : WideBox s.min s.max) (b : Nat) (hn : j * size + i + n < bins.length) :
    sweepRight j size bins n i s maxVal b = .ok (maxVal, b) := by
  induction n generalizing i s with
  | zero => rfl
  | succ n ih =>
    unfold sweepRight
    rw [lookup_ok_of_lt (by omega : j * size + i < bins.length), run_bind_ok,
      lookup_ok_of_lt (by omega : j * size + i + 1 < bins.length), run_bind_ok]
    have hw : WideBox (s.add bins[j * size + i]).min (s.add bins[j * size + i]).max := hs.unity (hb _ (List.getElem_mem _))
    have hc : Huge ((s.add bins[j * size + i]).cost + bins[j * size + i + 1].cost) :=
      Huge.add ((notNeg_nat _).mul_huge hw.surface) _
    simp only
    rw [if_neg (by rw [hc.not_lt]; simp)]
    exact ih (i + 1) _ hw (by omega)

theorem bestSplitAxis_wide (mn mx : Vec3 Double) (size : Nat) (hs : 0 < size) (j : Fin 3) (bins : List (Bin Double))
    (hb : WideBins bins) (hl : bins.length = 3 * size) :
    ∃ bins', bestSplitAxis mn mx size j bins =
      .ok (bins', maxVal, nat 1 * ((mx.get j - mn.get j) / nat size) + mn.get j) ∧ WideBins bins' ∧ bins'.length = 3 * size := by
  have hlast : lastBin size = size - 1 := if_neg hs.ne'
  have hj : j.val * size + (size - 1) < 3 * size := by
    have := j.isLt
    have : j.val * size ≤ 2 * size := Nat.mul_le_mul_right _ (by omega)
    omega
  obtain ⟨bins', h1, h2, h3⟩ := sweepLeft_wide j.val size (size - 1) Sweep.init bins hb (by rw [hl]; exact hj)
  refine ⟨bins', ?_, h2, by rw [h3, hl]⟩
  unfold bestSplitAxis
  rw [hlast, h1, run_bind_ok, sweepRight_wide j.val size bins' h2 (size - 1) 0 Sweep.init WideBox.empty 1 (by rw [h3, hl]; omega),
    run_bind_ok]
  rfl

/-- what `findBestSplit` computes for wide boxes -/
def wideSplit {P : Type} (p : Collection Double P) (size : Nat) (idx : List Nat) (mn mx : Vec3 Double) : Run (Fin 3 × Vec3 Double) := do
  let _ ← sortIntoBins p idx mn mx size
  let cut := fun j : Fin 3 => nat 1 * ((mx.get j - mn.get j) / nat size) + mn.get j
  return (0, ⟨cut 0, cut 1, cut 2⟩)

theorem findBestSplit_wide {P : Type} (p : Collection Double P) (hp : ∀ i b, p.box i = .ok b → WideBox b.1 b.2) (size : Nat)
    (hs : 0 < size) (idx : List Nat) (mn mx : Vec3 Double) : findBestSplit p idx mn mx size = wideSplit p size idx mn mx := by
  unfold findBestSplit wideSplit
  cases h : sortIntoBins p idx mn mx size with
  | error e => rfl
  | ok bins =>
    obtain ⟨w0, l0⟩ := sortIntoBins_wide p hp h
    obtain ⟨b1, e1, w1, l1⟩ := bestSplitAxis_wide mn mx size hs 0 bins w0 l0
    obtain ⟨b2, e2, w2, l2⟩ := bestSplitAxis_wide mn mx size hs 1 b1 w1 l1
    obtain ⟨b3, e3, _, _⟩ := bestSplitAxis_wide mn mx size hs 2 b2 w2 l2
    rw [run_bind_ok, e1, run_bind_ok]
    simp only
    rw [e2, run_bind_ok]
    simp only
    rw [e3, run_bind_ok, run_bind_ok]
    simp only
    have : lt (maxVal : Double) maxVal = false := by decide +kernel
    simp only [this, Bool.false_eq_true, if_false]

/-! ### the builder, with another way to find the cut -/

section
variable {T P : Type} [Scalar T]

/-- `buildRecursive`, with the function that finds the cut as a parameter -/
def buildWith (find : List Nat → Vec3 T → Vec3 T → Run (Fin 3 × Vec3 T)) (part : StdPartition) (p : Collection T P) (o : BuildOptions) :
    Nat → Nat → List (Node T P) → List Nat → Statistics → Run (Nat × List (Node T P) × Statistics)
  | fuel, depth, nodes, idx, stats => do
    let offset := nodes.length
    let stats := if stats.maxTreeDepth < depth then { stats with maxTreeDepth := depth } else stats
    let n := idx.length
    let (mn, mx) ← computeBoundingBox p idx
    if n ≤ o.minLeaf ∨ depth ≥ o.maxDepth then
      let leaf ← createLeaf p idx mn mx
      let stats := stats.primitivesPerLeaf n
      return (offset, nodes ++ [leaf], { stats with leafNodes := stats.leafNodes + 1 })
    else
      match fuel with
      | 0 => throw UB.outOfFuel
      | fuel + 1 =>
        let (axis, cut) ← find idx mn mx
        let (axis, l, r, bad) ← splitLoop part p cut 2 axis idx 0
        let stats := { stats with badSplits := stats.badSplits + bad }
        let nodes := nodes ++ [{ min := mn, max := mx, leaf := false, axis := axis.val, child0 := invalidId, child1 := invalidId, prims := [] }]
        let stats := { stats with branchNodes := stats.branchNodes + 1 }
        let (c0, nodes, stats) ← buildWith find part p o fuel (depth + 1) nodes l stats
        let nodes ← modifyNode nodes offset fun nd => { nd with child0 := c0 }
        let (c1, nodes, stats) ← buildWith find part p o fuel (depth + 1) nodes r stats
        let nodes ← modifyNode nodes offset fun nd => { nd with child1 := c1 }
        return (offset, nodes, stats)

theorem buildRecursive_eq_with (part : StdPartition) (p : Collection T P) (o : BuildOptions) (fuel depth : Nat)
    (nodes : List (Node T P)) (idx : List Nat) (stats : Statistics) :
    buildRecursive part p o fuel depth nodes idx stats =
      buildWith (fun idx mn mx => findBestSplit p idx mn mx o.binSize) part p o fuel depth nodes idx stats := by
  induction fuel generalizing depth nodes idx stats with
  | zero => rfl
  | succ fuel ih =>
    unfold buildRecursive buildWith
    refine congrArg _ (funext fun b => ?_)
    simp only
    split
    · rfl
    · unfold createBranch split
      simp only [run_bind_assoc, run_pure, run_bind_ok]
      refine congrArg _ (funext fun f => congrArg _ (funext fun s => ?_))
      rw [ih]
      refine congrArg _ (funext fun r => congrArg _ (funext fun n => ?_))
      rw [ih]

end

/-! ### the scene -/

/-- the centers: `n` points on the x axis, each 128 times farther away than the one before -/
def deepCenters (n : Nat) : List (Vec3 Double) := (List.range n).map fun i => dvec (2 ^ (520 + 7 * i)) 0 0
/-- the radii -/
def deepRadii (n : Nat) : List Double := List.replicate n (dbl (2 ^ 520))

/-- the query, with the cut of `wideSplit` -/
def deepQuery (n : Nat) (ray : Ray Double) (rh : RayHit Double) : Run (Bool × RayHit Double) := do
  let coll ← SphereColl.make (deepCenters n) (deepRadii n)
  let (_, nodes, _) ← buildWith (wideSplit coll.toCollection 64) stablePartition coll.toCollection BuildOptions.default 28 0 []
    (List.range coll.toCollection.size) Statistics.init
  let st ← intersectPart sphereIx false ray (some ⟨coll, nodes, 0⟩) (RayHit.fresh, rh, false)
  return (st.2.2, st.2.1)

theorem deep_boxes (n : Nat) {coll : SphereColl Double} (h : SphereColl.make (deepCenters n) (deepRadii n) = .ok coll) (i : Nat)
    (b : Vec3 Double × Vec3 Double) (hb : coll.toCollection.box i = .ok b) : WideBox b.1 b.2 := by
  unfold SphereColl.make at h
  obtain ⟨boxes, h1, h⟩ := run_bind_eq_ok.1 h
  simp only [run_pure, Except.ok.injEq] at h
  subst h
  have hmem : b ∈ boxes := List.mem_of_getElem? (lookup_eq_ok.1 hb)
  obtain ⟨k, hk⟩ := List.mem_iff_getElem?.1 hmem
  have h2 := mapM_ok_forall₂ _ _ _ h1
  generalize List.range _ = is at h2
  obtain ⟨j, _, hj⟩ : ∃ j, j ∈ is ∧ (do
      let c ← lookup .oobIndex (deepCenters n) j
      let r ← lookup .oobIndex (deepRadii n) j
      return sphereBox c r : Run (Vec3 Double × Vec3 Double)) = .ok b := by
    clear h h1 hb hk
    induction h2 with
    | nil => simp at hmem
    | cons h _ ih =>
      rcases List.mem_cons.1 hmem with rfl | k
      · exact ⟨_, List.mem_cons_self, h⟩
      · obtain ⟨j, j1, j2⟩ := ih k
        exact ⟨j, List.mem_cons_of_mem _ j1, j2⟩
  obtain ⟨c, k1, hj⟩ := run_bind_eq_ok.1 hj
  obtain ⟨r, k2, hj⟩ := run_bind_eq_ok.1 hj
  simp only [run_pure, Except.ok.injEq] at hj
  subst hj
  have hc := List.mem_of_getElem? (lookup_eq_ok.1 k1)
  have hr := List.eq_of_mem_replicate (List.mem_of_getElem? (lookup_eq_ok.1 k2))
  obtain ⟨m, _, rfl⟩ := List.mem_map.1 hc
  subst hr
  right
  exact ⟨show dbl 0 - dbl (2 ^ 520) = _ by decide +kernel, show dbl 0 + dbl (2 ^ 520) = _ by decide +kernel,
    show dbl 0 - dbl (2 ^ 520) = _ by decide +kernel, show dbl 0 + dbl (2 ^ 520) = _ by decide +kernel⟩

theorem query_deep (n : Nat) (ray : Ray Double) (rh : RayHit Double) :
    query stablePartition [.addSpheres (deepCenters n) (deepRadii n), .commit] ray rh = deepQuery n ray rh := by
  unfold query runCalls deepQuery
  simp only [List.foldlM_cons, List.foldlM_nil, Call.exec, Scene.addSpheres, Scene.init, Option.isNone_none, Bool.not_false, Bool.and_self,
    if_true, run_bind_assoc, run_pure, run_bind_ok]
  cases h : SphereColl.make (deepCenters n) (deepRadii n) with
  | error e => rfl
  | ok coll =>
    simp only [run_bind_ok, Scene.commit, commitPart, build, run_bind_assoc, run_pure]
    have hf : (fun idx mn mx => findBestSplit coll.toCollection idx mn mx BuildOptions.default.binSize) = wideSplit coll.toCollection 64 := by
      funext idx mn mx
      exact findBestSplit_wide _ (deep_boxes n h) 64 (by decide) idx mn mx
    rw [buildRecursive_eq_with, hf]
    rfl

end Blazert
