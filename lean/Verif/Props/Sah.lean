/-
C70: the cut that `find_best_split_binned` returns is the cheapest of all.
C71: is the split that is made the one whose cost was computed?
-/
import Verif.Proofs.Sah
import Verif.Model.Sphere
import Verif.Samples
import Verif.SamplesReal
import Mathlib.Tactic.FieldSimp
import Mathlib.Tactic.Linarith
import Mathlib.Tactic.Positivity

set_option autoImplicit false

namespace Blazert
open Scalar

section
variable {K : Type} [Field K] [LinearOrder K] [IsStrictOrderedRing K] [FloorRing K]

/-- **C70** For any format in which the extent of the largest box overflows, with all roundings: the primitives `idx`, with
finite boxes `box`, have bins `slot j` on each axis `j` (center relative to the box of the node, rounded).  If some cut before
a bin `k` leaves primitives on both sides and costs less than `max()`, then `find_best_split_binned` returns an axis and the
position of a cut on this axis which leaves primitives on both sides, and no such cut on any axis costs less.  The cost is
the number of primitives times the surface area of their hull, summed over the two sides. -/
theorem C70_cheapest_cut (F : Fmt K) (hF : F.Overflows) {P : Type} (p : Collection (XF F) P) (idx : List Nat)
    (mn mx : Vec3 (XF F)) (size : Nat) (hsize : 1 ≤ size) (box : Nat → Vec3 K × Vec3 K) (ctr : Nat → Vec3 (XF F))
    (hbox : ∀ i ∈ idx, ∃ b, p.box i = .ok b ∧ IsV b.1 (box i).1 ∧ IsV b.2 (box i).2)
    (hrange : ∀ i ∈ idx, ∀ a, (box i).1.get a ≤ F.maxVal ∧ -F.maxVal ≤ (box i).2.get a)
    (hctr : ∀ i ∈ idx, p.center i = .ok (ctr i)) (axis : Fin 3) (cut : Vec3 (XF F))
    (h : findBestSplit p idx mn mx size = .ok (axis, cut)) :
    ∃ slot : Fin 3 → Nat → Nat,
      (∀ j, ∀ i ∈ idx, IsSlot F (mn.get j) (mx.get j) ((ctr i).get j) size (slot j i)) ∧
      ((∃ j k c, 1 ≤ k ∧ k < size ∧ lt c maxVal = true ∧
          SahCost F box (idx.filter fun i => slot j i < k) (idx.filter fun i => k ≤ slot j i) c) →
        ∃ k c, 1 ≤ k ∧ k < size ∧ cut.get axis = nat k * ((mx.get axis - mn.get axis) / nat size) + mn.get axis ∧
          SahCost F box (idx.filter fun i => slot axis i < k) (idx.filter fun i => k ≤ slot axis i) c ∧
          ∀ j k' c', 1 ≤ k' → k' < size →
            SahCost F box (idx.filter fun i => slot j i < k') (idx.filter fun i => k' ≤ slot j i) c' →
            lt c' c = false) := by
  obtain ⟨slot, h1, c, k, h2, h3, h4⟩ := findBestSplit_best hF hsize
    (fun i hi => ⟨hbox i hi, fun k hk => by rw [List.mem_singleton.1 hk]; exact hrange i hi, hctr i hi⟩) h
  refine ⟨slot, h1, fun ⟨j, k', c', a1, a2, a3, a4⟩ => ?_⟩
  rcases h3 with ⟨rfl, -⟩ | ⟨b1, b2, -, b4⟩
  · rw [h2 j k' c' a1 a2 a4] at a3
    cases a3
  · exact ⟨k, c, b1, b2, h4, b4, h2⟩

end

/-- `double` and `float` are such formats. -/
theorem overflows_double : Format.binary64.Overflows :=
  ⟨by decide +kernel, ⟨2, by decide +kernel, by decide +kernel⟩, by decide +kernel, by decide +kernel⟩

theorem overflows_float : Format.binary32.Overflows :=
  ⟨by decide +kernel, ⟨2, by decide +kernel, by decide +kernel⟩, by decide +kernel, by decide +kernel⟩

/-! ### Example and counterexample -/

/-- four tiny spheres in front of the center of a large one, and a second large one -/
def unevenSpheres : SphereColl Double where
  centers := [dvec (49/16) 0 0, dvec (49/16) 0 0, dvec (49/16) 0 0, dvec (49/16) 0 0, dvec (51/16) 0 0, dvec 12 0 0]
  radii := [dbl (1/16), dbl (1/32), dbl (1/64), dbl (1/128), dbl (51/16), dbl 4]
  boxes := [sphereBox (dvec (49/16) 0 0) (dbl (1/16)), sphereBox (dvec (49/16) 0 0) (dbl (1/32)),
    sphereBox (dvec (49/16) 0 0) (dbl (1/64)), sphereBox (dvec (49/16) 0 0) (dbl (1/128)),
    sphereBox (dvec (51/16) 0 0) (dbl (51/16)), sphereBox (dvec 12 0 0) (dbl 4)]

/-- the boxes of these spheres -/
def unevenBox (i : Nat) : Vec3 ℚ × Vec3 ℚ :=
  let c : ℚ := if i < 4 then 49/16 else if i = 4 then 51/16 else 12
  let r : ℚ := if i < 4 then 1 / 2 ^ (i + 4) else if i = 4 then 51/16 else 4
  (⟨c - r, -r, -r⟩, ⟨c + r, r, r⟩)

theorem uneven_hull (l : List Nat) (lo hi : Vec3 ℚ) (h : ∀ a : Fin 3,
    ((∀ i ∈ l, lo.get a ≤ (unevenBox i).1.get a) ∧ ∃ i ∈ l, (unevenBox i).1.get a = lo.get a) ∧
      ((∀ i ∈ l, (unevenBox i).2.get a ≤ hi.get a) ∧ ∃ i ∈ l, (unevenBox i).2.get a = hi.get a)) :
    IsHull unevenBox l lo hi := h

theorem uneven_good : SahCost Format.binary64 unevenBox [0, 1, 2, 3] [4, 5] (dbl (10243/8)) :=
  ⟨⟨3, -1/16, -1/16⟩, ⟨25/8, 1/16, 1/16⟩, ⟨0, -4, -4⟩, ⟨16, 4, 4⟩, uneven_hull _ _ _ (by decide +kernel),
    uneven_hull _ _ _ (by decide +kernel), by decide +kernel⟩

theorem uneven_bad : SahCost Format.binary64 unevenBox [0, 1, 2, 3, 4] [5] (dbl (51303/32)) :=
  ⟨⟨0, -51/16, -51/16⟩, ⟨51/8, 51/16, 51/16⟩, ⟨8, -4, -4⟩, ⟨16, 4, 4⟩, uneven_hull _ _ _ (by decide +kernel),
    uneven_hull _ _ _ (by decide +kernel), by decide +kernel⟩

/-- `unevenBox` are the boxes of the spheres. -/
theorem uneven_box : ∀ i ∈ List.range 6, ∃ b, unevenSpheres.toCollection.box i = .ok b ∧ IsV b.1 (unevenBox i).1 ∧
    IsV b.2 (unevenBox i).2 := by
  have key : ∀ i ∈ List.range 6, ∃ s ∈ [false, true], ∃ t ∈ [false, true], unevenSpheres.toCollection.box i =
      .ok (⟨.fin (unevenBox i).1.x s, .fin (unevenBox i).1.y true, .fin (unevenBox i).1.z true⟩,
        ⟨.fin (unevenBox i).2.x t, .fin (unevenBox i).2.y false, .fin (unevenBox i).2.z false⟩) := by decide +kernel
  intro i hi
  obtain ⟨s, -, t, -, h⟩ := key i hi
  exact ⟨_, h, ⟨⟨_, rfl⟩, ⟨_, rfl⟩, ⟨_, rfl⟩⟩, ⟨_, rfl⟩, ⟨_, rfl⟩, ⟨_, rfl⟩⟩

/-- the cut returned for these spheres, with the default number of bins -/
theorem uneven_cut : findBestSplit unevenSpheres.toCollection (List.range 6) (dvec 0 (-4) (-4)) (dvec 16 4 4) 64 =
    .ok (0, dvec (13/4) (-31/8) (-31/8)) := by decide +kernel

/-- the bins of the spheres on the first axis -/
theorem uneven_slots : ∀ i ∈ List.range 6, IsSlot Format.binary64 (dbl 0) (dbl 16)
    ((unevenSpheres.centers.getD i (dvec 0 0 0)).get 0) 64 (if i < 4 then 12 else if i = 4 then 13 else 47) := by
  have key : ∀ i ∈ List.range 6, Scalar.roundU ((((unevenSpheres.centers.getD i (dvec 0 0 0)).get 0) - dbl 0) *
      (if Scalar.lt (Scalar.nat 0) (dbl 16 - dbl 0) then Scalar.nat 1 / (dbl 16 - dbl 0) else Scalar.nat 0) *
      Scalar.nat (64 - 1)) = some (if i < 4 then 12 else if i = 4 then 13 else 47) := by decide +kernel
  intro i hi
  refine ⟨_, key i hi, ?_⟩
  split
  · rfl
  · split <;> rfl

/-- The hypotheses of C70 are met by these spheres; whatever the bins on the other axes, the cut returned is at least as good as
the one that separates the tiny spheres from the others. -/
example : ∃ slot : Fin 3 → Nat → Nat, ∃ k c, 1 ≤ k ∧ k < 64 ∧
    SahCost Format.binary64 unevenBox ((List.range 6).filter fun i => slot 0 i < k)
      ((List.range 6).filter fun i => k ≤ slot 0 i) c ∧ lt (dbl (10243/8)) c = false := by
  obtain ⟨slot, h1, h2⟩ := C70_cheapest_cut Format.binary64 overflows_double unevenSpheres.toCollection (List.range 6)
    (dvec 0 (-4) (-4)) (dvec 16 4 4) 64 (by decide) unevenBox (fun i => unevenSpheres.centers.getD i (dvec 0 0 0)) uneven_box
    (by decide +kernel) (by decide +kernel) 0 _ uneven_cut
  have hs : ∀ i ∈ List.range 6, slot 0 i = if i < 4 then 12 else if i = 4 then 13 else 47 := by
    intro i hi
    obtain ⟨q, k1, k2⟩ := h1 0 i hi
    obtain ⟨q', k3, k4⟩ := uneven_slots i hi
    have e : some q = some q' := k1.symm.trans k3
    cases e
    exact k2.trans k4.symm
  have e1 : ((List.range 6).filter fun i => slot 0 i < 13) = [0, 1, 2, 3] := by
    have : ((List.range 6).filter fun i => slot 0 i < 13) =
        (List.range 6).filter fun i => (if i < 4 then 12 else if i = 4 then 13 else 47) < 13 := by
      refine List.filter_congr fun i hi => ?_
      rw [hs i hi]
    rw [this]
    decide
  have e2 : ((List.range 6).filter fun i => 13 ≤ slot 0 i) = [4, 5] := by
    have : ((List.range 6).filter fun i => 13 ≤ slot 0 i) =
        (List.range 6).filter fun i => 13 ≤ (if i < 4 then 12 else if i = 4 then 13 else 47) := by
      refine List.filter_congr fun i hi => ?_
      rw [hs i hi]
    rw [this]
    decide
  obtain ⟨k, c, g1, g2, -, g3, g4⟩ := h2 ⟨0, 13, dbl (10243/8), by decide, by decide, by decide +kernel, by
    rw [e1, e2]; exact uneven_good⟩
  exact ⟨slot, k, c, g1, g2, g3, g4 0 13 _ (by decide) (by decide) (by rw [e1, e2]; exact uneven_good)⟩

/-- **C71 is false.**  In double arithmetic, with the default number of bins: the cut returned for the six spheres is the one
before bin 13, which separates the four tiny spheres (bin 12) from the large ones (bins 13 and 47) at a cost of 10243/8.  The
split made at this position keeps the tiny spheres together with a large one, at a cost of 51303/32. -/
theorem C71_other_split_is_made : ∃ (coll : SphereColl Double) (box : Nat → Vec3 ℚ × Vec3 ℚ) (mn mx cut : Vec3 Double)
    (stats : Statistics) (c c' : Double),
    computeBoundingBox coll.toCollection (List.range 6) = .ok (mn, mx) ∧
    findBestSplit coll.toCollection (List.range 6) mn mx 64 = .ok (0, cut) ∧
    cut.get 0 = nat 13 * ((mx.get 0 - mn.get 0) / nat 64) + mn.get 0 ∧
    (∀ i ∈ List.range 6, ∃ center, coll.toCollection.center i = .ok center ∧
      IsSlot Format.binary64 (mn.get 0) (mx.get 0) (center.get 0) 64 (if i < 4 then 12 else if i = 4 then 13 else 47)) ∧
    split stablePartition coll.toCollection (List.range 6) mn mx Statistics.init BuildOptions.default =
      .ok (0, [0, 1, 2, 3, 4], [5], stats) ∧
    (∀ i ∈ List.range 6, ∃ b, coll.toCollection.box i = .ok b ∧ IsV b.1 (box i).1 ∧ IsV b.2 (box i).2) ∧
    SahCost Format.binary64 box [0, 1, 2, 3] [4, 5] c ∧ SahCost Format.binary64 box [0, 1, 2, 3, 4] [5] c' ∧
    lt c c' = true := by
  refine ⟨unevenSpheres, unevenBox, dvec 0 (-4) (-4), dvec 16 4 4, dvec (13/4) (-31/8) (-31/8), Statistics.init,
    dbl (10243/8), dbl (51303/32), by decide +kernel, uneven_cut, by decide +kernel, ?_, ?_, uneven_box, uneven_good, uneven_bad,
    by decide +kernel⟩
  · have key : ∀ i ∈ List.range 6, unevenSpheres.toCollection.center i =
        .ok (unevenSpheres.centers.getD i (dvec 0 0 0)) := by decide +kernel
    exact fun i hi => ⟨_, key i hi, uneven_slots i hi⟩
  · unfold split
    change (findBestSplit unevenSpheres.toCollection (List.range 6) (dvec 0 (-4) (-4)) (dvec 16 4 4) 64 >>= _) = _
    rw [uneven_cut]
    decide +kernel

/-- **C71**, what holds in exact real arithmetic: let `k` be the bin before which the cut was found, of `size` bins.  A
primitive is put on the side on which its bin was counted, unless its bin is `k` (if `2 k < size`) or `k - 1`
(if `2 k > size`).  If `2 k = size` the split made is the one whose cost was computed. -/
theorem C71_split_partial (F : Fmt ℝ) (hF : F.Exact) (mn mx c : XF F) (a b x : ℝ) (hmn : mn.Is a) (hmx : mx.Is b) (hc : c.Is x)
    (hab : a < b) (hax : a ≤ x) (hxb : x ≤ b) (size slot k : Nat) (hslot : IsSlot F mn mx c size slot) (hk : 1 ≤ k)
    (hks : k < size) (cut : XF F) (hcut : cut = nat k * ((mx - mn) / nat size) + mn) :
    (slot < k → slot + 1 < k ∨ 2 * k ≤ size → lt c cut = true) ∧
    (k ≤ slot → k < slot ∨ size ≤ 2 * k → lt c cut = false) := by
  obtain ⟨q, h1, rfl⟩ := hslot
  have hba : 0 < b - a := by linarith
  have hs0 : (0 : ℝ) < size := by exact_mod_cast (by omega : 0 < size)
  have e1 : lt (nat 0) (mx - mn) = true := ((XF.Is.zero hF).lt (hmx.sub hF hmn)).2 hba
  rw [if_pos e1] at h1
  have hv : ((c - mn) * (nat 1 / (mx - mn)) * nat (size - 1)).Is ((x - a) * (1 / (b - a)) * ((size - 1 : ℕ) : ℝ)) :=
    ((hc.sub hF hmn).mul hF ((XF.Is.one hF).div hF (hmx.sub hF hmn) hba.ne')).mul hF (XF.Is.nat hF _)
  have hs1 : ((size - 1 : ℕ) : ℝ) = size - 1 := by rw [Nat.cast_sub (by omega)]; simp
  rw [hs1] at hv
  generalize hV : (x - a) * (1 / (b - a)) * ((size : ℝ) - 1) = v at hv
  have ht0 : 0 ≤ (x - a) * (1 / (b - a)) := mul_nonneg (by linarith) (by positivity)
  have ht1 : (x - a) * (1 / (b - a)) ≤ 1 := by
    rw [mul_one_div, div_le_one hba]
    linarith
  have hs2 : (1 : ℝ) ≤ size := by exact_mod_cast (by omega : 1 ≤ size)
  have hv0 : 0 ≤ v := by rw [← hV]; exact mul_nonneg ht0 (by linarith)
  have hv1 : v ≤ size - 1 := by
    rw [← hV]
    exact mul_le_of_le_one_left (by linarith) ht1
  obtain ⟨s, hs⟩ := hv
  rw [hs] at h1
  change XF.roundU _ = _ at h1
  unfold XF.roundU at h1
  simp only at h1
  rw [if_neg (by linarith)] at h1
  split at h1
  swap
  · cases h1
  cases h1
  have hfl : 0 ≤ ⌊v + 1 / 2⌋ := Int.floor_nonneg.2 (by linarith)
  obtain ⟨q, hq⟩ := Int.eq_ofNat_of_zero_le hfl
  have hq1 : (q : ℝ) ≤ v + 1 / 2 := by
    have := Int.floor_le (v + 1 / 2)
    rw [hq] at this
    exact_mod_cast this
  have hq2 : v + 1 / 2 < q + 1 := by
    have := Int.lt_floor_add_one (v + 1 / 2)
    rw [hq] at this
    exact_mod_cast this
  rw [hq, Int.toNat_natCast]
  have hqs : q ≤ size - 1 := by
    have : (q : ℝ) < size := by linarith
    have : q < size := by exact_mod_cast this
    omega
  rw [Nat.min_eq_right hqs]
  have hcutI : cut.Is (k * ((b - a) / size) + a) := by
    rw [hcut]
    exact ((XF.Is.nat hF k).mul hF ((hmx.sub hF hmn).div hF (XF.Is.nat hF _) hs0.ne')).add hF hmn
  have hiff : lt c cut = true ↔ v < k - k / size := by
    rw [hc.lt hcutI]
    have hx : x - a = v / (size - 1) * (b - a) := by
      have hs3 : (0 : ℝ) < size - 1 := by
        have : (2 : ℝ) ≤ size := by exact_mod_cast (by omega : 2 ≤ size)
        linarith
      rw [← hV]
      field_simp
    have hs3 : (0 : ℝ) < size - 1 := by
      have : (2 : ℝ) ≤ size := by exact_mod_cast (by omega : 2 ≤ size)
      linarith
    have e3 : x < k * ((b - a) / size) + a ↔ v / (size - 1) * (b - a) < k / size * (b - a) := by
      rw [← hx]
      have : (k : ℝ) * ((b - a) / size) = k / size * (b - a) := by ring
      rw [this]
      constructor <;> intro h <;> linarith
    rw [e3, mul_lt_mul_iff_left₀ hba, div_lt_iff₀ hs3]
    have : (k : ℝ) / size * (size - 1) = k - k / size := by field_simp
    rw [this]
  have hk1 : (k : ℝ) / size < 1 := by
    rw [div_lt_one hs0]
    exact_mod_cast hks
  have hk0 : (0 : ℝ) ≤ k / size := by positivity
  constructor
  · intro hlt hor
    rw [hiff]
    rcases hor with h2 | h2
    · have : (q : ℝ) + 2 ≤ k := by exact_mod_cast (by omega : q + 2 ≤ k)
      linarith
    · have h3 : (q : ℝ) + 1 ≤ k := by exact_mod_cast (by omega : q + 1 ≤ k)
      have h4 : (k : ℝ) / size ≤ 1 / 2 := by
        rw [div_le_div_iff₀ hs0 (by norm_num)]
        have : 2 * (k : ℝ) ≤ size := by exact_mod_cast h2
        linarith
      linarith
  · intro hle hor
    rw [Bool.eq_false_iff, ne_eq, hiff, not_lt]
    rcases hor with h2 | h2
    · have : (k : ℝ) + 1 ≤ q := by exact_mod_cast h2
      linarith
    · have h3 : (k : ℝ) ≤ q := by exact_mod_cast hle
      have h4 : 1 / 2 ≤ (k : ℝ) / size := by
        rw [div_le_div_iff₀ (by norm_num) hs0]
        have : (size : ℝ) ≤ 2 * k := by exact_mod_cast h2
        linarith
      linarith

/-- C71, an instance: 64 bins, cut before bin 32, a center in bin 31. -/
example : lt (rl 31 : XF exactFmt) (nat 32 * ((rl 63 - rl 0) / nat 64) + rl 0) = true := by
  have h0 : (rl 0 : XF exactFmt).Is 0 := rl_is 0
  have h1 : (rl 63 : XF exactFmt).Is 63 := rl_is 63
  have h2 : (rl 31 : XF exactFmt).Is 31 := rl_is 31
  have hv := ((h2.sub exactFmt_exact h0).mul exactFmt_exact ((XF.Is.one exactFmt_exact).div exactFmt_exact
    (h1.sub exactFmt_exact h0) (by norm_num))).mul exactFmt_exact (XF.Is.nat exactFmt_exact 63)
  have e : (31 - 0) * (1 / (63 - 0)) * ((63 : ℕ) : ℝ) = 31 := by norm_num
  rw [e] at hv
  obtain ⟨s, hs⟩ := hv
  have hslot : IsSlot exactFmt (rl 0) (rl 63) (rl 31) 64 31 := by
    refine ⟨31, ?_, rfl⟩
    rw [if_pos (((XF.Is.zero exactFmt_exact).lt (h1.sub exactFmt_exact h0)).2 (by norm_num)), hs]
    have hf : ⌊(31 : ℝ) + 1 / 2⌋ = 31 := by rw [Int.floor_eq_iff]; norm_num
    change XF.roundU _ = _
    unfold XF.roundU
    simp only
    rw [hf]
    norm_num
    rfl
  exact (C71_split_partial exactFmt exactFmt_exact _ _ _ 0 63 31 h0 h1 h2 (by norm_num) (by norm_num) (by norm_num) 64 31 32
    hslot (by norm_num) (by norm_num) _ rfl).1 (by norm_num) (.inr (by norm_num))

end Blazert
