/- The casts of the binning are defined for well-formed collections. -/
import Verif.Proofs.Gradual
import Verif.Spec.Collections

set_option autoImplicit false
set_option linter.unusedSectionVars false

namespace Blazert
open Scalar

section
variable {K : Type} [Field K] [LinearOrder K] [IsStrictOrderedRing K] [FloorRing K] {F : Fmt K} {P : Type}

theorem XF.between_is {x y z : XF F} {a b : K} (hx : x.Is a) (hy : y.Is b) (h1 : le x z = true) (h2 : le z y = true) :
    ∃ c, z.Is c ∧ a ≤ c ∧ c ≤ b := by
  obtain ⟨s, rfl⟩ := hx
  obtain ⟨t, rfl⟩ := hy
  cases z with
  | fin c r => exact ⟨c, ⟨_, rfl⟩, of_decide_eq_true h1, of_decide_eq_true h2⟩
  | inf r => cases r <;> simp [le, XF.le] at h1 h2
  | nan => simp [le, XF.le] at h1

theorem InRange.is {x : XF F} (h : x.InRange) : ∃ v, x.Is v := by
  obtain ⟨v, s, h, -⟩ := h
  exact ⟨v, s, h⟩

theorem binCoord_get (size : Nat) (mn mx c : Vec3 (XF F)) (j : Fin 3) :
    (binCoord size mn (invSize mn mx) c).get j =
      (c.get j - mn.get j) * (if lt (nat 0) (mx.get j - mn.get j) then (nat 1 : XF F) / (mx.get j - mn.get j) else nat 0) *
        nat (lastBin size) := by
  match j with
  | 0 => rfl
  | 1 => rfl
  | 2 => rfl

/-- the union box of the primitives `idx` in terms of one lower and one upper coordinate -/
theorem union_axis (p : Collection (XF F) P) (wf : WellFormed p) (idx : List Nat) (hne : idx ≠ [])
    (hidx : ∀ i ∈ idx, i < p.size) (mn mx : Vec3 (XF F)) (h : computeBoundingBox p idx = .ok (mn, mx))
    (i : Nat) (hi : i ∈ idx) (c : Vec3 (XF F)) (hc : p.center i = .ok c) (j : Fin 3) :
    ∃ x y v, (mn.get j).Is x ∧ (mx.get j).Is y ∧ (c.get j).Is v ∧ x ≤ v ∧ v ≤ y ∧
      (∃ i1 i2 b1 b2, i1 < p.size ∧ i2 < p.size ∧ p.box i1 = .ok b1 ∧ p.box i2 = .ok b2 ∧ b1.1.get j = mn.get j ∧
        b2.2.get j = mx.get j) := by
  obtain ⟨bs, hbs, -, -, hspec⟩ := computeBoundingBox_spec p idx (fun i hi b hb => wf.range i (hidx i hi) b hb) _ h
  obtain ⟨hr, hcont, htight⟩ := hspec hne
  obtain ⟨x, hx⟩ := InRange.is (hr j).1
  obtain ⟨y, hy⟩ := InRange.is (hr j).2
  obtain ⟨b, hb⟩ := mapM_mem_of_in hbs hi
  obtain ⟨⟨b1, hb1, e1⟩, ⟨b2, hb2, e2⟩⟩ := htight j
  obtain ⟨i1, hi1, hib1⟩ := mapM_mem_of_out hbs hb1
  obtain ⟨i2, hi2, hib2⟩ := mapM_mem_of_out hbs hb2
  have hrange := wf.range i (hidx i hi) b hb.2
  obtain ⟨bx, hbx⟩ := InRange.is (hrange j).1
  obtain ⟨bY, hbY⟩ := InRange.is (hrange j).2
  obtain ⟨c1, c2⟩ := wf.center i (hidx i hi) b c hb.2 hc j
  obtain ⟨v, hv, hv1, hv2⟩ := XF.between_is hbx hbY c1 c2
  obtain ⟨k1, k2⟩ := hcont b hb.1 j
  have q1 := (XF.Is.le hx hbx).1 k1
  have q2 := (XF.Is.le hbY hy).1 k2
  exact ⟨x, y, v, hx, hy, hv, q1.trans hv1, hv2.trans q2, i1, i2, b1, b2, hidx _ hi1, hidx _ hi2, hib1, hib2, e1, e2⟩

theorem castsDefined_of_gradual {u η lo hi : K} (hF : F.Gradual u η hi) (hn : Fine u η lo hi) (p : Collection (XF F) P)
    (wf : WellFormed p) (hsp : Spread lo hi p) (size : Nat) (h1 : 1 ≤ size) (h2 : size ≤ 2 ^ 29) : CastsDefined p size := by
  intro idx hne hidx mn mx h i hi c hc j
  obtain ⟨x, y, v, hx, hy, hv, q1, q2, i1, i2, b1, b2, hi1, hi2, hb1, hb2, e1, e2⟩ :=
    union_axis p wf idx hne hidx mn mx h i hi c hc j
  rw [binCoord_get]
  refine bin_coord_axis hF hn hx hy hv q1 q2 ?_ _ (by rw [lastBin_pos h1]; omega)
  rcases hsp i1 i2 hi1 hi2 b1 b2 hb1 hb2 j x y (by rw [e1]; exact hx) (by rw [e2]; exact hy) with h | h
  · left; linarith
  · exact .inr h

end

theorem Fmt.Exact.gradual {F : Fmt ℝ} (hF : F.Exact) (hi : ℝ) : F.Gradual 0 0 hi :=
  ⟨fun r _ => ⟨r, hF.post r, by simp, id⟩, hF.post 0⟩

theorem castsDefined_of_exact {F : Fmt ℝ} (hF : F.Exact) {P : Type} (p : Collection (XF F) P)
    (wf : WellFormed p) (size : Nat) (h1 : 1 ≤ size) (h2 : size ≤ 2 ^ 29) : CastsDefined p size := by
  intro idx hne hidx mn mx h i hi c hc j
  obtain ⟨x, y, v, hx, hy, hv, q1, q2, -⟩ := union_axis p wf idx hne hidx mn mx h i hi c hc j
  rw [binCoord_get]
  by_cases hxy : y - x = 0
  · have hfine : Fine (0 : ℝ) 0 1 (2 ^ 33) := by constructor <;> norm_num
    exact bin_coord_axis (hF.gradual _) hfine hx hy hv q1 q2 (.inl hxy) _ (by rw [lastBin_pos h1]; omega)
  · have hpos : 0 < y - x := lt_of_le_of_ne (by linarith) (Ne.symm hxy)
    set s := y - x
    have hfine : Fine (0 : ℝ) 0 s (Max.max s (Max.max (2 / s) (2 ^ 33))) := by
      constructor
      · norm_num
      · norm_num
      · norm_num
      · norm_num
      · linarith
      · norm_num
      · exact hpos
      · calc (2 : ℝ) = s * (2 / s) := by field_simp
          _ ≤ _ := mul_le_mul_of_nonneg_left ((le_max_left _ _).trans (le_max_right _ _)) hpos.le
      · exact (le_max_right _ _).trans (le_max_right _ _)
    exact bin_coord_axis (hF.gradual _) hfine hx hy hv q1 q2 (.inr ⟨le_rfl, le_max_left _ _⟩) _
      (by rw [lastBin_pos h1]; omega)

end Blazert
