/- The closest point on a triangle: the regions of `closest_point_on_triangle`. -/
import Verif.Proofs.Vector
import Verif.Model.TriMesh

set_option autoImplicit false

namespace Blazert
open Scalar

/-- Optimality conditions for the quadratic `a s² + 2 b s t + c t² + 2 d s + 2 e t` on the parameter triangle, stated at its
three vertices. -/
def Optimal (a b c d e s t : ℝ) : Prop :=
  0 ≤ s ∧ 0 ≤ t ∧ s + t ≤ 1 ∧
  0 ≤ -((a * s + b * t + d) * s) - (b * s + c * t + e) * t ∧
  0 ≤ (a * s + b * t + d) * (1 - s) - (b * s + c * t + e) * t ∧
  0 ≤ -((a * s + b * t + d) * s) + (b * s + c * t + e) * (1 - t)

theorem Optimal.swap {a b c d e s t : ℝ} (h : Optimal c b a e d t s) : Optimal a b c d e s t := by
  obtain ⟨h1, h2, h3, h4, h5, h6⟩ := h
  exact ⟨h2, h1, by linarith, by linarith, by linarith, by linarith⟩

theorem Optimal.le {a b c d e s t : ℝ} (ha : 0 < a) (hdet : 0 < a * c - b * b) (h : Optimal a b c d e s t) {s' t' : ℝ}
    (h1 : 0 ≤ s') (h2 : 0 ≤ t') (h3 : s' + t' ≤ 1) :
    a * s * s + 2 * b * s * t + c * t * t + 2 * d * s + 2 * e * t ≤
      a * s' * s' + 2 * b * s' * t' + c * t' * t' + 2 * d * s' + 2 * e * t' := by
  obtain ⟨-, -, -, h4, h5, h6⟩ := h
  have hq : 0 ≤ a * (s' - s) ^ 2 + 2 * b * (s' - s) * (t' - t) + c * (t' - t) ^ 2 := by
    have : 0 ≤ a * (a * (s' - s) ^ 2 + 2 * b * (s' - s) * (t' - t) + c * (t' - t) ^ 2) := by
      have : a * (a * (s' - s) ^ 2 + 2 * b * (s' - s) * (t' - t) + c * (t' - t) ^ 2) =
        (a * (s' - s) + b * (t' - t)) ^ 2 + (a * c - b * b) * (t' - t) ^ 2 := by ring
      rw [this]; positivity
    exact nonneg_of_mul_nonneg_right this ha
  have := mul_nonneg (sub_nonneg.2 h3) h4
  have := mul_nonneg h1 h5
  have := mul_nonneg h2 h6
  linarith

variable {a b c d e s0 t0 : ℝ}

/-- the edge `s = 0` -/
theorem optimal_edge_s (hd : d = -(a * s0 + b * t0)) (he : e = -(b * s0 + c * t0)) (hc : 0 < c)
    (hdet : 0 < a * c - b * b) (hs : s0 < 0) (ht : 0 ≤ e → 0 ≤ t0 ∨ 0 ≤ d) (hst : s0 + t0 ≤ 1) :
    Optimal a b c d e 0 (if 0 ≤ e then 0 else if c ≤ -e then 1 else -e / c) := by
  have hds := mul_pos_of_neg_of_neg (neg_neg_of_pos hdet) hs
  split
  · rename_i h
    have hd0 : 0 ≤ d := by
      rcases ht h with ht | ht
      · have e1 : c * d = b * e + -(a * c - b * b) * s0 := by rw [hd, he]; ring
        rcases le_or_gt 0 b with hb | hb
        · have := mul_nonneg hb h
          exact nonneg_of_mul_nonneg_right (by linarith : 0 ≤ c * d) hc
        · have := mul_pos_of_neg_of_neg hb hs
          have := mul_nonneg hc.le ht
          linarith
      · exact ht
    exact ⟨le_rfl, le_rfl, by norm_num, by norm_num, by linarith, by linarith⟩
  · split
    · rename_i h
      have e1 : c * (b + d - (c + e)) = (c - b) * (-e - c) + -(a * c - b * b) * s0 := by rw [hd, he]; ring
      have : 0 ≤ c * (b + d - (c + e)) := by
        rcases le_or_gt b c with hb | hb
        · have := mul_nonneg (sub_nonneg.2 hb) (sub_nonneg.2 h)
          linarith
        · have := mul_pos_of_neg_of_neg (sub_neg.2 hb) hs
          have := mul_nonneg hc.le (sub_nonneg.2 hst)
          linarith
      have := nonneg_of_mul_nonneg_right this hc
      exact ⟨le_rfl, by norm_num, by norm_num, by linarith, by linarith, by linarith⟩
    · rename_i h1 h2
      have e1 : c * (-e / c) = -e := by field_simp
      have h3 : -e / c ≤ 1 := by rw [div_le_one hc]; linarith
      have h4 : 0 ≤ -e / c := div_nonneg (by linarith) hc.le
      have h5 : 0 ≤ b * (-e / c) + d := by
        have : c * (b * (-e / c) + d) = -(a * c - b * b) * s0 := by rw [mul_add, mul_left_comm, e1, hd, he]; ring
        exact nonneg_of_mul_nonneg_right (by linarith : 0 ≤ c * (b * (-e / c) + d)) hc
      refine ⟨le_rfl, h4, by linarith, ?_, ?_, ?_⟩ <;> simp only [e1, mul_zero, zero_add, neg_add_cancel] <;> linarith

/-- the edge `s + t = 1`, when the minimum on the edge is inside -/
theorem optimal_hyp (hd : d = -(a * s0 + b * t0)) (he : e = -(b * s0 + c * t0)) (hdet : 0 < a * c - b * b)
    (hden : 0 < a - 2 * b + c) (hst : 1 < s0 + t0) (h1 : 0 ≤ c + e - b - d) (h2 : c + e - b - d ≤ a - 2 * b + c) :
    Optimal a b c d e ((c + e - b - d) / (a - 2 * b + c)) (1 - (c + e - b - d) / (a - 2 * b + c)) := by
  obtain ⟨s, hs⟩ : ∃ s, s = (c + e - b - d) / (a - 2 * b + c) := ⟨_, rfl⟩
  have e1 : (a - 2 * b + c) * s = c + e - b - d := by rw [hs]; field_simp
  have h3 : 0 ≤ s := hs ▸ div_nonneg h1 hden.le
  have h4 : s ≤ 1 := by rw [hs, div_le_one hden]; exact h2
  rw [← hs]
  have e2 : b * s + c * (1 - s) + e = a * s + b * (1 - s) + d := by linarith
  have e3 : (a - 2 * b + c) * (a * s + b * (1 - s) + d) = (a * c - b * b) * (1 - s0 - t0) := by
    have : (a - 2 * b + c) * (a * s + b * (1 - s) + d) = (a - b) * ((a - 2 * b + c) * s) + (a - 2 * b + c) * (b + d) := by ring
    rw [this, e1, hd, he]; ring
  have h5 : a * s + b * (1 - s) + d ≤ 0 := by
    by_contra h
    have := mul_pos hden (not_le.1 h)
    have := mul_pos hdet (by linarith : 0 < s0 + t0 - 1)
    linarith
  refine ⟨h3, by linarith, by linarith, ?_, ?_, ?_⟩ <;> rw [e2] <;> nlinarith

/-- the corner `s = 1` seen from beyond the edge `s + t = 1` -/
theorem corner_s (hd : d = -(a * s0 + b * t0)) (he : e = -(b * s0 + c * t0)) (hc : 0 < c) (hdet : 0 < a * c - b * b)
    (hden : 0 < a - 2 * b + c) (hst : 1 < s0 + t0) (h : a - 2 * b + c ≤ c + e - b - d) (hs : s0 < 0 ∨ 0 ≤ t0) :
    Optimal a b c d e 1 0 := by
  have h1 : a + d ≤ b + e := by linarith
  have h2 : a + d ≤ 0 := by
    -- with `g = a + d ≤ g' = b + e`, the vector `(1 - s0, -t0)` is `(c g - b g', a g' - b g) / det`
    have e1 : (a * c - b * b) * (1 - s0) = c * (a + d) - b * (b + e) := by rw [hd, he]; ring
    have e2 : (a * c - b * b) * (-t0) = a * (b + e) - b * (a + d) := by rw [hd, he]; ring
    have h3 := mul_pos hdet (by linarith : 0 < s0 + t0 - 1)
    by_contra hg
    have hg := not_le.1 hg
    have ht : 0 ≤ t0 := by
      rcases hs with hs | ht
      · linarith
      · exact ht
    have h4 := mul_nonneg hdet.le ht
    -- `a g' ≤ b g`
    have h5 : a * (b + e) ≤ b * (a + d) := by linarith
    have hb : a ≤ b ∧ 0 < b := by
      have ha : 0 < a := by
        by_contra ha
        nlinarith [mul_self_nonneg b]
      have hb0 : 0 < b := by
        by_contra hb
        have := mul_nonneg (neg_nonneg.2 (not_lt.1 hb)) hg.le
        have := mul_pos ha (hg.trans_le h1)
        linarith
      refine ⟨?_, hb0⟩
      by_contra h
      have := mul_lt_mul_of_pos_right (not_le.1 h) hg
      have := mul_le_mul_of_nonneg_left h1 ha.le
      linarith
    obtain ⟨hab, hb⟩ := hb
    have ha : 0 < a := by
      by_contra ha
      nlinarith [mul_self_nonneg b]
    -- `(c - b) g < (b - a) g'`, while `a g' ≤ b g`
    have h6 : (c - b) * (a + d) < (b - a) * (b + e) := by linarith
    have h7 : a * ((c - b) * (a + d)) < a * ((b - a) * (b + e)) := mul_lt_mul_of_pos_left h6 ha
    have h8 : (b - a) * (a * (b + e)) ≤ (b - a) * (b * (a + d)) := mul_le_mul_of_nonneg_left h5 (sub_nonneg.2 hab)
    have h9 := mul_pos hdet hg
    linarith
  exact ⟨by norm_num, le_rfl, by norm_num, by linarith, by linarith, by linarith⟩

/-- beyond the edge `s + t = 1`, between the other two (`r1`) -/
theorem optimal_r1 (hd : d = -(a * s0 + b * t0)) (he : e = -(b * s0 + c * t0)) (ha : 0 < a) (hc : 0 < c)
    (hdet : 0 < a * c - b * b) (hden : 0 < a - 2 * b + c) (hst : 1 < s0 + t0) (hs : 0 ≤ s0) (ht : 0 ≤ t0) :
    Optimal a b c d e (if c + e - b - d ≤ 0 then 0 else if a - 2 * b + c ≤ c + e - b - d then 1 else
        (c + e - b - d) / (a - 2 * b + c))
      (1 - (if c + e - b - d ≤ 0 then 0 else if a - 2 * b + c ≤ c + e - b - d then 1 else
        (c + e - b - d) / (a - 2 * b + c))) := by
  split
  · rename_i h
    rw [sub_zero]
    exact .swap (corner_s (s0 := t0) (t0 := s0) (by rw [he]; ring) (by rw [hd]; ring) ha (by linarith) (by linarith) (by linarith)
      (by linarith) (.inr hs))
  · split
    · rw [sub_self]
      exact corner_s hd he hc hdet hden hst (by assumption) (.inr ht)
    · exact optimal_hyp hd he hdet hden hst (by linarith) (by linarith)

/-- beyond the corner `t = 1` (`r2`) -/
theorem optimal_r2 (hd : d = -(a * s0 + b * t0)) (he : e = -(b * s0 + c * t0)) (ha : 0 < a) (hc : 0 < c)
    (hdet : 0 < a * c - b * b) (hden : 0 < a - 2 * b + c) (hst : 1 < s0 + t0) (hs : s0 < 0) :
    (b + d < c + e → Optimal a b c d e
      (if a - 2 * b + c ≤ c + e - (b + d) then 1 else (c + e - (b + d)) / (a - 2 * b + c))
      (1 - (if a - 2 * b + c ≤ c + e - (b + d) then 1 else (c + e - (b + d)) / (a - 2 * b + c)))) ∧
    (c + e ≤ b + d → Optimal a b c d e 0 (if c + e ≤ 0 then 1 else if 0 ≤ e then 0 else -e / c)) := by
  have er : c + e - (b + d) = c + e - b - d := by ring
  rw [er]
  have hds := mul_pos_of_neg_of_neg (neg_neg_of_pos hdet) hs
  constructor
  · intro h
    split
    · rw [sub_self]
      exact corner_s hd he hc hdet hden hst (by assumption) (.inl hs)
    · exact optimal_hyp hd he hdet hden hst (by linarith) (by linarith)
  · intro h
    split
    · exact ⟨le_rfl, by norm_num, by norm_num, by linarith, by linarith, by linarith⟩
    · rename_i h1
      split
      · rename_i h2
        have hd0 : 0 ≤ d := by
          have e1 : c * d = b * e + -(a * c - b * b) * s0 := by rw [hd, he]; ring
          rcases le_or_gt 0 b with hb | hb
          · have := mul_nonneg hb h2
            exact nonneg_of_mul_nonneg_right (by linarith : 0 ≤ c * d) hc
          · have := mul_pos_of_neg_of_neg hb hs
            have := mul_pos hc (by linarith : 0 < t0)
            linarith
        exact ⟨le_rfl, le_rfl, by norm_num, by norm_num, by linarith, by linarith⟩
      · have e1 : c * (-e / c) = -e := by field_simp
        have h3 : -e / c ≤ 1 := by rw [div_le_one hc]; linarith
        have h4 : 0 ≤ -e / c := div_nonneg (by linarith) hc.le
        have h5 : 0 ≤ b * (-e / c) + d := by
          have : c * (b * (-e / c) + d) = -(a * c - b * b) * s0 := by rw [mul_add, mul_left_comm, e1, hd, he]; ring
          exact nonneg_of_mul_nonneg_right (by linarith : 0 ≤ c * (b * (-e / c) + d)) hc
        refine ⟨le_rfl, h4, by linarith, ?_, ?_, ?_⟩ <;> simp only [e1, mul_zero, zero_add, neg_add_cancel] <;> linarith

/-! ### the code -/

variable {F : Fmt ℝ}

theorem XF.Is.ite {x y : XF F} {u v : ℝ} {p : Bool} {q : Prop} [Decidable q] (h : p = true ↔ q) (hx : q → x.Is u) (hy : ¬ q → y.Is v) :
    (if p = true then x else y).Is (if q then u else v) := by
  by_cases hq : q
  · rw [if_pos hq, if_pos (h.2 hq)]; exact hx hq
  · rw [if_neg hq, if_neg (fun e => hq (h.1 e))]; exact hy hq

/-- the pair stands for an optimal pair -/
def OptimalPair (a b c d e : ℝ) (p : XF F × XF F) : Prop := ∃ s t, p.1.Is s ∧ p.2.Is t ∧ Optimal a b c d e s t

theorem closestST_optimal (hF : F.Exact) {xa xb xc xd xe : XF F} {a b c d e : ℝ} (ia : xa.Is a) (ib : xb.Is b) (ic : xc.Is c)
    (id : xd.Is d) (ie : xe.Is e) (ha : 0 < a) (hc : 0 < c) (hdet : 0 < a * c - b * b) :
    OptimalPair a b c d e (closestST xa xb xc xd xe) := by
  have hden : 0 < a - 2 * b + c := by
    by_contra h
    nlinarith [mul_self_nonneg (a - b), mul_nonneg ha.le (neg_nonneg.2 (not_lt.1 h))]
  have i0 := XF.Is.zero hF (F := F)
  have i1 := XF.Is.one hF (F := F)
  have i2 : (nat 2 : XF F).Is 2 := by simpa using XF.Is.nat hF 2
  have idet := (ia.mul hF ic).sub hF (ib.mul hF ib)
  have is := (ib.mul hF ie).sub hF (ic.mul hF id)
  have it := (ib.mul hF id).sub hF (ia.mul hF ie)
  have iden := (ia.sub hF (i2.mul hF ib)).add hF ic
  obtain ⟨s0, hs0⟩ : ∃ s0, s0 = (b * e - c * d) / (a * c - b * b) := ⟨_, rfl⟩
  obtain ⟨t0, ht0⟩ : ∃ t0, t0 = (b * d - a * e) / (a * c - b * b) := ⟨_, rfl⟩
  have es : (a * c - b * b) * s0 = b * e - c * d := by rw [hs0]; exact mul_div_cancel₀ _ hdet.ne'
  have et : (a * c - b * b) * t0 = b * d - a * e := by rw [ht0]; exact mul_div_cancel₀ _ hdet.ne'
  have hd : d = -(a * s0 + b * t0) := by
    apply mul_left_cancel₀ hdet.ne'
    linear_combination a * es + b * et
  have he : e = -(b * s0 + c * t0) := by
    apply mul_left_cancel₀ hdet.ne'
    linear_combination b * es + c * et
  have hsum : b * e - c * d + (b * d - a * e) ≤ a * c - b * b ↔ s0 + t0 ≤ 1 := by
    rw [← es, ← et, ← mul_add]
    conv_lhs => rhs; rw [← mul_one (a * c - b * b)]
    exact mul_le_mul_iff_right₀ hdet
  have hsneg : b * e - c * d < 0 ↔ s0 < 0 := by rw [hs0, div_lt_iff₀ hdet, zero_mul]
  have htneg : b * d - a * e < 0 ↔ t0 < 0 := by rw [ht0, div_lt_iff₀ hdet, zero_mul]
  have edge_s : s0 < 0 → (0 ≤ e → 0 ≤ t0 ∨ 0 ≤ d) → s0 + t0 ≤ 1 → OptimalPair a b c d e (r3 xc xe) := by
    intro h1 h2 h3
    refine ⟨0, _, i0, ?_, optimal_edge_s hd he hc hdet h1 h2 h3⟩
    exact .ite (ie.ge i0) (fun _ => i0) fun _ => .ite (ie.neg.ge ic) (fun _ => i1) fun _ => ie.neg.div hF ic hc.ne'
  have edge_t : t0 < 0 → (0 ≤ d → 0 ≤ s0 ∨ 0 ≤ e) → s0 + t0 ≤ 1 → OptimalPair a b c d e (r5 xa xd) := by
    intro h1 h2 h3
    refine ⟨_, 0, ?_, i0, .swap (optimal_edge_s (a := c) (b := b) (s0 := t0) (t0 := s0) (by rw [he]; ring) (by rw [hd]; ring) ha
      (by linarith) h1 h2 (by linarith))⟩
    exact .ite (id.ge i0) (fun _ => i0) fun _ => .ite (id.neg.ge ia) (fun _ => i1) fun _ => id.neg.div hF ia ha.ne'
  unfold closestST
  simp only
  by_cases hc1 : s0 + t0 ≤ 1
  · rw [if_pos (((is.add hF it).le idet).2 (hsum.2 hc1))]
    by_cases hc2 : s0 < 0
    · rw [if_pos ((is.lt i0).2 (hsneg.2 hc2))]
      by_cases hc3 : t0 < 0
      · rw [if_pos ((it.lt i0).2 (htneg.2 hc3))]
        unfold r4
        by_cases hc4 : d < 0
        · rw [if_pos ((id.lt i0).2 hc4)]
          have := edge_t hc3 (fun h => absurd hc4 (not_lt.2 h)) hc1
          unfold r5 at this
          rw [if_neg (fun h => absurd ((id.ge i0).1 h) (not_le.2 hc4))] at this
          exact this
        · rw [if_neg (fun h => hc4 ((id.lt i0).1 h))]
          exact edge_s hc2 (fun _ => .inr (not_lt.1 hc4)) hc1
      · rw [if_neg (fun h => hc3 (htneg.1 ((it.lt i0).1 h)))]
        exact edge_s hc2 (fun _ => .inl (not_lt.1 hc3)) hc1
    · rw [if_neg (fun h => hc2 (hsneg.1 ((is.lt i0).1 h)))]
      by_cases hc3 : t0 < 0
      · rw [if_pos ((it.lt i0).2 (htneg.2 hc3))]
        exact edge_t hc3 (fun _ => .inl (not_lt.1 hc2)) hc1
      · rw [if_neg (fun h => hc3 (htneg.1 ((it.lt i0).1 h)))]
        have iinv := i1.div hF idet hdet.ne'
        refine ⟨_, _, is.mul hF iinv, it.mul hF iinv, ?_⟩
        rw [mul_one_div, mul_one_div, ← hs0, ← ht0]
        have e1 : a * s0 + b * t0 + d = 0 := by linarith
        have e2 : b * s0 + c * t0 + e = 0 := by linarith
        exact ⟨not_lt.1 hc2, not_lt.1 hc3, hc1, by rw [e1, e2]; norm_num, by rw [e1, e2]; norm_num, by rw [e1, e2]; norm_num⟩
  · rw [if_neg (fun h => hc1 (hsum.1 (((is.add hF it).le idet).1 h)))]
    by_cases hc2 : s0 < 0
    · rw [if_pos ((is.lt i0).2 (hsneg.2 hc2))]
      obtain ⟨o1, o2⟩ := optimal_r2 hd he ha hc hdet hden (not_le.1 hc1) hc2
      have itmp0 := ib.add hF id
      have itmp1 := ic.add hF ie
      unfold r2
      by_cases hc3 : b + d < c + e
      · rw [if_pos ((itmp1.gt itmp0).2 hc3)]
        have key := XF.Is.ite (((itmp1.sub hF itmp0).ge iden)) (fun _ => i1) (fun _ => (itmp1.sub hF itmp0).div hF iden hden.ne')
        exact ⟨_, _, key, i1.sub hF key, o1 hc3⟩
      · rw [if_neg (fun h => hc3 ((itmp1.gt itmp0).1 h))]
        refine ⟨_, _, i0, ?_, o2 (not_lt.1 hc3)⟩
        exact .ite (itmp1.le i0) (fun _ => i1) fun _ => .ite (ie.ge i0) (fun _ => i0) fun _ => ie.neg.div hF ic hc.ne'
    · rw [if_neg (fun h => hc2 (hsneg.1 ((is.lt i0).1 h)))]
      by_cases hc3 : t0 < 0
      · rw [if_pos ((it.lt i0).2 (htneg.2 hc3))]
        obtain ⟨o1, o2⟩ := optimal_r2 (a := c) (b := b) (c := a) (d := e) (e := d) (s0 := t0) (t0 := s0) (by rw [he]; ring) (by rw [hd]; ring)
          hc ha (by linarith) (by linarith) (by linarith) hc3
        have itmp0 := ib.add hF ie
        have itmp1 := ia.add hF id
        have eden : c - 2 * b + a = a - 2 * b + c := by ring
        rw [eden] at o1
        unfold r6
        by_cases hc4 : b + e < a + d
        · rw [if_pos ((itmp1.gt itmp0).2 hc4)]
          have key := XF.Is.ite (((itmp1.sub hF itmp0).ge iden)) (fun _ => i1) (fun _ => (itmp1.sub hF itmp0).div hF iden hden.ne')
          exact ⟨_, _, i1.sub hF key, key, (o1 hc4).swap⟩
        · rw [if_neg (fun h => hc4 ((itmp1.gt itmp0).1 h))]
          refine ⟨_, _, ?_, i0, (o2 (not_lt.1 hc4)).swap⟩
          exact .ite (itmp1.le i0) (fun _ => i1) fun _ => .ite (id.ge i0) (fun _ => i0) fun _ => id.neg.div hF ia ha.ne'
      · rw [if_neg (fun h => hc3 (htneg.1 ((it.lt i0).1 h)))]
        have o := optimal_r1 hd he ha hc hdet hden (not_le.1 hc1) (not_lt.1 hc2) (not_lt.1 hc3)
        have inum := ((ic.add hF ie).sub hF ib).sub hF id
        have key := XF.Is.ite (inum.le i0) (fun _ => i0) (fun _ => XF.Is.ite (inum.ge iden) (fun _ => i1) (fun _ => inum.div hF iden hden.ne'))
        exact ⟨_, _, key, i1.sub hF key, o⟩

end Blazert
