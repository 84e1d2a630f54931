/- The box test with rounding errors, and: binary64 and binary32 round with relative error at most half an ulp. -/
import Verif.Spec.Rounding
import Verif.Spec.Geometry
import Verif.Proofs.Slab
import Verif.Format
import Mathlib.Data.Nat.Log
import Mathlib.Algebra.Order.Field.Power
import Mathlib.Data.Nat.Cast.Order.Field

set_option autoImplicit false
set_option linter.unusedSectionVars false

namespace Blazert
open Scalar

section
variable {K : Type} [Field K] [LinearOrder K] [IsStrictOrderedRing K] [FloorRing K] {F : Fmt K} {u lo hi : K}

theorem XF.mk_rel (hF : F.Relative u lo hi) (hu : 0 ≤ u) {r : K} (hr : Between lo hi r) (s : Bool) :
    ∃ δ, |δ| ≤ u ∧ (XF.mk F s r).Is (r * (1 + δ)) := by
  obtain ⟨r', h1, h2⟩ := hF.post r hr
  unfold XF.mk
  rw [h1]
  by_cases h0 : r = 0
  · refine ⟨0, by simpa using hu, ?_⟩
    subst h0
    simp only [abs_zero, mul_zero, abs_nonpos_iff, sub_zero] at h2
    subst h2
    simp only [zero_mul]
    exact ⟨_, rfl⟩
  · refine ⟨(r' - r) / r, ?_, ?_⟩
    · rw [abs_div, div_le_iff₀ (abs_pos.2 h0)]; exact h2
    · have : r * (1 + (r' - r) / r) = r' := by field_simp; ring
      rw [this]
      exact ⟨_, rfl⟩

theorem nat_one_rel (hF : F.Relative u lo hi) : (nat 1 : XF F).Is 1 := by
  show (XF.mk F false ((1 : ℕ) : ℚ)).Is 1
  simp [XF.mk, hF.one, XF.Is]

theorem nat_four_rel (hF : F.Relative u lo hi) : (nat 4 : XF F).Is 4 := by
  show (XF.mk F false ((4 : ℕ) : ℚ)).Is 4
  simp [XF.mk, hF.four, XF.Is]

theorem nat_zero_rel (hF : F.Relative u lo hi) : (nat 0 : XF F).Is 0 := by
  obtain ⟨r', h1, h2⟩ := hF.post 0 (.inl rfl)
  simp only [abs_zero, mul_zero, abs_nonpos_iff, sub_zero] at h2
  subst h2
  show (XF.mk F false ((0 : ℕ) : ℚ)).Is 0
  simp [XF.mk, h1, XF.Is]

theorem slack_rel (hF : F.Relative u lo hi) : (slabSlack : XF F).Is (1 + 4 * F.eps) := by
  obtain ⟨s1, h1⟩ := nat_one_rel hF
  obtain ⟨s4, h4⟩ := nat_four_rel hF
  have h5 : ∃ s, (nat 4 * eps : XF F) = .fin (4 * F.eps) s := by
    rw [h4]
    show ∃ s, XF.mul _ (XF.fin F.eps false) = _
    simp only [XF.mul, XF.mk, hF.four_eps]
    exact ⟨_, rfl⟩
  obtain ⟨s5, h5⟩ := h5
  unfold slabSlack
  rw [h1, h5]
  show (XF.add _ _).Is _
  simp only [XF.add, XF.mk, hF.slack]
  exact ⟨_, rfl⟩

theorem Between.mul_of {q c : K} (hlo : 0 ≤ lo) (h : Between (2 * lo) (hi / 4) q) (hc1 : 1 ≤ 2 * c) (hc2 : c ≤ 4) :
    Between lo hi (q * c) := by
  rcases h with rfl | ⟨h1, h2⟩
  · exact .inl (zero_mul _)
  · right
    have hc : 0 ≤ c := by linarith
    rw [abs_mul, abs_of_nonneg hc]
    have := abs_nonneg q
    constructor
    · nlinarith
    · have h3 : |q| * c ≤ |q| * 4 := mul_le_mul_of_nonneg_left hc2 this
      have h4 : |q| * 4 ≤ hi := by rw [le_div_iff₀ (by norm_num)] at h2; exact h2
      exact h3.trans h4

theorem one_add_bounds {δ : K} (h : |δ| ≤ u) : 1 - u ≤ 1 + δ ∧ 1 + δ ≤ 1 + u := by
  rw [abs_le] at h; constructor <;> linarith [h.1, h.2]

theorem num_lo2 (h : 64 * u ≤ 1) {c : K} (hc : (1 - u) * (1 - u) ≤ c) : 1 ≤ 2 * c := by
  have : (1 - u) * (1 - u) = 1 - 2 * u + u * u := by ring
  nlinarith [mul_self_nonneg u]

theorem num_hi2 (hu : 0 ≤ u) (h : 64 * u ≤ 1) {c : K} (hc : c ≤ (1 + u) * (1 + u)) : c ≤ 4 := by
  have : u * u ≤ u := mul_le_of_le_one_left hu (by linarith)
  nlinarith

theorem num_lo3 (hu : 0 ≤ u) (h : 64 * u ≤ 1) {c e : K} (he : e = 2 * u) (hc : (1 - u) ^ 3 ≤ c) :
    1 ≤ 2 * (c * (1 + 4 * e)) := by
  have h2 : u ^ 3 ≤ u ^ 2 := pow_le_pow_of_le_one hu (by linarith) (by norm_num)
  have h3 : 0 ≤ u ^ 2 := by positivity
  have h4 : (1 - u) ^ 3 = 1 - 3 * u + 3 * u ^ 2 - u ^ 3 := by ring
  have h5 : 1 / 2 ≤ c := by linarith
  subst he
  have : c * 1 ≤ c * (1 + 4 * (2 * u)) := mul_le_mul_of_nonneg_left (by linarith) (by linarith)
  linarith

theorem num_hi3 (hu : 0 ≤ u) (h : 64 * u ≤ 1) {c e : K} (he : e = 2 * u) (hc : c ≤ (1 + u) ^ 3) :
    c * (1 + 4 * e) ≤ 4 := by
  have h1 : u ^ 2 ≤ u := by have := mul_le_of_le_one_left hu (by linarith : u ≤ 1); rwa [← pow_two] at this
  have h2 : u ^ 3 ≤ u ^ 2 := pow_le_pow_of_le_one hu (by linarith) (by norm_num)
  have h4 : (1 + u) ^ 3 = 1 + 3 * u + 3 * u ^ 2 + u ^ 3 := by ring
  have h5 : c ≤ 2 := by linarith
  subst he
  have : c * (1 + 4 * (2 * u)) ≤ 2 * (1 + 4 * (2 * u)) := mul_le_mul_of_nonneg_right h5 (by linarith)
  linarith

/-- the slack suffices -/
theorem num_slack (hu : 0 ≤ u) (h : 64 * u ≤ 1) : (1 + u) ^ 3 ≤ (1 - u) ^ 4 * (1 + 8 * u) := by
  have e : (1 - u) ^ 4 * (1 + 8 * u) - (1 + u) ^ 3 = u * (1 - 29 * u + 43 * u ^ 2 - 31 * u ^ 3 + 8 * u ^ 4) := by ring
  have h2 : u ^ 3 ≤ u ^ 2 := pow_le_pow_of_le_one hu (by linarith) (by norm_num)
  have h3 : 0 ≤ u ^ 2 := by positivity
  have h4 : 0 ≤ u ^ 4 := by positivity
  have : 0 ≤ 1 - 29 * u + 43 * u ^ 2 - 31 * u ^ 3 + 8 * u ^ 4 := by linarith
  have := mul_nonneg hu this
  linarith

/-- one slab, with rounding -/
theorem slab_axis_rel (hF : F.Relative u lo hi) (hu : 0 ≤ u) (hu64 : 64 * u ≤ 1) (hlo0 : 0 ≤ lo)
    {l h org x : XF F} {a b o d t : K} (hl : l.Is a) (hh : h.Is b) (ho : org.Is o)
    (hx : x.Is d) (hnz : x ≠ .fin 0 true) (ht : 0 ≤ t) (h1 : a ≤ o + t * d) (h2 : o + t * d ≤ b)
    (hra : Between lo hi (a - o)) (hrb : Between lo hi (b - o)) (hrd : d ≠ 0 → Between lo hi (1 / d))
    (hqa : d ≠ 0 → Between (2 * lo) (hi / 4) ((a - o) / d)) (hqb : d ≠ 0 → Between (2 * lo) (hi / 4) ((b - o) / d))
    (enter exit : XF F)
    (he : enter = ((if lt x (nat 0) then h else l) - org) * (nat 1 / x))
    (hx' : exit = ((if lt x (nat 0) then l else h) - org) * (nat 1 / x) * slabSlack) :
    Lo enter (t * (1 + u) ^ 3) ∧ Hi exit (t * (1 + u) ^ 3) ∧
      ((d ≠ 0 ∨ (o ≠ a ∧ o ≠ b)) → enter ≠ .nan ∧ exit ≠ .nan) := by
  have hz := nat_zero_rel hF
  have h1' := nat_one_rel hF
  have hs := slack_rel hF
  have heps := hF.eps
  have sub_rel : ∀ {y : XF F} {c : K}, y.Is c → Between lo hi (c - o) →
      ∃ δ, |δ| ≤ u ∧ (y - org).Is ((c - o) * (1 + δ)) := by
    intro y c hy hc
    obtain ⟨s, rfl⟩ := hy
    obtain ⟨s', rfl⟩ := ho
    have := XF.mk_rel hF hu hc (XF.sgn c s && XF.sgn (-o) (!s'))
    rw [sub_eq_add_neg] at this ⊢
    exact this
  by_cases hd : d = 0
  · subst hd
    obtain ⟨s, rfl⟩ := hx
    have hs0 : s = false := by cases s <;> simp_all
    subst hs0
    have hlt : lt (XF.fin 0 false : XF F) (nat 0) = false := by
      have := XF.Is.lt (x := (XF.fin 0 false : XF F)) ⟨false, rfl⟩ hz
      simpa using this
    have hinv : (nat 1 / (XF.fin 0 false : XF F)) = .inf false := by
      obtain ⟨s, h⟩ := h1'
      rw [h]
      show XF.div _ _ = _
      simp [XF.div, XF.sgn]
    rw [hlt, hinv] at he hx'
    simp only [Bool.false_eq_true, if_false, mul_zero, add_zero] at he hx' h1 h2
    obtain ⟨δ, hδ, hA⟩ := sub_rel hl hra
    obtain ⟨δ', hδ', hB⟩ := sub_rel hh hrb
    have p1 : 0 < 1 + δ := by linarith [(one_add_bounds hδ).1]
    have p2 : 0 < 1 + δ' := by linarith [(one_add_bounds hδ').1]
    have hent : (a - o = 0 → enter = .nan) ∧ (a - o ≠ 0 → enter = .inf true) := by
      obtain ⟨s, h⟩ := hA
      rw [h] at he
      constructor
      · intro h0
        rw [he, h0]
        show XF.mul _ _ = _
        simp [XF.mul]
      · intro h0
        rw [he]
        show XF.mul _ _ = _
        have h3 : (a - o) * (1 + δ) < 0 := mul_neg_of_neg_of_pos (lt_of_le_of_ne (by linarith) h0) p1
        simp only [XF.mul, XF.sgn, if_neg h3.ne, h3, decide_true, Bool.xor_false]
    have hext : (b - o = 0 → exit = .nan) ∧ (b - o ≠ 0 → exit = .inf false) := by
      obtain ⟨s, h⟩ := hB
      rw [h] at hx'
      constructor
      · intro h0
        rw [hx', h0]
        show XF.mul (XF.mul _ _) _ = _
        simp [XF.mul]
      · intro h0
        rw [hx']
        obtain ⟨s', h'⟩ := hs
        rw [h']
        show XF.mul (XF.mul _ _) _ = _
        have h3 : 0 < (b - o) * (1 + δ') := mul_pos (lt_of_le_of_ne (by linarith) (Ne.symm h0)) p2
        have h4 : 0 < 1 + 4 * F.eps := by linarith
        simp only [XF.mul, XF.sgn, if_neg h3.ne', not_lt.2 h3.le, decide_false, Bool.xor_false, if_neg h4.ne',
          not_lt.2 h4.le]
    refine ⟨?_, ?_, ?_⟩
    · by_cases h0 : a - o = 0
      · exact .inl (hent.1 h0)
      · exact .inr (.inl (hent.2 h0))
    · by_cases h0 : b - o = 0
      · exact .inl (hext.1 h0)
      · exact .inr (.inl (hext.2 h0))
    · rintro (h | ⟨h3, h4⟩)
      · exact absurd rfl h
      · rw [hent.2 (sub_ne_zero.2 (Ne.symm h3)), hext.2 (sub_ne_zero.2 (Ne.symm h4))]
        simp
  · -- the quotient, computed
    have hinv : ∃ δ, |δ| ≤ u ∧ (nat 1 / x).Is (1 / d * (1 + δ)) := by
      obtain ⟨s, rfl⟩ := hx
      obtain ⟨s', h⟩ := h1'
      rw [h]
      have := XF.mk_rel hF hu (hrd hd) (xor (XF.sgn (1 : K) s') (XF.sgn d s))
      show ∃ δ, |δ| ≤ u ∧ (XF.div _ _).Is _
      simpa only [XF.div, if_neg hd] using this
    obtain ⟨δ2, hδ2, hinv⟩ := hinv
    have mul_rel : ∀ {x y : XF F} {p q : K}, x.Is p → y.Is q → Between lo hi (p * q) →
        ∃ δ, |δ| ≤ u ∧ (x * y).Is (p * q * (1 + δ)) := by
      intro x y p q hx hy hpq
      obtain ⟨s, rfl⟩ := hx
      obtain ⟨s', rfl⟩ := hy
      exact XF.mk_rel hF hu hpq _
    have quot : ∀ {y : XF F} {c : K}, y.Is c → Between lo hi (c - o) → Between (2 * lo) (hi / 4) ((c - o) / d) →
        ∃ θ, (1 - u) ^ 3 ≤ θ ∧ θ ≤ (1 + u) ^ 3 ∧ ((y - org) * (nat 1 / x)).Is ((c - o) / d * θ) ∧
          ∃ δ, |δ| ≤ u ∧ ((y - org) * (nat 1 / x) * slabSlack).Is ((c - o) / d * θ * (1 + 4 * F.eps) * (1 + δ)) := by
      intro y c hy hc hq
      obtain ⟨δ1, hδ1, hn⟩ := sub_rel hy hc
      obtain ⟨l1, u1⟩ := one_add_bounds hδ1
      obtain ⟨l2, u2⟩ := one_add_bounds hδ2
      have hpos : 0 ≤ 1 - u := by linarith
      have e1 : (c - o) * (1 + δ1) * (1 / d * (1 + δ2)) = (c - o) / d * ((1 + δ1) * (1 + δ2)) := by ring
      have lo2 : (1 - u) * (1 - u) ≤ (1 + δ1) * (1 + δ2) := mul_le_mul l1 l2 hpos (by linarith)
      have hi2 : (1 + δ1) * (1 + δ2) ≤ (1 + u) * (1 + u) := mul_le_mul u1 u2 (by linarith) (by linarith)
      obtain ⟨δ3, hδ3, hp⟩ := mul_rel hn hinv (by
        rw [e1]
        exact hq.mul_of hlo0 (num_lo2 hu64 lo2) (num_hi2 hu hu64 hi2))
      obtain ⟨l3, u3⟩ := one_add_bounds hδ3
      rw [e1, mul_assoc] at hp
      have lo3 : (1 - u) ^ 3 ≤ (1 + δ1) * (1 + δ2) * (1 + δ3) := by
        have := mul_le_mul lo2 l3 hpos ((mul_nonneg hpos hpos).trans lo2)
        rwa [show (1 - u) * (1 - u) * (1 - u) = (1 - u) ^ 3 by ring] at this
      have hi3 : (1 + δ1) * (1 + δ2) * (1 + δ3) ≤ (1 + u) ^ 3 := by
        have := mul_le_mul hi2 u3 (by linarith) (by positivity)
        rwa [show (1 + u) * (1 + u) * (1 + u) = (1 + u) ^ 3 by ring] at this
      obtain ⟨δ4, hδ4, hp4⟩ := mul_rel hp hs (by
        rw [mul_assoc]
        exact hq.mul_of hlo0 (num_lo3 hu hu64 heps lo3) (num_hi3 hu hu64 heps hi3))
      exact ⟨_, lo3, hi3, hp, δ4, hδ4, hp4⟩
    have c1 := num_slack hu hu64
    have main : ∀ {y z : XF F} {p q : K}, y.Is p → z.Is q → Between lo hi (p - o) → Between lo hi (q - o) →
        Between (2 * lo) (hi / 4) ((p - o) / d) → Between (2 * lo) (hi / 4) ((q - o) / d) →
        enter = (y - org) * (nat 1 / x) → exit = (z - org) * (nat 1 / x) * slabSlack →
        (p - o) / d ≤ t → t ≤ (q - o) / d →
        Lo enter (t * (1 + u) ^ 3) ∧ Hi exit (t * (1 + u) ^ 3) ∧
          ((d ≠ 0 ∨ (o ≠ a ∧ o ≠ b)) → enter ≠ .nan ∧ exit ≠ .nan) := by
      intro y z p q hy hz' hp hq hp' hq' ee ex h3 h4
      obtain ⟨θ, hθ1, hθ2, hE, -⟩ := quot hy hp hp'
      obtain ⟨θ', hθ1', hθ2', -, δ, hδ, hX⟩ := quot hz' hq hq'
      rw [← ee] at hE
      rw [← ex] at hX
      have hupos : 0 ≤ (1 - u) ^ 3 := by have : 0 ≤ 1 - u := by linarith
                                         positivity
      obtain ⟨ld, -⟩ := one_add_bounds hδ
      refine ⟨.inr (.inr ⟨_, hE, ?_⟩), .inr (.inr ⟨_, hX, ?_⟩), fun _ => ?_⟩
      · calc (p - o) / d * θ ≤ t * θ := mul_le_mul_of_nonneg_right h3 (hupos.trans hθ1)
          _ ≤ t * (1 + u) ^ 3 := mul_le_mul_of_nonneg_left hθ2 ht
      · have hfac : (1 - u) ^ 4 * (1 + 8 * u) ≤ θ' * (1 + 4 * F.eps) * (1 + δ) := by
          rw [heps]
          calc (1 - u) ^ 4 * (1 + 8 * u) = (1 - u) ^ 3 * (1 + 4 * (2 * u)) * (1 - u) := by ring
            _ ≤ θ' * (1 + 4 * (2 * u)) * (1 + δ) := by
              refine mul_le_mul (mul_le_mul_of_nonneg_right hθ1' (by linarith)) ld (by linarith) ?_
              exact mul_nonneg (hupos.trans hθ1') (by linarith)
        have hf0 : 0 ≤ (1 + u) ^ 3 := by positivity
        calc t * (1 + u) ^ 3 ≤ t * (θ' * (1 + 4 * F.eps) * (1 + δ)) :=
              mul_le_mul_of_nonneg_left (c1.trans hfac) ht
          _ ≤ (q - o) / d * (θ' * (1 + 4 * F.eps) * (1 + δ)) :=
              mul_le_mul_of_nonneg_right h4 (hf0.trans (c1.trans hfac))
          _ = _ := by ring
      · obtain ⟨_, h5⟩ := hE
        obtain ⟨_, h6⟩ := hX
        rw [h5, h6]; simp
    rcases lt_or_gt_of_ne hd with hneg | hpos
    · have hlt : lt x (nat 0) = true := (hx.lt hz).2 hneg
      rw [hlt] at he hx'
      simp only [if_true] at he hx'
      refine main hh hl hrb hra (hqb hd) (hqa hd) he hx' ?_ ?_
      · rw [div_le_iff_of_neg hneg]; linarith
      · rw [le_div_iff_of_neg hneg]; linarith
    · have hlt : lt x (nat 0) = false := by
        rw [← Bool.not_eq_true, hx.lt hz]; exact not_lt.2 hpos.le
      rw [hlt] at he hx'
      simp only [Bool.false_eq_true, if_false] at he hx'
      refine main hl hh hra hrb (hqa hd) (hqb hd) he hx' ?_ ?_
      · rw [div_le_iff₀ hpos]; linarith
      · rw [le_div_iff₀ hpos]; linarith

end
end Blazert
