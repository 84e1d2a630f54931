/- The casts of the binning are defined for centers that are outside their boxes by rounding errors only. -/
import Verif.Proofs.Casts

set_option autoImplicit false
set_option linter.unusedSectionVars false

namespace Blazert
open Scalar

section
variable {K : Type} [Field K] [LinearOrder K] [IsStrictOrderedRing K] [FloorRing K] {F : Fmt K} {P : Type} {u η hi : K}

theorem roundU_ne_none' {x : XF F} {v : K} (h : x.Is v) (h0 : -(1 / 2) < v) (h1 : v + 1 / 2 < 2 ^ 32) : roundU x ≠ none := by
  obtain ⟨s, rfl⟩ := h
  show XF.roundU _ ≠ none
  unfold XF.roundU
  simp only
  rw [if_neg (by linarith), if_pos ?_]
  · exact Option.some_ne_none _
  · rw [Int.floor_lt]
    push_cast
    norm_num at h1 ⊢
    exact h1

theorem near_abs_le {r r' A : K} (hA : |r| ≤ A) (hu : 0 ≤ u) (h : |r' - r| ≤ u * |r| + η) : |r'| ≤ A + u * A + η := by
  have h1 := abs_sub_abs_le_abs_sub r' r
  have h2 : u * |r| ≤ u * A := mul_le_mul_of_nonneg_left hA hu
  linarith

theorem abs_mul_le {a b A B : K} (ha : |a| ≤ A) (hb : |b| ≤ B) : |a * b| ≤ A * B := by
  rw [abs_mul]
  exact mul_le_mul ha hb (abs_nonneg _) ((abs_nonneg _).trans ha)

/-- what the lemmas below need of the format and of the extent `s` of the box along an axis -/
structure SlackOk (u η hi s e : K) : Prop where
  u_nonneg : 0 ≤ u
  u_le : 2 ^ 20 * u ≤ 1
  η_nonneg : 0 ≤ η
  η_one : 1000 * η ≤ 1
  hi_large : 2 ^ 33 ≤ hi
  pos : 0 < s
  s_hi : 1000 * s ≤ hi
  s_lo : 2 ≤ s * hi
  η_s : 1000 * (η * s) ≤ 1
  e_nonneg : 0 ≤ e
  η_e : 1000 * η ≤ e
  η_se : 1000 * (η * s) ≤ e

/-- the reciprocal of the extent -/
theorem slack_inv (hF : F.Gradual u η hi) (h1 : F.post 1 = some 1) {s e : K} (hs : SlackOk u η hi s e) (hes : e ≤ s) {x : XF F} {S : K}
    (hx : x.Is S) (hS : |S - s| ≤ u * s + η) :
    0 < S ∧ ∃ I, ((nat 1 : XF F) / x).Is I ∧ 0 ≤ I ∧ I ≤ 1005 / 1000 * (1 / s) := by
  obtain ⟨hu, hu20, hη, hη1, hhi, s0, shi, slo, hηs, he, hηe, hηse⟩ := hs
  have hus : u * s ≤ 1 / 1000 * s := mul_le_mul_of_nonneg_right (by linarith) s0.le
  have hSlo : 998 / 1000 * s ≤ S := by
    have := (abs_le.1 hS).1
    linarith
  have S0 : 0 < S := by linarith
  refine ⟨S0, ?_⟩
  have hone : (nat 1 : XF F).Is 1 := by
    show ∃ b, XF.mk F _ (((1 : ℕ) : ℚ) : K) = _
    rw [Nat.cast_one, Rat.cast_one]
    unfold XF.mk
    rw [h1]
    exact ⟨_, rfl⟩
  have q1 : 1 / S ≤ 1003 / 1000 * (1 / s) := by
    rw [mul_one_div, div_le_div_iff₀ S0 s0]
    linarith
  have q0 : 0 ≤ 1 / S := by positivity
  have is0 : 0 < 1 / s := by positivity
  have hinvs : 1 / s ≤ hi / 2 := by
    rw [div_le_iff₀ s0]
    linarith [mul_comm s hi]
  obtain ⟨I, i1, i2, i3, -⟩ := grad_div hF hone hx S0.ne' (by rw [abs_of_nonneg q0]; linarith)
  rw [abs_of_nonneg q0] at i2
  refine ⟨I, i1, i3 q0, ?_⟩
  have h2 := (abs_le.1 i2).2
  have h3 : u * (1 / S) ≤ 1 / 2 ^ 20 * (1003 / 1000 * (1 / s)) := mul_le_mul (by rw [le_div_iff₀ (by positivity)]; linarith) q1 q0 (by norm_num)
  have h4 : η ≤ 1 / 1000 * (1 / s) := by
    rw [mul_one_div, le_div_iff₀ s0]
    linarith
  have h6 : 1003 / 1000 * (1 / s) + 1 / 2 ^ 20 * (1003 / 1000 * (1 / s)) + 1 / 1000 * (1 / s) ≤ 1005 / 1000 * (1 / s) := by
    have : (1003 / 1000 + 1 / 2 ^ 20 * (1003 / 1000) + 1 / 1000 : K) ≤ 1005 / 1000 := by norm_num
    have := mul_le_mul_of_nonneg_right this is0.le
    linarith
  linarith

/-- the bin coordinate of one axis, for a center outside the box by at most `e` -/
theorem bin_coord_slack (hF : F.Rounds u η hi) {x y z : XF F} {a b c e : K} (hx : x.Is a) (hy : y.Is b) (hz : z.Is c)
    (hac : a - e ≤ c) (hcb : c ≤ b + e) {n : Nat} (hn1 : 1 ≤ n) (hn20 : n ≤ 2 ^ 20) (hmag : |c - a| ≤ hi) (hhi0 : 2 ^ 33 ≤ hi) (hu0 : 0 ≤ u)
    (hsp : b - a = 0 ∨ (SlackOk u η hi (b - a) e ∧ 21 / 10 * (n * e) ≤ b - a)) :
    roundU ((z - x) * (if lt (nat 0) (y - x) then (nat 1 : XF F) / (y - x) else nat 0) * nat n) ≠ none := by
  have hG := hF.toGradual
  have hn' : (n : K) ≤ 2 ^ 20 := by exact_mod_cast hn20
  have hn0 : (1 : K) ≤ n := by exact_mod_cast hn1
  have hhi1 : 0 ≤ hi := le_trans (by norm_num) hhi0
  obtain ⟨N, hN, hN1, hN2, -⟩ := grad_nat hG n (by linarith)
  obtain ⟨z0, hz0, -, -, hz1⟩ := grad_nat hG 0 (by simpa using hhi1)
  have hz0' : z0 = 0 := hz1 rfl
  subst hz0'
  obtain ⟨D, hD, hD1, hD2, hD3⟩ := grad_sub hG hz hx hmag
  rcases hsp with hsp | ⟨hs, hne⟩
  · obtain ⟨S, hS, -, -, hS0⟩ := grad_sub hG hy hx (by rw [hsp, abs_zero]; exact hhi1)
    have hS' := hS0 hsp
    subst hS'
    have hlt : lt (nat 0) (y - x) = false := by
      rw [Bool.eq_false_iff, ne_eq, XF.Is.lt hz0 hS]
      exact lt_irrefl _
    rw [hlt]
    obtain ⟨Q, hQ, -, -, hQ0⟩ := grad_mul hG hD hz0 (by simpa using hhi1)
    have hQ' := hQ0 (by simp)
    subst hQ'
    obtain ⟨R, hR, -, -, hR0⟩ := grad_mul hG hQ hN (by simpa using hhi1)
    have hR' := hR0 (by simp)
    subst hR'
    exact roundU_ne_none' hR (by norm_num) (by norm_num)
  · have hs' := hs
    obtain ⟨hu, hu20, hη, hη1, hhi, s0, shi, slo, hηs, he, hηe, hηse⟩ := hs'
    set s := b - a with hsdef
    have hu' : u ≤ 1 / 2 ^ 20 := by rw [le_div_iff₀ (by positivity)]; linarith
    have hes : e ≤ s := by
      have : 1 * e ≤ n * e := mul_le_mul_of_nonneg_right hn0 he
      linarith
    obtain ⟨S, hS, hS1, -, -⟩ := grad_sub hG hy hx (by rw [← hsdef, abs_of_pos s0]; linarith)
    rw [← hsdef, abs_of_pos s0] at hS1
    obtain ⟨S0, I, hI, hI0, hI1⟩ := slack_inv hG hF.one hs hes hS hS1
    have hlt : lt (nat 0) (y - x) = true := (XF.Is.lt hz0 hS).2 S0
    rw [hlt]
    simp only [if_true]
    have is0 : 0 < 1 / s := by positivity
    have hNle : N ≤ 1002 / 1000 * n := by
      have h1 := (abs_le.1 hN1).2
      have h2 : u * n ≤ 1 / 2 ^ 20 * n := mul_le_mul_of_nonneg_right hu' (by linarith)
      have h3 : (1 / 2 ^ 20 : K) * n ≤ 1 / 1000 * n := mul_le_mul_of_nonneg_right (by norm_num) (by linarith)
      linarith
    have hNa : |N| ≤ 1002 / 1000 * n := by rwa [abs_of_nonneg hN2]
    have hIa : |I| ≤ 1005 / 1000 * (1 / s) := by rwa [abs_of_nonneg hI0]
    -- the general estimate
    have est : ∀ δ, 0 ≤ δ → δ ≤ 2 * s → e ≤ δ → |c - a| ≤ δ → ∃ R, ((z - x) * ((nat 1 : XF F) / (y - x)) * nat n).Is R ∧
        |R| ≤ 1011 / 1000 * (n * (δ / s)) + 1 / 1000 ∧ (a ≤ c → 0 ≤ R) := by
      intro δ δ0 δ2 eδ hδ
      have hDa := near_abs_le hδ hu hD1
      have hDa' : |D| ≤ 1002 / 1000 * δ := by
        have : u * δ ≤ 1 / 2 ^ 20 * δ := mul_le_mul_of_nonneg_right hu' δ0
        have : (1 / 2 ^ 20 : K) * δ ≤ 1 / 1000 * δ := mul_le_mul_of_nonneg_right (by norm_num) δ0
        linarith
      set ρ := δ / s with hρ
      have ρ0 : 0 ≤ ρ := div_nonneg δ0 s0.le
      have ρ2 : ρ ≤ 2 := by rw [hρ, div_le_iff₀ s0]; linarith
      have hηρ : 1000 * η ≤ ρ := by
        rw [hρ, le_div_iff₀ s0]
        linarith
      have hDI : |D * I| ≤ 10071 / 10000 * ρ := by
        refine (abs_mul_le hDa' hIa).trans ?_
        have e1 : 1002 / 1000 * δ * (1005 / 1000 * (1 / s)) = 1002 * 1005 / 1000000 * ρ := by rw [hρ]; ring
        rw [e1]
        exact mul_le_mul_of_nonneg_right (by norm_num) ρ0
      obtain ⟨Q, hQ, hQ1, hQ2, -⟩ := grad_mul hG hD hI (by linarith)
      have hQa := near_abs_le hDI hu hQ1
      have hQa' : |Q| ≤ 10082 / 10000 * ρ := by
        have h1 : u * (10071 / 10000 * ρ) ≤ 1 / 2 ^ 20 * (10071 / 10000 * ρ) := mul_le_mul_of_nonneg_right hu' (by linarith)
        have h2 : (1 / 2 ^ 20 : K) * (10071 / 10000 * ρ) ≤ 1 / 10000 * ρ := by
          have : (1 / 2 ^ 20 * (10071 / 10000) : K) ≤ 1 / 10000 := by norm_num
          have := mul_le_mul_of_nonneg_right this ρ0
          linarith
        linarith
      have nρ0 : 0 ≤ n * ρ := mul_nonneg (by linarith) ρ0
      have hQN : |Q * N| ≤ 10103 / 10000 * (n * ρ) := by
        refine (abs_mul_le hQa' hNa).trans ?_
        have e1 : 10082 / 10000 * ρ * (1002 / 1000 * (n : K)) = 10082 * 1002 / 10000000 * (n * ρ) := by ring
        rw [e1]
        exact mul_le_mul_of_nonneg_right (by norm_num) nρ0
      have hnρ : (n : K) * ρ ≤ 2 ^ 20 * 2 := mul_le_mul hn' ρ2 ρ0 (by norm_num)
      obtain ⟨R, hR, hR1, hR2, -⟩ := grad_mul hG hQ hN (by linarith)
      have hRa := near_abs_le hQN hu hR1
      refine ⟨R, hR, ?_, fun hac => ?_⟩
      · have h1 : u * (10103 / 10000 * (n * ρ)) ≤ 1 / 2 ^ 20 * (10103 / 10000 * (n * ρ)) := mul_le_mul_of_nonneg_right hu' (by linarith)
        have h2 : (1 / 2 ^ 20 : K) * (10103 / 10000 * (n * ρ)) ≤ 2 / 10000 * (n * ρ) := by
          have : (1 / 2 ^ 20 * (10103 / 10000) : K) ≤ 2 / 10000 := by norm_num
          have := mul_le_mul_of_nonneg_right this nρ0
          linarith
        linarith
      · exact hR2 (mul_nonneg (hQ2 (mul_nonneg (hD2 (by linarith)) hI0)) hN2)
    have hup : ∀ t : K, |t| ≤ 1011 / 1000 * (2 ^ 20 * 2) + 1 / 1000 → t + 1 / 2 < 2 ^ 32 := by
      intro t ht
      have h1 := le_abs_self t
      have h2 : (1011 / 1000 * (2 ^ 20 * 2) + 1 / 1000 + 1 / 2 : K) < 2 ^ 32 := by norm_num
      linarith
    by_cases hca : a ≤ c
    · obtain ⟨R, hR, hR1, hR2⟩ := est (2 * s) (by linarith) le_rfl (by linarith) (by rw [abs_of_nonneg (by linarith)]; linarith)
      refine roundU_ne_none' hR (by linarith [hR2 hca]) (hup R ?_)
      have e1 : 2 * s / s = 2 := by field_simp
      rw [e1] at hR1
      have : (n : K) * 2 ≤ 2 ^ 20 * 2 := by linarith
      linarith
    · obtain ⟨R, hR, hR1, -⟩ := est e he (by linarith) le_rfl (by rw [abs_of_nonpos (by linarith)]; linarith)
      have h1 : (n : K) * (e / s) ≤ 10 / 21 := by
        rw [← mul_div_assoc, div_le_iff₀ s0]
        linarith
      have h2 := (abs_le.1 hR1).1
      refine roundU_ne_none' hR (by linarith) (hup R ?_)
      have h3 : (1011 / 1000 * (10 / 21) : K) ≤ 1011 / 1000 * (2 ^ 20 * 2) := by norm_num
      linarith

/-- like `WellFormed`, but the centers may be outside their boxes by `e` -/
structure Loose (e : K) (p : Collection (XF F) P) : Prop where
  reads : ∀ i, i < p.size → ∃ b c q, p.box i = .ok b ∧ p.center i = .ok c ∧ p.prim i = .ok q
  range : ∀ i, i < p.size → ∀ b, p.box i = .ok b → BoxInRange b
  center : ∀ i, i < p.size → ∀ b c, p.box i = .ok b → p.center i = .ok c →
    ∀ k x y, (b.1.get k).Is x → (b.2.get k).Is y → ∃ v, (c.get k).Is v ∧ x - e ≤ v ∧ v ≤ y + e

theorem union_axis_slack {e : K} (p : Collection (XF F) P) (wf : Loose e p) (idx : List Nat) (hne : idx ≠ [])
    (hidx : ∀ i ∈ idx, i < p.size) (mn mx : Vec3 (XF F)) (h : computeBoundingBox p idx = .ok (mn, mx))
    (i : Nat) (hi : i ∈ idx) (c : Vec3 (XF F)) (hc : p.center i = .ok c) (j : Fin 3) :
    ∃ x y v, (mn.get j).Is x ∧ (mx.get j).Is y ∧ (c.get j).Is v ∧ x - e ≤ v ∧ v ≤ y + e ∧
      (∃ i1 i2 b1 b2, i1 < p.size ∧ i2 < p.size ∧ p.box i1 = .ok b1 ∧ p.box i2 = .ok b2 ∧ b1.1.get j = mn.get j ∧
        b2.2.get j = mx.get j) := by
  obtain ⟨bs, hbs, -, -, hspec⟩ := computeBoundingBox_spec p idx (fun i hi b hb => wf.range i (hidx i hi) b hb) _ h
  obtain ⟨hr, hcont, htight⟩ := hspec hne
  obtain ⟨x, hx⟩ := InRange.is (hr j).1
  obtain ⟨y, hy⟩ := InRange.is (hr j).2
  obtain ⟨b, hb⟩ := mapM_mem_of_in hbs hi
  obtain ⟨⟨b1, hb1, e1⟩, ⟨b2, hb2, e2⟩⟩ := htight j
  obtain ⟨i1, hi1, hib1⟩ := mapM_mem_of_out hbs hb1
  obtain ⟨i2, hi2, hib2⟩ := mapM_mem_of_out hbs hb2
  have hrange := wf.range i (hidx i hi) b hb.2
  obtain ⟨bx, hbx⟩ := InRange.is (hrange j).1
  obtain ⟨bY, hbY⟩ := InRange.is (hrange j).2
  obtain ⟨v, hv, hv1, hv2⟩ := wf.center i (hidx i hi) b c hb.2 hc j bx bY hbx hbY
  obtain ⟨k1, k2⟩ := hcont b hb.1 j
  have q1 := (XF.Is.le hx hbx).1 k1
  have q2 := (XF.Is.le hbY hy).1 k2
  exact ⟨x, y, v, hx, hy, hv, by linarith, by linarith, i1, i2, b1, b2, hidx _ hi1, hidx _ hi2, hib1, hib2, e1, e2⟩

end
end Blazert
