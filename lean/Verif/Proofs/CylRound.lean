/- Rounding errors of the cylinder test. -/
import Verif.Proofs.TubeRoots

set_option autoImplicit false
set_option linter.unusedSectionVars false

namespace Blazert
open Scalar

section
variable {K : Type} [Field K] [LinearOrder K] [IsStrictOrderedRing K] [FloorRing K] {F : Fmt K} {u η hi L ν μ : K}

/-! ### what is finite came from finite numbers -/

theorem Is.mul_inv {x y : XF F} {r : K} (h : (x * y).Is r) : ∃ a b, x.Is a ∧ y.Is b ∧ F.post (a * b) = some r := by
  match x, y, h with
  | .fin a s, .fin b t, h => exact ⟨a, b, ⟨s, rfl⟩, ⟨t, rfl⟩, XF.mk_is h⟩
  | .fin a s, .inf t, h =>
    obtain ⟨_, h⟩ := h
    change (if a = 0 then XF.nan else XF.inf _) = _ at h
    split_ifs at h
  | .inf s, .fin b t, h =>
    obtain ⟨_, h⟩ := h
    change (if b = 0 then XF.nan else XF.inf _) = _ at h
    split_ifs at h
  | .inf s, .inf t, h => obtain ⟨_, h⟩ := h; cases h
  | .nan, .fin _ _, h => obtain ⟨_, h⟩ := h; cases h
  | .nan, .inf _, h => obtain ⟨_, h⟩ := h; cases h
  | .nan, .nan, h => obtain ⟨_, h⟩ := h; cases h
  | .fin _ _, .nan, h => obtain ⟨_, h⟩ := h; cases h
  | .inf _, .nan, h => obtain ⟨_, h⟩ := h; cases h

theorem Is.add_inv {x y : XF F} {r : K} (h : (x + y).Is r) : ∃ a b, x.Is a ∧ y.Is b ∧ F.post (a + b) = some r := by
  match x, y, h with
  | .fin a s, .fin b t, h => exact ⟨a, b, ⟨s, rfl⟩, ⟨t, rfl⟩, XF.mk_is h⟩
  | .fin a s, .inf t, h => obtain ⟨_, h⟩ := h; cases h
  | .inf s, .fin b t, h => obtain ⟨_, h⟩ := h; cases h
  | .inf s, .inf t, h =>
    obtain ⟨_, h⟩ := h
    change (if s = t then XF.inf s else XF.nan) = _ at h
    split_ifs at h
  | .nan, .fin _ _, h => obtain ⟨_, h⟩ := h; cases h
  | .nan, .inf _, h => obtain ⟨_, h⟩ := h; cases h
  | .nan, .nan, h => obtain ⟨_, h⟩ := h; cases h
  | .fin _ _, .nan, h => obtain ⟨_, h⟩ := h; cases h
  | .inf _, .nan, h => obtain ⟨_, h⟩ := h; cases h

theorem Is.mul_zero' (hF : F.Gradual u η hi) {x y : XF F} {a : K} (hx : x.Is a) (hy : y.Is 0) : (x * y).Is 0 := by
  obtain ⟨s, rfl⟩ := hx
  obtain ⟨t, rfl⟩ := hy
  refine XF.is_mk ?_
  rw [mul_zero]; exact hF.zero

theorem Is.add_zero' (hF : F.Gradual u η hi) {x y : XF F} (hx : x.Is 0) (hy : y.Is 0) : (x + y).Is 0 := by
  obtain ⟨s, rfl⟩ := hx
  obtain ⟨t, rfl⟩ := hy
  refine XF.is_mk ?_
  rw [add_zero]; exact hF.zero

/-! ### the roots, as computed -/

/-- no root is computed for a ray parallel to the axis -/
theorem cyl_parallel (hF : F.Rounds u η hi) (hs : TubeSizes u η hi L) {a' b' : XF F} {org dir : Vec3 (XF F)} {a b : K} {p d : Vec3 K}
    (ha : a'.Is a) (hb : b'.Is b) (hd : IsV dir d) (h : TubeIn L a b p.x p.y d.x d.y) (hx : d.x = 0) (hy : d.y = 0) :
    (cylABC a' b' org dir).1.Is 0 := by
  obtain ⟨u0, u1, η0, Q1, ηθ, ηQ, θ0, QQ, Q2, Q3, hi2, hi3, hi4, θu⟩ := hs
  have ha2 : |a * a| ≤ L ^ 2 := by
    rw [pow_two]; exact abs_mul_le (by rw [abs_of_pos h.a0]; exact h.aQ) (by rw [abs_of_pos h.a0]; exact h.aQ)
  have hb2 : |b * b| ≤ L ^ 2 := by
    rw [pow_two]; exact abs_mul_le (by rw [abs_of_pos h.b0]; exact h.bQ) (by rw [abs_of_pos h.b0]; exact h.bQ)
  obtain ⟨p1, p2, -⟩ := rnd_mul hF.toGradual u0.le ha ha ha2 (by linarith)
  obtain ⟨q1, q2, -⟩ := rnd_mul hF.toGradual u0.le hb hb hb2 (by linarith)
  have hx' : dir.x.Is 0 := hx ▸ hd.1
  have hy' : dir.y.Is 0 := hy ▸ hd.2.1
  exact Is.add_zero' hF.toGradual (Is.mul_zero' hF.toGradual (Is.mul_zero' hF.toGradual p2 hy') hy')
    (Is.mul_zero' hF.toGradual (Is.mul_zero' hF.toGradual q2 hx') hx')

theorem abs_tubeB_le {a b x y j k : K} : |tubeB a b x y j k| ≤ tubeP a b x y j k := by
  unfold tubeB tubeP
  refine (abs_add_le _ _).trans (le_of_eq ?_)
  rw [show a ^ 2 * k * y = a ^ 2 * (k * y) by ring, show b ^ 2 * j * x = b ^ 2 * (j * x) by ring, abs_mul (a ^ 2), abs_mul (b ^ 2),
    abs_of_nonneg (pow_two_nonneg a), abs_of_nonneg (pow_two_nonneg b)]

/-- what a finite root comes from -/
theorem cyl_root_inv {m B S A : XF F} {T A' B' s σ : K} (h : (m / A * (B + S)).Is T) (hm : m.Is σ) (hA : A.Is A') (hB : B.Is B')
    (hS : S.Is s) : A' ≠ 0 ∧ ∃ q N, F.post (σ / A') = some q ∧ F.post (B' + s) = some N ∧ F.post (q * N) = some T := by
  obtain ⟨q, N, hq, hN, hT⟩ := Is.mul_inv h
  obtain ⟨h1, h2⟩ := Is.div_post hq hm hA
  obtain ⟨s', hs', h3⟩ := Is.add_right hN hB
  rw [hs'.unique hS] at h3
  exact ⟨h1, q, N, h2, h3, hT⟩

/-- the two roots: the equation holds up to rounding -/
theorem cyl_root_near (hF : F.Rounds u η hi) (hfa : F.Faithful u η) (hs : TubeScale u η hi L ν μ) {a' b' : XF F}
    {org dir : Vec3 (XF F)} {a b : K} {p d : Vec3 K} (ha : a'.Is a) (hb : b'.Is b) (ho : IsV org p) (hd : IsV dir d)
    (h : TubeIn (1 + L) a b p.x p.y d.x d.y) (haν : ν ≤ a) (hbν : ν ≤ b) (hsl : (d.x = 0 ∧ d.y = 0) ∨ μ ≤ |d.x| ∨ μ ≤ |d.y|)
    (hC : lt (cylABC a' b' org dir).2.2 (nat 0) = false) {T : K}
    (hT : (cylT0 a' b' (cylABC a' b' org dir).1 (cylABC a' b' org dir).2.1 (cylABC a' b' org dir).2.2).Is T ∨
      (cylT1 a' b' (cylABC a' b' org dir).1 (cylABC a' b' org dir).2.1 (cylABC a' b' org dir).2.2).Is T) :
    (μ ≤ |d.x| ∨ μ ≤ |d.y|) ∧
    |tubeE a b (p.x + T * d.x) (p.y + T * d.y)| ≤ 56 * (u * tubeH a b p.x p.y) ∧
    Mag (tubeA a b d.x d.y * tubeH a b p.x p.y) (1003 / 1000) (tubeA a b d.x d.y * T + tubeB a b p.x p.y d.x d.y) ∧
    ((cylT0 a' b' (cylABC a' b' org dir).1 (cylABC a' b' org dir).2.1 (cylABC a' b' org dir).2.2).Is T →
      tubeE a b p.x p.y ≤ -(27 * (u * tubeH a b p.x p.y)) → 0 < T) := by
  have ht := hs.tube
  have hu0 := ht.u0
  have hu1 := ht.u1
  have hAQ := h.A_le
  have hpar := cyl_parallel hF ht (org := org) ha hb hd h
  obtain ⟨A', B', C', A1, B1, C1, A2, B2, C2⟩ := cyl_coeffs hF ht ha hb ho hd h
  generalize cylABC a' b' org dir = abc at hC hT hpar A1 B1 C1 ⊢
  have hC0 : 0 ≤ C' := by
    by_contra hlt
    rw [(C1.lt hF.nat0).2 (not_le.1 hlt)] at hC
    exact absurd hC (by simp)
  obtain ⟨s, r, s1, s0, r0, s2, r2⟩ := tube_sqrt hF ht ha hb C1 h hC0 C2
  have core : ∀ σ q N : K, |σ| = 1 → σ * σ = 1 → A' ≠ 0 → F.post (σ / A') = some q → F.post (-σ * B' + s) = some N →
      F.post (q * N) = some T →
      (μ ≤ |d.x| ∨ μ ≤ |d.y|) ∧
      |tubeE a b (p.x + T * d.x) (p.y + T * d.y)| ≤ 56 * (u * tubeH a b p.x p.y) ∧
      Mag (tubeA a b d.x d.y * tubeH a b p.x p.y) (1003 / 1000) (tubeA a b d.x d.y * T + tubeB a b p.x p.y d.x d.y) ∧
      (σ = 1 → tubeE a b p.x p.y ≤ -(27 * (u * tubeH a b p.x p.y)) → 0 < T) := by
    intro σ q N hσ hσ2 hA' hq hN hT'
    have hjk : μ ≤ |d.x| ∨ μ ≤ |d.y| := by
      rcases hsl with ⟨hx, hy⟩ | hjk
      · exact absurd (A1.unique (hpar hx hy)) hA'
      · exact hjk
    obtain ⟨hf, -⟩ := hs.fine (x := p.x) (y := p.y) haν hbν hjk
    obtain ⟨ss, ms⟩ := tube_sqrt_sq hu0 hu1 h.a0 h.b0 ht.θ0 hf r0 s2 r2
    have hP1 : |tubeB a b p.x p.y d.x d.y| ≤ tubeP a b p.x p.y d.x d.y := abs_tubeB_le
    have hP2 : Mag (tubeA a b d.x d.y * tubeH a b p.x p.y) 1 (tubeP a b p.x p.y d.x d.y) :=
      ⟨zero_le_one, by rw [one_pow, one_mul]; exact tubeP_sq⟩
    obtain ⟨t1, t2, -, t4, t5⟩ := tube_root ht hf hAQ hσ hσ2 A2 B2 hP1 hP2 ms (hfa _ _ hq) (hfa _ _ hN) (hfa _ _ hT')
    obtain ⟨e1, e2⟩ := tube_residual hu0 hu1 hf hσ (tube_along (a := a) (b := b) (x := p.x) (y := p.y) (j := d.x) (k := d.y) T) ss ms t1
    refine ⟨hjk, e1, e2, fun hσ1 hE => ?_⟩
    subst hσ1
    have hE0 := tube_along (a := a) (b := b) (x := p.x) (y := p.y) (j := d.x) (k := d.y) 0
    rw [zero_mul, zero_mul, add_zero, add_zero, mul_zero, zero_add] at hE0
    refine tube_exit_pos ht hf hE0 hE s0 ss ms t5 t2 (hP2.of_le hP1) (N := N) ?_ (by rw [one_mul] at t4; exact t4)
    have h1 := hfa _ _ hN
    rw [neg_one_mul] at h1
    exact h1
  have c0 := fun h0 : (cylT0 a' b' abc.1 abc.2.1 abc.2.2).Is T => (show _ ∧ _ ∧ _ ∧ (_ → _ → _) by
    obtain ⟨hA', q, N, hq, hN, hT'⟩ := cyl_root_inv h0 hF.nat1 A1 B1.neg s1
    exact core 1 q N abs_one (one_mul 1) hA' hq (by rw [neg_one_mul]; exact hN) hT')
  have c1 := fun h0 : (cylT1 a' b' abc.1 abc.2.1 abc.2.2).Is T => (show _ ∧ _ ∧ _ ∧ (_ → _ → _) by
    obtain ⟨hA', q, N, hq, hN, hT'⟩ := cyl_root_inv h0 hF.nat1.neg A1 B1 s1
    exact core (-1) q N (by rw [abs_neg, abs_one]) (by norm_num) hA' hq (by rw [neg_neg, one_mul]; exact hN) hT')
  rcases hT with h0 | h0
  · obtain ⟨w1, w2, w3, w4⟩ := c0 h0
    exact ⟨w1, w2, w3, fun _ => w4 rfl⟩
  · obtain ⟨w1, w2, w3, -⟩ := c1 h0
    exact ⟨w1, w2, w3, fun h0 => (c0 h0).2.2.2 rfl⟩

end
end Blazert
