/- The bounding boxes of spheres, planes and cylinders with rounding: their coordinates are on a grid and enclose the center. -/
import Verif.Proofs.BinSlack
import Verif.Proofs.Grid
import Verif.Proofs.Plane
import Verif.Spec.CommitRound

set_option autoImplicit false
set_option linter.unusedSectionVars false

namespace Blazert
open Scalar

section
variable {K : Type} [Field K] [LinearOrder K] [IsStrictOrderedRing K] [FloorRing K] {F : Fmt K}

/-- What is needed of the format: numbers of magnitude at least `lo / 2` are multiples of `q`, multiples of `q / 2` and of `q ^ 2 / 2`
are rounded to such multiples, and the errors of underflow are small compared with these. -/
structure GridOk (F : Fmt K) (u η hi lo q M : K) : Prop where
  rounds : F.Rounds u η hi
  odd : F.Odd
  ordered : F.Ordered
  coarse : ∀ r v, F.post r = some v → lo / 2 ≤ |v| → ∃ k : ℤ, v = k * q
  grid : ∀ (k : ℤ) r, F.post (k * (q * q / 2)) = some r → ∃ n : ℤ, r = n * (q * q / 2)
  grid2 : ∀ (k : ℤ) r, F.post (k * (q / 2)) = some r → ∃ n : ℤ, r = n * (q / 2)
  inv : ∃ n : ℤ, n * q = 1
  q_pos : 0 < q
  q_le : q ≤ 1
  u_nonneg : 0 ≤ u
  u_le : 100 * u ≤ 1
  η_nonneg : 0 ≤ η
  η_le : 4 * η ≤ q * q / 2
  lo_pos : 0 < lo
  η_lo : 100 * η ≤ lo
  M_ge : 2 ≤ M
  M_hi : 1000 * M ≤ hi
  hi_max : hi ≤ F.maxVal
  tiny_pos : 0 < F.tiny
  tiny_Q : 16 * F.tiny ≤ q * q / 2
  tiny_lo : 16 * F.tiny ≤ lo
  η_tiny : 100 * η ≤ F.tiny

/-- a multiple of `Q` of magnitude at most `M` -/
def Tame (Q M v : K) : Prop := |v| ≤ M ∧ ∃ k : ℤ, v = k * Q

theorem Tame.mono {Q M N v : K} (h : Tame Q M v) (hMN : M ≤ N) : Tame Q N v := ⟨h.1.trans hMN, h.2⟩
theorem Tame.neg {Q M v : K} (h : Tame Q M v) : Tame Q M (-v) := by
  obtain ⟨h, k, rfl⟩ := h
  exact ⟨by rwa [abs_neg], -k, by push_cast; ring⟩
theorem Tame.add {Q M N v w : K} (h : Tame Q M v) (h' : Tame Q N w) : Tame Q (M + N) (v + w) := by
  obtain ⟨h, k, rfl⟩ := h
  obtain ⟨h', l, rfl⟩ := h'
  exact ⟨(abs_add_le _ _).trans (add_le_add h h'), k + l, by push_cast; ring⟩
theorem Tame.mul {Q Q' M N v w : K} (h : Tame Q M v) (h' : Tame Q' N w) : Tame (Q * Q') (M * N) (v * w) := by
  obtain ⟨h, k, rfl⟩ := h
  obtain ⟨h', l, rfl⟩ := h'
  exact ⟨abs_mul_le h h', k * l, by push_cast; ring⟩
theorem Tame.zero {Q M : K} (h : 0 ≤ M) : Tame Q M 0 := ⟨by rwa [abs_zero], 0, by simp⟩

variable {u η hi lo q M : K}

theorem is_add_post {x y : XF F} {a b r : K} (hx : x.Is a) (hy : y.Is b) (h : F.post (a + b) = some r) : (x + y).Is r := by
  obtain ⟨s, rfl⟩ := hx
  obtain ⟨t, rfl⟩ := hy
  show (XF.mk F _ (a + b)).Is r
  unfold XF.mk
  rw [h]
  exact ⟨_, rfl⟩
theorem is_sub_post {x y : XF F} {a b r : K} (hx : x.Is a) (hy : y.Is b) (h : F.post (a - b) = some r) : (x - y).Is r := by
  obtain ⟨s, rfl⟩ := hx
  obtain ⟨t, rfl⟩ := hy
  rw [sub_eq_add_neg] at h
  show (XF.mk F _ (a + -b)).Is r
  unfold XF.mk
  rw [h]
  exact ⟨_, rfl⟩
theorem is_mul_post {x y : XF F} {a b r : K} (hx : x.Is a) (hy : y.Is b) (h : F.post (a * b) = some r) : (x * y).Is r := by
  obtain ⟨s, rfl⟩ := hx
  obtain ⟨t, rfl⟩ := hy
  show (XF.mk F _ (a * b)).Is r
  unfold XF.mk
  rw [h]
  exact ⟨_, rfl⟩
theorem is_div_post {x y : XF F} {a b r : K} (hx : x.Is a) (hy : y.Is b) (hb : b ≠ 0) (h : F.post (a / b) = some r) : (x / y).Is r := by
  obtain ⟨s, rfl⟩ := hx
  obtain ⟨t, rfl⟩ := hy
  show (XF.div _ _).Is r
  unfold XF.div
  simp only
  rw [if_neg hb]
  unfold XF.mk
  rw [h]
  exact ⟨_, rfl⟩

section
variable (G : GridOk F u η hi lo q M)
include G

theorem GridOk.idem {r v w : K} (h : F.post r = some v) (h' : F.post v = some w) : w = v := by
  obtain ⟨h1, h2⟩ := G.ordered r v v w h h'
  exact le_antisymm (h2 le_rfl) (h1 le_rfl)

/-- rounding a multiple of `Q`, for both grids -/
theorem GridOk.post_of {Q N v : K} (hQ : ∀ (k : ℤ) r, F.post (k * Q) = some r → ∃ n : ℤ, r = n * Q) (Q0 : 0 < Q) (hη : 4 * η ≤ Q)
    (hv : Tame Q N v) (hN : N ≤ hi) : ∃ r, F.post v = some r ∧ Tame Q (2 * N) r := by
  obtain ⟨h1, k, rfl⟩ := hv
  obtain ⟨r, h2, h3, -⟩ := G.rounds.post _ (h1.trans hN)
  refine ⟨r, h2, ?_, hQ k r h2⟩
  by_cases hk : k = 0
  · subst hk
    have : r = 0 := by
      have := G.rounds.zero
      simp only [Int.cast_zero, zero_mul] at h2
      rw [h2, Option.some.injEq] at this
      exact this
    rw [this, abs_zero]
    linarith [(abs_nonneg _).trans h1]
  · have hk1 : (1 : K) ≤ |(k : K)| := by exact_mod_cast Int.one_le_abs hk
    have h4 : Q ≤ |(k : K) * Q| := by
      rw [abs_mul, abs_of_pos Q0]
      have := mul_le_mul_of_nonneg_right hk1 Q0.le
      linarith
    have h5 := near_abs_le h1 G.u_nonneg h3
    have h6 : u * N ≤ 1 / 100 * N := mul_le_mul_of_nonneg_right (by linarith [G.u_le]) ((abs_nonneg _).trans h1)
    linarith

theorem GridOk.Q_pos : 0 < q * q / 2 := by have := G.q_pos; positivity

theorem GridOk.post {N v : K} (hv : Tame (q * q / 2) N v) (hN : N ≤ hi) : ∃ r, F.post v = some r ∧ Tame (q * q / 2) (2 * N) r :=
  G.post_of G.grid G.Q_pos G.η_le hv hN

/-- only zero is rounded to zero, on the grid -/
theorem GridOk.post_zero {N v : K} (hv : Tame (q * q / 2) N v) (hN : N ≤ hi) (h : F.post v = some 0) : v = 0 := by
  obtain ⟨h1, k, rfl⟩ := hv
  by_contra hne
  have hk : k ≠ 0 := by rintro rfl; simp at hne
  have hk1 : (1 : K) ≤ |(k : K)| := by exact_mod_cast Int.one_le_abs hk
  have Q0 := G.Q_pos
  have h4 : q * q / 2 ≤ |(k : K) * (q * q / 2)| := by
    rw [abs_mul, abs_of_pos Q0]
    have := mul_le_mul_of_nonneg_right hk1 Q0.le
    linarith
  obtain ⟨r, h2, h3, -⟩ := G.rounds.post _ (h1.trans hN)
  rw [h, Option.some.injEq] at h2
  rw [← h2, zero_sub, abs_neg] at h3
  have h6 : u * |(k : K) * (q * q / 2)| ≤ 1 / 100 * |(k : K) * (q * q / 2)| := mul_le_mul_of_nonneg_right (by linarith [G.u_le]) (abs_nonneg _)
  have := G.η_le
  linarith

theorem GridOk.refine {N v : K} (hv : Tame q N v) : Tame (q * q / 2) N v := by
  obtain ⟨n, hn⟩ := G.inv
  obtain ⟨h, k, rfl⟩ := hv
  refine ⟨h, k * (2 * n), ?_⟩
  push_cast
  have : (k : K) * (2 * n) * (q * q / 2) = k * q * (n * q) := by ring
  rw [this, hn, mul_one]

theorem GridOk.half {N v : K} (hv : Tame q N v) (hN : N ≤ hi) : ∃ r, F.post (v / 2) = some r ∧ Tame (q / 2) N r := by
  have q0 := G.q_pos
  have hq : q * q / 2 ≤ q / 2 := by
    have := mul_le_mul_of_nonneg_right G.q_le q0.le
    linarith
  obtain ⟨h, k, rfl⟩ := hv
  have N0 := (abs_nonneg _).trans h
  have ht : Tame (q / 2) (N / 2) (k * q / 2) := ⟨by rw [abs_div, abs_two]; linarith, k, by ring⟩
  obtain ⟨r, h1, h2⟩ := G.post_of G.grid2 (by positivity) (by linarith [G.η_le]) ht (by linarith)
  exact ⟨r, h1, h2.mono (by linarith)⟩

theorem GridOk.moderate {N : K} {x : XF F} (hx : x.Moderate lo N) (hN : 0 ≤ N) :
    ∃ v, x.Is v ∧ (∃ r, F.post r = some v) ∧ Tame q N v ∧ (v = 0 ∨ lo ≤ |v|) := by
  obtain ⟨v, h1, ⟨r, h2⟩, rfl | ⟨h3, h4⟩⟩ := hx
  · exact ⟨0, h1, ⟨r, h2⟩, .zero hN, .inl rfl⟩
  · have := G.lo_pos
    exact ⟨v, h1, ⟨r, h2⟩, ⟨h4, G.coarse r v h2 (by linarith)⟩, .inr h3⟩

end

/-- what is shown of the boxes: they enclose the center, and their coordinates are multiples of `Q`, or tiny but not too tiny -/
def NiceBox (t Q M : K) (b : Vec3 (XF F) × Vec3 (XF F)) (c : Vec3 (XF F)) : Prop :=
  ∀ k, ∃ x y v, (b.1.get k).Is x ∧ (b.2.get k).Is y ∧ (c.get k).Is v ∧ x ≤ v ∧ v ≤ y ∧ |x| ≤ M ∧ |y| ≤ M ∧
    ((∃ n : ℤ, x = n * Q) ∨ (-Q ≤ x ∧ x ≤ -t)) ∧ ((∃ n : ℤ, y = n * Q) ∨ (t ≤ y ∧ y ≤ Q))

theorem spread_pair {t Q x y : K} (t0 : 0 < t) (tQ : t ≤ Q) (hx : (∃ n : ℤ, x = n * Q) ∨ (-Q ≤ x ∧ x ≤ -t))
    (hy : (∃ n : ℤ, y = n * Q) ∨ (t ≤ y ∧ y ≤ Q)) : y ≤ x ∨ t ≤ y - x := by
  have Q0 : 0 < Q := by linarith
  have ge1 : ∀ n : ℤ, 0 < n → Q ≤ n * Q := by
    intro n hn
    have : (1 : K) ≤ n := by exact_mod_cast hn
    have := mul_le_mul_of_nonneg_right this Q0.le
    linarith
  have le0 : ∀ n : ℤ, n ≤ 0 → n * Q ≤ 0 := by
    intro n hn
    have : (n : K) ≤ 0 := by exact_mod_cast hn
    exact mul_nonpos_of_nonpos_of_nonneg this Q0.le
  rcases hx with ⟨n, rfl⟩ | ⟨x1, x2⟩ <;> rcases hy with ⟨m, rfl⟩ | ⟨y1, y2⟩
  · rcases le_or_gt m n with h | h
    · left
      have : (m : K) ≤ n := by exact_mod_cast h
      exact mul_le_mul_of_nonneg_right this Q0.le
    · right
      have := ge1 (m - n) (by omega)
      push_cast at this
      linarith
  · rcases le_or_gt n 0 with h | h
    · right
      have := le0 n h
      linarith
    · left
      have := ge1 n h
      linarith
  · rcases lt_or_ge m 0 with h | h
    · left
      have := ge1 (-m) (by omega)
      push_cast at this
      linarith
    · right
      have := le0 (-m) (by omega)
      push_cast at this
      linarith
  · right
    linarith

theorem wellFormed_of_nice {P : Type} {t Q N hi : K} {p : Collection (XF F) P} (t0 : 0 < t) (tQ : t ≤ Q) (hN : 2 * N ≤ hi) (hmax : hi ≤ F.maxVal)
    (reads : ∀ i, i < p.size → ∃ b c q, p.box i = .ok b ∧ p.center i = .ok c ∧ p.prim i = .ok q ∧ NiceBox t Q N b c) :
    WellFormed p ∧ Spread t hi p := by
  refine ⟨⟨fun i hi => ?_, fun i hi b hb k => ?_, fun i hi b c hb hc k => ?_⟩, fun i j hi hj bi bj hbi hbj k x y hx hy => ?_⟩
  · obtain ⟨b, c, q, h1, h2, h3, -⟩ := reads i hi
    exact ⟨b, c, q, h1, h2, h3⟩
  · obtain ⟨b', c, q, h1, -, -, h⟩ := reads i hi
    rw [hb, Except.ok.injEq] at h1
    subst h1
    obtain ⟨x, y, -, ⟨s, hx⟩, ⟨s', hy⟩, -, -, -, h1, h2, -⟩ := h k
    have := (abs_nonneg _).trans h1
    rw [abs_le] at h1 h2
    exact ⟨⟨x, s, hx, by linarith, by linarith⟩, ⟨y, s', hy, by linarith, by linarith⟩⟩
  · obtain ⟨b', c', q, h1, h2, -, h⟩ := reads i hi
    rw [hb, Except.ok.injEq] at h1
    rw [hc, Except.ok.injEq] at h2
    subst h1 h2
    obtain ⟨x, y, v, hx, hy, hv, h1, h2, -⟩ := h k
    exact ⟨(XF.Is.le hx hv).2 h1, (XF.Is.le hv hy).2 h2⟩
  · obtain ⟨b', c', q, h1, -, -, h⟩ := reads i hi
    obtain ⟨b2, c2, q2, h1', -, -, h'⟩ := reads j hj
    rw [hbi, Except.ok.injEq] at h1
    rw [hbj, Except.ok.injEq] at h1'
    subst h1 h1'
    obtain ⟨x', -, -, hx', -, -, -, -, n1, -, g1, -⟩ := h k
    obtain ⟨-, y', -, -, hy', -, -, -, -, n2, -, g2⟩ := h' k
    obtain rfl := hx.unique hx'
    obtain rfl := hy.unique hy'
    rcases spread_pair t0 tQ g1 g2 with h | h
    · exact .inl h
    · refine .inr ⟨h, ?_⟩
      rw [abs_le] at n1 n2
      linarith

theorem minOf_is' {x : XF F} {a : K} (hx : x.Is a) (l : List (XF F)) (l' : List K) (h : List.Forall₂ XF.Is l l') :
    ∃ μ, (minOf x l).Is μ ∧ μ ∈ a :: l' ∧ ∀ y ∈ a :: l', μ ≤ y := by
  induction h generalizing x a with
  | nil => exact ⟨a, hx, by simp, by simp⟩
  | @cons y b l l' hy _ ih =>
    obtain ⟨μ, h1, h0, h2⟩ := ih (hx.min hy)
    have h3 := h2 (Min.min a b) (by simp)
    refine ⟨μ, h1, ?_, fun z hz => ?_⟩
    · simp only [List.mem_cons] at h0 ⊢
      rcases h0 with rfl | h0
      · rcases min_choice a b with e | e <;> rw [e] <;> simp
      · exact .inr (.inr h0)
    · simp only [List.mem_cons] at hz
      rcases hz with rfl | rfl | hz
      · exact h3.trans (min_le_left _ _)
      · exact h3.trans (min_le_right _ _)
      · exact h2 z (by simp [hz])

theorem maxOf_is' {x : XF F} {a : K} (hx : x.Is a) (l : List (XF F)) (l' : List K) (h : List.Forall₂ XF.Is l l') :
    ∃ μ, (maxOf x l).Is μ ∧ μ ∈ a :: l' ∧ ∀ y ∈ a :: l', y ≤ μ := by
  induction h generalizing x a with
  | nil => exact ⟨a, hx, by simp, by simp⟩
  | @cons y b l l' hy _ ih =>
    obtain ⟨μ, h1, h0, h2⟩ := ih (hx.max hy)
    have h3 := h2 (Max.max a b) (by simp)
    refine ⟨μ, h1, ?_, fun z hz => ?_⟩
    · simp only [List.mem_cons] at h0 ⊢
      rcases h0 with rfl | h0
      · rcases max_choice a b with e | e <;> rw [e] <;> simp
      · exact .inr (.inr h0)
    · simp only [List.mem_cons] at hz
      rcases hz with rfl | rfl | hz
      · exact (le_max_left _ _).trans h3
      · exact (le_max_right _ _).trans h3
      · exact h2 z (by simp [hz])

end
end Blazert
