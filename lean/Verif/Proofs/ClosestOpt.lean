/- The point `closest_point_on_triangle` computes is nearly the closest one: conditions of optimality that hold up to an error. -/
import Verif.Proofs.ClosestRound

set_option autoImplicit false
set_option linter.unusedSectionVars false

namespace Blazert
open Scalar

variable {K : Type} [Field K] [LinearOrder K] [IsStrictOrderedRing K] [FloorRing K]

/-- in `(s, t)`, the derivatives of `a s² + 2 b s t + c t² + 2 d s + 2 e t` towards the three corners are at least `-2 E` -/
structure KKT (E a b c d e s t : K) : Prop where
  v0 : (a * s + b * t + d) * s + (b * s + c * t + e) * t ≤ E
  v1 : -E ≤ (a * s + b * t + d) * (1 - s) - (b * s + c * t + e) * t
  v2 : -E ≤ (b * s + c * t + e) * (1 - t) - (a * s + b * t + d) * s

theorem KKT.mono {E E' a b c d e s t : K} (h : KKT E a b c d e s t) (hE : E ≤ E') : KKT E' a b c d e s t := by
  obtain ⟨h0, h1, h2⟩ := h
  exact ⟨by linarith, by linarith, by linarith⟩

theorem KKT.swap {E a b c d e s t : K} (h : KKT E a b c d e s t) : KKT E c b a e d t s := by
  obtain ⟨h0, h1, h2⟩ := h
  exact ⟨by linarith, by linarith, by linarith⟩

/-- hence the value is nearly minimal -/
theorem KKT.le {E a b c d e s t x y : K} (h : KKT E a b c d e s t) (ha : 0 ≤ a) (hc : 0 ≤ c) (hdet : b * b ≤ a * c) (E0 : 0 ≤ E) (x0 : 0 ≤ x)
    (y0 : 0 ≤ y) (hxy : x + y ≤ 1) :
    a * s * s + 2 * b * s * t + c * t * t + 2 * d * s + 2 * e * t ≤
      a * x * x + 2 * b * x * y + c * y * y + 2 * d * x + 2 * e * y + 2 * E := by
  obtain ⟨h0, h1, h2⟩ := h
  -- convexity
  have hconv : ∀ p q : K, 0 ≤ a * p * p + 2 * b * p * q + c * q * q := by
    intro p q
    rcases ha.lt_or_eq with ha' | ha'
    · refine nonneg_of_mul_nonneg_right (a := a) (b := a * p * p + 2 * b * p * q + c * q * q) ?_ ha'
      have i1 := mul_self_nonneg (a * p + b * q)
      have i2 := mul_nonneg (sub_nonneg.2 hdet) (mul_self_nonneg q)
      linarith
    · have hb : b = 0 := by
        rw [← ha', zero_mul] at hdet
        exact mul_self_eq_zero.1 (le_antisymm hdet (mul_self_nonneg b))
      rw [← ha', hb]
      have := mul_nonneg hc (mul_self_nonneg q)
      linarith
  have h3 := hconv (x - s) (y - t)
  have z0 : 0 ≤ 1 - x - y := by linarith
  have i0 := mul_le_mul_of_nonneg_left h0 z0
  have i1 := mul_le_mul_of_nonneg_left h1 x0
  have i2 := mul_le_mul_of_nonneg_left h2 y0
  linarith

/-- a small change of the second coordinate -/
theorem KKT.perturb {E M δ a b c d e s t t' : K} (h : KKT E a b c d e s t) (hb : |b| ≤ M) (hc : |c| ≤ M) (he : |e| ≤ M)
    (s0 : 0 ≤ s) (s1 : s ≤ 3 / 2) (t0 : -1 / 2 ≤ t) (t1 : t ≤ 3 / 2) (ht : |t' - t| ≤ δ) (hδ : δ ≤ 1) : KKT (E + 10 * (M * δ)) a b c d e s t' := by
  obtain ⟨h0, h1, h2⟩ := h
  obtain ⟨k, hk⟩ : ∃ k, k = t' - t := ⟨_, rfl⟩
  obtain rfl : t' = t + k := by rw [hk]; ring
  rw [← hk] at ht
  have M0 : 0 ≤ M := (abs_nonneg _).trans hb
  have δ0 : 0 ≤ δ := (abs_nonneg _).trans ht
  have sa : |s| ≤ 3 / 2 := by rw [abs_of_nonneg s0]; exact s1
  have sa' : |1 - s| ≤ 1 := by rw [abs_le]; constructor <;> linarith
  have ta : |t| ≤ 3 / 2 := by rw [abs_le]; constructor <;> linarith
  have ta' : |1 - t| ≤ 3 / 2 := by rw [abs_le]; constructor <;> linarith
  have bk : |b * k| ≤ M * δ := abs_mul_le hb ht
  have ck : |c * k| ≤ M * δ := abs_mul_le hc ht
  have ek : |e * k| ≤ M * δ := abs_mul_le he ht
  have i1 := abs_le.1 (abs_mul_le bk sa)
  have i2 := abs_le.1 (abs_mul_le bk sa')
  have i3 := abs_le.1 (abs_mul_le ck ta)
  have i4 := abs_le.1 (abs_mul_le ck ta')
  have i5 := abs_le.1 ek
  have i6 := abs_le.1 (abs_mul_le ck (ht.trans hδ))
  have Mδ := mul_nonneg M0 δ0
  exact ⟨by linarith, by linarith, by linarith⟩

/-- the numbers the regions are chosen by -/
structure Quad (a b c d e S T D M ε w N : K) : Prop where
  a0 : 0 ≤ a
  c0 : 0 ≤ c
  aM : a ≤ M
  bM : |b| ≤ M
  cM : c ≤ M
  hS : S = b * e - c * d
  hT : T = b * d - a * e
  hD : D = a * c - b * b
  D0 : 0 < D
  ε0 : 0 ≤ ε
  hw : M * ε ≤ w
  hN : M * w ≤ D * N

namespace Quad
variable {a b c d e S T D M ε w N : K}

theorem swap (h : Quad a b c d e S T D M ε w N) : Quad c b a e d T S D M ε w N :=
  ⟨h.c0, h.a0, h.cM, h.bM, h.aM, h.hT, h.hS, by rw [h.hD]; ring, h.D0, h.ε0, h.hw, h.hN⟩

variable (h : Quad a b c d e S T D M ε w N)
include h

theorem M0 : 0 ≤ M := h.a0.trans h.aM

theorem w0 : 0 ≤ w := (mul_nonneg h.M0 h.ε0).trans h.hw

/-- bounds from bounds of multiples -/
theorem lo_D {k x : K} (hx : -(k * (M * w)) ≤ D * x) (hk : 0 ≤ k) : -(k * N) ≤ x := by
  have h1 := mul_le_mul_of_nonneg_left h.hN hk
  have h2 : D * (-(k * N)) ≤ D * x := by linarith
  exact le_of_mul_le_mul_left h2 h.D0

theorem lo_of {k x y : K} (hy : D ≤ M * y) (hx : -(k * w) ≤ y * x) (hk : 0 ≤ k) (N0 : 0 ≤ N) : -(k * N) ≤ x := by
  rcases le_or_gt 0 x with x0 | x0
  · exact le_trans (by have := mul_nonneg hk N0; linarith) x0
  · apply h.lo_D _ hk
    have h1 := mul_le_mul_of_nonpos_right hy x0.le
    have h2 := mul_le_mul_of_nonneg_left hx h.M0
    linarith

theorem N0 : 0 ≤ N := by
  have h1 := mul_nonneg h.M0 h.w0
  have := h.lo_D (k := 0) (x := N) (by have := h.hN; linarith) le_rfl
  linarith

theorem D_le_c : D ≤ M * c := by
  have h1 := mul_le_mul_of_nonneg_right h.aM h.c0
  have h2 := mul_self_nonneg b
  rw [h.hD]; linarith

theorem D_le_q : D ≤ M * (a - 2 * b + c) := by
  have h1 : D = a * (a - 2 * b + c) - (a - b) * (a - b) := by rw [h.hD]; ring
  have h2 := mul_self_nonneg (a - b)
  have h3 : 0 < a * (a - 2 * b + c) := by have := h.D0; linarith
  have ha : 0 < a := lt_of_le_of_ne h.a0 fun hc => by rw [← hc, zero_mul] at h3; exact h3.false
  have h4 : 0 < a - 2 * b + c := (mul_pos_iff_of_pos_left ha).1 h3
  have h5 := mul_le_mul_of_nonneg_right h.aM h4.le
  linarith

theorem lo_c {k x : K} (hx : -(k * w) ≤ c * x) (hk : 0 ≤ k) : -(k * N) ≤ x := h.lo_of h.D_le_c hx hk h.N0

theorem lo_q {k x : K} (hx : -(k * w) ≤ (a - 2 * b + c) * x) (hk : 0 ≤ k) : -(k * N) ≤ x := h.lo_of h.D_le_q hx hk h.N0

theorem ε_le : ε ≤ N := by
  have h1 := h.D_le_c
  have h2 := mul_le_mul_of_nonneg_left h.cM h.M0
  have h3 := mul_le_mul_of_nonneg_left h.hw h.M0
  have h4 := mul_le_mul_of_nonneg_right (h1.trans h2) h.ε0
  have h5 := h.hN
  exact le_of_mul_le_mul_left (by linarith : D * ε ≤ D * N) h.D0

/-- the edge `s = 0`, the foot of the perpendicular -/
theorem edge {t : K} (hS : S ≤ w) (ht : |c * t + e| ≤ ε) (t0 : 0 ≤ t) (t1 : t ≤ 3 / 2) : KKT (10 * N) a b c d e 0 t := by
  have hε := h.ε_le
  have N0 := h.N0
  have ε0 := h.ε0
  have i1 := abs_le.1 (abs_mul_le ht (by rw [abs_of_nonneg t0]; exact t1 : |t| ≤ 3 / 2))
  have i2 := abs_le.1 (abs_mul_le ht (by rw [abs_le]; constructor <;> linarith : |1 - t| ≤ 1))
  have i3 : |b * (c * t + e)| ≤ M * ε := abs_mul_le h.bM ht
  have i4 : -(2 * N) ≤ b * t + d := by
    apply h.lo_c _ zero_le_two
    have e1 : c * (b * t + d) = b * (c * t + e) - S := by rw [h.hS]; ring
    have := (abs_le.1 i3).1
    have := h.hw
    rw [e1]; linarith
  exact ⟨by linarith, by linarith, by linarith⟩

theorem d_lo (hS : S ≤ w) (hT : -w ≤ T) (he : -ε ≤ e) : -(2 * N) ≤ d := by
  obtain ⟨b1, b2⟩ := abs_le.1 h.bM
  rcases le_or_gt 0 b with b0 | b0
  · apply h.lo_c _ zero_le_two
    have e1 : c * d = b * e - S := by rw [h.hS]; ring
    have i1 := mul_le_mul_of_nonneg_left he b0
    have i2 := mul_le_mul_of_nonneg_right b2 h.ε0
    have := h.hw
    linarith
  · apply h.lo_D _ zero_le_two
    have e1 : D * d = -(a * S) + -b * T := by rw [h.hS, h.hT, h.hD]; ring
    have i1 := mul_le_mul_of_nonneg_left hS h.a0
    have i2 := mul_le_mul_of_nonneg_right h.aM h.w0
    have i3 := mul_le_mul_of_nonneg_left hT (by linarith : 0 ≤ -b)
    have i4 := mul_le_mul_of_nonneg_right (by linarith : -b ≤ M) h.w0
    linarith

omit h in
theorem corner0 (hd : -(10 * N) ≤ d) (he : -(10 * N) ≤ e) (N0 : 0 ≤ N) : KKT (10 * N) a b c d e 0 0 :=
  ⟨by linarith, by linarith, by linarith⟩

theorem corner2_v1 (hS : S ≤ w) (hsum : S + T ≤ D + w) (hh : c + e ≤ ε) : -(6 * N) ≤ b + d - (c + e) := by
  obtain ⟨b1, b2⟩ := abs_le.1 h.bM
  have hw := h.hw
  have w0 := h.w0
  rcases le_or_gt b c with hbc | hbc
  · apply h.lo_c _ (by norm_num)
    have e1 : c * (b + d - (c + e)) = -((c - b) * (c + e)) - S := by rw [h.hS]; ring
    have i1 := mul_le_mul_of_nonneg_left hh (sub_nonneg.2 hbc)
    have i2 := mul_le_mul_of_nonneg_right (by linarith [h.cM] : c - b ≤ 2 * M) h.ε0
    rw [e1]; linarith
  · apply h.lo_D _ (by norm_num)
    have e1 : D * (b + d - (c + e)) = (b - c) * (D - S - T) - (a - 2 * b + c) * S := by rw [h.hS, h.hT, h.hD]; ring
    have q0 : 0 ≤ a - 2 * b + c := by
      by_contra hq
      have hq := not_le.1 hq
      have := mul_nonpos_of_nonneg_of_nonpos h.M0 hq.le
      linarith [h.D_le_q, h.D0]
    have i1 := mul_le_mul_of_nonneg_left hS q0
    have i2 := mul_le_mul_of_nonneg_right (by linarith [h.cM, h.aM] : a - 2 * b + c ≤ 4 * M) w0
    have i3 := mul_le_mul_of_nonneg_left (by linarith : -w ≤ D - S - T) (by linarith : 0 ≤ b - c)
    have i4 := mul_le_mul_of_nonneg_right (by linarith [h.c0] : b - c ≤ 2 * M) w0
    rw [e1]; linarith

theorem corner2_v0 (hS : -w ≤ S) (hsum : D - w ≤ S + T) (hgh : c + e ≤ b + d + ε) : c + e ≤ 3 * N := by
  obtain ⟨b1, b2⟩ := abs_le.1 h.bM
  have hw := h.hw
  have w0 := h.w0
  have e1 : c * (b + d) - b * (c + e) = -S := by rw [h.hS]; ring
  have e2 : (c - b) * (b + d) + (a - b) * (c + e) = D - S - T := by rw [h.hS, h.hT, h.hD]; ring
  have : -(3 * N) ≤ -(c + e) := by
    rcases le_or_gt c b with hbc | hbc
    · apply h.lo_D _ (by norm_num)
      have i1 := mul_le_mul_of_nonneg_left (by linarith : D - S - T ≤ w) h.c0
      have i2 := mul_le_mul_of_nonneg_left (by linarith : c * (b + d) ≤ b * (c + e) + w) (sub_nonneg.2 hbc)
      have i3 := mul_le_mul_of_nonneg_right h.cM w0
      have i4 := mul_le_mul_of_nonneg_right (by linarith [h.c0] : b - c ≤ M) w0
      rw [← e2] at i1
      have e3 : D * (c + e) = c * ((c - b) * (b + d) + (a - b) * (c + e)) + (b - c) * (c * (b + d)) - (b - c) * (b * (c + e)) := by
        rw [h.hD]; ring
      have := mul_nonneg h.M0 w0
      linarith
    · apply h.lo_q _ (by norm_num)
      have i1 := mul_le_mul_of_nonneg_left (by linarith : c + e - ε ≤ b + d) (by linarith : 0 ≤ c - b)
      have i2 := mul_le_mul_of_nonneg_right (by linarith [h.cM] : c - b ≤ 2 * M) h.ε0
      linarith
  linarith

omit h in
theorem corner2 {E : K} (E0 : 0 ≤ E) (h0 : c + e ≤ E) (h1 : -E ≤ b + d - (c + e)) : KKT E a b c d e 0 1 :=
  ⟨by linarith, by linarith, by linarith⟩

/-- the edge `s + t = 1`, the foot of the perpendicular -/
theorem hyp {s : K} (hsum : D - w ≤ S + T) (hs : |c + e - b - d - (a - 2 * b + c) * s| ≤ ε) (s0 : 0 ≤ s) (s1 : s ≤ 3 / 2) :
    KKT (7 * N) a b c d e s (1 - s) := by
  have hε := h.ε_le
  have N0 := h.N0
  have hw := h.hw
  obtain ⟨b1, b2⟩ := abs_le.1 h.bM
  have i1 := abs_le.1 (abs_mul_le hs (by rw [abs_of_nonneg s0]; exact s1 : |s| ≤ 3 / 2))
  have i2 := abs_le.1 (abs_mul_le hs (by rw [abs_le]; constructor <;> linarith : |1 - s| ≤ 1))
  have i3 : -(3 * N) ≤ -(a * s + b * (1 - s) + d) := by
    apply h.lo_q _ (by norm_num)
    have e1 : (a - 2 * b + c) * -(a * s + b * (1 - s) + d) =
        -(D - S - T) + (a - b) * (c + e - b - d - (a - 2 * b + c) * s) := by rw [h.hS, h.hT, h.hD]; ring
    have i4 : |(a - b) * (c + e - b - d - (a - 2 * b + c) * s)| ≤ 2 * M * ε :=
      abs_mul_le (by rw [abs_le]; constructor <;> linarith [h.a0, h.aM]) hs
    have := (abs_le.1 i4).1
    rw [e1]; linarith
  exact ⟨by linarith, by linarith, by linarith⟩

/-- the interior -/
theorem inner {s t : K} (hs : |D * s - S| ≤ w) (ht : |D * t - T| ≤ w) (s0 : |s| ≤ 3 / 2) (s1 : |1 - s| ≤ 3 / 2) (t0 : |t| ≤ 3 / 2)
    (t1 : |1 - t| ≤ 3 / 2) :
    KKT (10 * N) a b c d e s t := by
  have N0 := h.N0
  have key : ∀ {p q z : K}, |p| ≤ M → |q| ≤ M → D * z = p * (D * s - S) + q * (D * t - T) → |z| ≤ 2 * N := by
    intro p q z hp hq hz
    have i1 := abs_le.1 (abs_add_le' (abs_mul_le hp hs) (abs_mul_le hq ht))
    rw [← hz] at i1
    rw [abs_le]
    have i2 : -(2 * N) ≤ -z := h.lo_D (by linarith [i1.2]) zero_le_two
    exact ⟨h.lo_D (by linarith [i1.1]) zero_le_two, by linarith⟩
  have g1 : |a * s + b * t + d| ≤ 2 * N := key (p := a) (q := b) (by rw [abs_of_nonneg h.a0]; exact h.aM) h.bM (by rw [h.hS, h.hT, h.hD]; ring)
  have g2 : |b * s + c * t + e| ≤ 2 * N := key (p := b) (q := c) h.bM (by rw [abs_of_nonneg h.c0]; exact h.cM) (by rw [h.hS, h.hT, h.hD]; ring)
  have i1 := abs_le.1 (abs_mul_le g1 s0)
  have i2 := abs_le.1 (abs_mul_le g1 s1)
  have i3 := abs_le.1 (abs_mul_le g2 t0)
  have i4 := abs_le.1 (abs_mul_le g2 t1)
  exact ⟨by linarith, by linarith, by linarith⟩

end Quad

end Blazert
