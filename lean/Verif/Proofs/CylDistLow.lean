/- Rounding errors of the distance to a cylinder, between its caps. -/
import Verif.Proofs.CylDistSign
import Verif.Proofs.CylRound
import Verif.Spec.CylDist

set_option autoImplicit false
set_option linter.unusedSectionVars false

namespace Blazert
open Scalar

section
variable {K : Type} [Field K] [LinearOrder K] [IsStrictOrderedRing K] [FloorRing K] {F : Fmt K} {u η hi L ε r : K}

/-! ### what is finite came from finite numbers -/

theorem Is.sub_inv {x y : XF F} {w : K} (h : (x - y).Is w) : ∃ a b, x.Is a ∧ y.Is b ∧ F.post (a - b) = some w := by
  have h' : (x + -y).Is w := h
  obtain ⟨a, b, h1, h2, h3⟩ := Is.add_inv h'
  refine ⟨a, -b, h1, ?_, by rw [sub_neg_eq_add]; exact h3⟩
  match y, h2 with
  | .fin v s, h2 =>
    obtain ⟨t, h2⟩ := h2
    cases h2
    exact ⟨s, by rw [neg_neg]⟩
  | .inf s, h2 => obtain ⟨t, h2⟩ := h2; cases h2
  | .nan, h2 => obtain ⟨t, h2⟩ := h2; cases h2

theorem Is.sqrt_inv {x : XF F} {w : K} (h : (sqrt x).Is w) : ∃ a, x.Is a ∧ 0 ≤ a := by
  match x, h with
  | .fin a s, h =>
    refine ⟨a, ⟨s, rfl⟩, ?_⟩
    by_contra hneg
    have hneg := not_le.1 hneg
    obtain ⟨t, h⟩ := h
    change (if a = 0 then XF.fin a s else if a < 0 then XF.nan else XF.mk F false (F.sqrt a)) = _ at h
    rw [if_neg hneg.ne, if_pos hneg] at h
    cases h
  | .inf s, h =>
    obtain ⟨t, h⟩ := h
    change (if s then XF.nan else XF.inf false) = _ at h
    cases s <;> cases h
  | .nan, h => obtain ⟨t, h⟩ := h; cases h

/-! ### the point found by the search is near the ellipse, whatever it is -/

/-- the radicand, where it has a root -/
theorem ell_radicand {a m A Mm d : K} (u0 : 0 < u) (u1 : u ≤ 1 / 2 ^ 20) (a0 : 0 < a) (η0 : 0 ≤ η)
    (hη : η ≤ 1 / 2 ^ 20 * (u * a ^ 2)) (hA : |A - a ^ 2| ≤ u * |a ^ 2| + η) (hM : |Mm - m ^ 2| ≤ u * |m ^ 2| + η)
    (hd : |d - (A - Mm)| ≤ u * |A - Mm| + η) (d0 : 0 ≤ d) :
    |d - (a ^ 2 - m ^ 2)| ≤ 302 / 100 * (u * a ^ 2) ∧ d ≤ 1002 / 1000 * a ^ 2 ∧ m ^ 2 ≤ 1003 / 1000 * a ^ 2 := by
  have A0 : 0 < a ^ 2 := by positivity
  have m0 := pow_two_nonneg m
  rw [abs_of_nonneg A0.le] at hA
  rw [abs_of_nonneg m0] at hM
  have uA0 : 0 < u * a ^ 2 := mul_pos u0 A0
  have uA1 : u * a ^ 2 ≤ 1 / 2 ^ 20 * a ^ 2 := mul_le_mul_of_nonneg_right u1 A0.le
  have um1 : u * m ^ 2 ≤ 1 / 2 ^ 20 * m ^ 2 := mul_le_mul_of_nonneg_right u1 m0
  obtain ⟨A1, A2⟩ := abs_le.1 hA
  obtain ⟨M1, M2⟩ := abs_le.1 hM
  obtain ⟨d1, d2⟩ := abs_le.1 hd
  have uw : u * |A - Mm| ≤ 1 / 2 ^ 20 * |A - Mm| := mul_le_mul_of_nonneg_right u1 (abs_nonneg _)
  have hlow : -(101 / 100 * η) ≤ A - Mm := by
    by_contra hneg
    have hneg := not_le.1 hneg
    rw [abs_of_neg (by linarith)] at uw d2
    linarith
  have um0 : 0 ≤ u * m ^ 2 := mul_nonneg u0.le m0
  have hm : m ^ 2 ≤ 1003 / 1000 * a ^ 2 := by linarith
  have hum := mul_le_mul_of_nonneg_left hm u0.le
  have hw : |A - Mm| ≤ 1002 / 1000 * a ^ 2 := abs_le.2 ⟨by linarith, by linarith⟩
  have huw := mul_le_mul_of_nonneg_left hw u0.le
  have e1 : u * (1003 / 1000 * a ^ 2) = 1003 / 1000 * (u * a ^ 2) := by ring
  have e2 : u * (1002 / 1000 * a ^ 2) = 1002 / 1000 * (u * a ^ 2) := by ring
  rw [e1] at hum
  rw [e2] at huw
  refine ⟨abs_le.2 ⟨by linarith, by linarith⟩, ?_, hm⟩
  have : A - Mm ≤ a ^ 2 + 101 / 100 * (u * a ^ 2) := by linarith
  linarith

/-- the second coordinate, from the root -/
theorem ell_second {a m S ρ β n : K} (u0 : 0 < u) (u1 : u ≤ 1 / 2 ^ 20) (a0 : 0 < a) (ρ0 : 0 < ρ)
    (hη1 : η ≤ 1 / 2 ^ 20 * (u * ρ)) (hη2 : η ≤ 1 / 2 ^ 20 * (u * (ρ * a))) (hβ : |(|β|) - ρ| ≤ u * ρ + η) (S0 : 0 ≤ S)
    (hS : |S ^ 2 - (a ^ 2 - m ^ 2)| ≤ 705 / 100 * (u * a ^ 2)) (hn : |n - β * S| ≤ u * |β * S| + η) :
    |n ^ 2 - ρ ^ 2 * (a ^ 2 - m ^ 2)| ≤ 12 * (u * (ρ * a) ^ 2) := by
  have A0 : 0 < a ^ 2 := by positivity
  have m0 := pow_two_nonneg m
  have uA1 : u * a ^ 2 ≤ 1 / 2 ^ 20 * a ^ 2 := mul_le_mul_of_nonneg_right u1 A0.le
  have uρ0 : 0 < u * ρ := mul_pos u0 ρ0
  have uρ1 : u * ρ ≤ 1 / 2 ^ 20 * ρ := mul_le_mul_of_nonneg_right u1 ρ0.le
  have hS2 : S ^ 2 ≤ 1001 / 1000 * a ^ 2 := by have := (abs_le.1 hS).2; linarith
  have hS1 : |S| ≤ 1001 / 1000 * a := abs_le_of_sq_le_sq (by nlinarith) (by positivity)
  have hb1 : |(|β|) - ρ| ≤ 1001 / 1000 * (u * ρ) := by linarith
  have hb2 : |β| ≤ 1001 / 1000 * ρ := by have := (abs_le.1 hb1).2; linarith
  have hbS : |β * S| ≤ 1003 / 1000 * (ρ * a) := by
    have h := abs_mul_le hb2 hS1
    have h0 : 0 < ρ * a := mul_pos ρ0 a0
    have e : 1001 / 1000 * ρ * (1001 / 1000 * a) = 1002001 / 1000000 * (ρ * a) := by ring
    rw [e] at h
    linarith
  have hb0 : 0 < ρ * a := mul_pos ρ0 a0
  have hubS := mul_le_mul_of_nonneg_left hbS u0.le
  have e1 : u * (1003 / 1000 * (ρ * a)) = 1003 / 1000 * (u * (ρ * a)) := by ring
  rw [e1] at hubS
  have ub0 : 0 < u * (ρ * a) := mul_pos u0 hb0
  have ub1 : u * (ρ * a) ≤ 1 / 2 ^ 20 * (ρ * a) := mul_le_mul_of_nonneg_right u1 hb0.le
  have hn1 : |n - β * S| ≤ 1004 / 1000 * (u * (ρ * a)) := by linarith
  -- n² and β² S²
  have k1 : |n ^ 2 - (β * S) ^ 2| ≤ 202 / 100 * (u * (ρ * a) ^ 2) := by
    have h1 : |n + β * S| ≤ 2008 / 1000 * (ρ * a) := by
      rw [show n + β * S = (n - β * S) + 2 * (β * S) by ring]
      refine (abs_add_le' hn1 (le_refl |2 * (β * S)|)).trans ?_
      rw [abs_mul, abs_two]
      linarith
    have h2 := abs_mul_le hn1 h1
    rw [show (n - β * S) * (n + β * S) = n ^ 2 - (β * S) ^ 2 by ring] at h2
    refine h2.trans ?_
    have e : 1004 / 1000 * (u * (ρ * a)) * (2008 / 1000 * (ρ * a)) = 2016032 / 1000000 * (u * (ρ * a) ^ 2) := by ring
    rw [e]
    have : 0 ≤ u * (ρ * a) ^ 2 := by positivity
    linarith
  -- β² and ρ²
  have k2 : |(β * S) ^ 2 - ρ ^ 2 * S ^ 2| ≤ 202 / 100 * (u * (ρ * a) ^ 2) := by
    have h1 : |(|β|) + ρ| ≤ 2001 / 1000 * ρ := by rw [abs_of_nonneg (by positivity)]; linarith
    have h2 := abs_mul_le hb1 h1
    have h3 : |((|β|) - ρ) * ((|β|) + ρ) * S ^ 2| ≤ 1001 / 1000 * (u * ρ) * (2001 / 1000 * ρ) * (1001 / 1000 * a ^ 2) :=
      abs_mul_le h2 (by rw [abs_of_nonneg (pow_two_nonneg S)]; exact hS2)
    have e3 : ((|β|) - ρ) * ((|β|) + ρ) * S ^ 2 = (β * S) ^ 2 - ρ ^ 2 * S ^ 2 := by
      rw [show ((|β|) - ρ) * ((|β|) + ρ) = |β| ^ 2 - ρ ^ 2 by ring, sq_abs]; ring
    rw [e3] at h3
    refine h3.trans ?_
    have e : 1001 / 1000 * (u * ρ) * (2001 / 1000 * ρ) * (1001 / 1000 * a ^ 2) =
      (1001 * 2001 * 1001 / 1000000000) * (u * (ρ * a) ^ 2) := by ring
    rw [e]
    exact mul_le_mul_of_nonneg_right (by norm_num) (by positivity)
  have k3 : |ρ ^ 2 * S ^ 2 - ρ ^ 2 * (a ^ 2 - m ^ 2)| ≤ 705 / 100 * (u * (ρ * a) ^ 2) := by
    have h1 := abs_mul_le (le_refl |ρ ^ 2|) hS
    rw [abs_of_nonneg (pow_two_nonneg ρ)] at h1
    rw [← mul_sub]
    exact h1.trans_eq (by ring)
  refine (abs_near_trans (abs_near_trans k1 k2) k3).trans ?_
  have : 0 ≤ u * (ρ * a) ^ 2 := by positivity
  linarith

theorem ell_tiny (hs : Scale u η hi L) (hr : Scale u η hi r) (hηr : η * L ≤ u ^ 2 * r) {a b : K} (hra : r ≤ a)
    (haL : a ≤ L) (hrb : r ≤ b) :
    η ≤ 1 / 2 ^ 20 * (u * a ^ 2) ∧ η ≤ 1 / 2 ^ 20 * (u * (b / a)) ∧ η ≤ 1 / 2 ^ 20 * (u * (b / a * a)) := by
  have hz := hs.sizes
  have u0 := hz.u0
  have η0 := hz.η0
  have u1 := hz.u1
  have r0 := hr.pos
  have a0 : 0 < a := r0.trans_le hra
  have b0 : 0 < b := r0.trans_le hrb
  have ρ0 : 0 < b / a := div_pos b0 a0
  have uu : ∀ x : K, 0 ≤ x → u ^ 2 * x ≤ 1 / 2 ^ 20 * (u * x) := by
    intro x hx
    rw [show u ^ 2 * x = u * (u * x) by ring]
    exact mul_le_mul_of_nonneg_right u1 (mul_nonneg u0.le hx)
  refine ⟨?_, ?_, ?_⟩
  · have hA2 : r ^ 2 ≤ a ^ 2 := pow_le_pow_left₀ r0.le hra 2
    have h2 : u ^ 2 * r ^ 2 ≤ u ^ 2 * a ^ 2 := mul_le_mul_of_nonneg_left hA2 (pow_two_nonneg u)
    exact (hr.η_le_sq.trans h2).trans (uu _ (pow_two_nonneg a))
  · refine le_trans ?_ (uu _ ρ0.le)
    rw [mul_div_assoc', le_div_iff₀ a0]
    have h1 := mul_le_mul_of_nonneg_left haL η0
    have h2 := mul_le_mul_of_nonneg_left hrb (pow_two_nonneg u)
    linarith
  · rw [div_mul_cancel₀ _ a0.ne']
    have h1 := hr.sizes.ηL
    have h2 := mul_le_mul_of_nonneg_left hrb u0.le
    linarith

theorem ell_sizes {a b m n : K} (u1 : u ≤ 1 / 2 ^ 20) (a0 : 0 < a) (b0 : 0 < b) (hm : m ^ 2 ≤ 1003 / 1000 * a ^ 2)
    (key : |n ^ 2 - (b / a) ^ 2 * (a ^ 2 - m ^ 2)| ≤ 12 * (u * b ^ 2)) :
    |m ^ 2 / a ^ 2 + n ^ 2 / b ^ 2 - 1| ≤ 12 * u ∧ |m| ≤ 101 / 100 * a ∧ |n| ≤ 101 / 100 * b := by
  have B0 : 0 < b ^ 2 := by positivity
  have A0 : 0 < a ^ 2 := by positivity
  have e1 : n ^ 2 - (b / a) ^ 2 * (a ^ 2 - m ^ 2) = (m ^ 2 / a ^ 2 + n ^ 2 / b ^ 2 - 1) * b ^ 2 := by
    field_simp
    ring
  rw [e1, abs_mul, abs_of_pos B0, ← mul_assoc] at key
  have h1 := le_of_mul_le_mul_right key B0
  refine ⟨h1, abs_le_of_sq_le_sq ?_ (by positivity), abs_le_of_sq_le_sq ?_ (by positivity)⟩
  · rw [mul_pow]; linarith
  have h2 := (abs_le.1 h1).2
  have h3 : 0 ≤ m ^ 2 / a ^ 2 := by positivity
  have h4 : n ^ 2 / b ^ 2 ≤ 1001 / 1000 := by linarith
  rw [div_le_iff₀ B0] at h4
  rw [mul_pow]; linarith

/-- the root of the radicand -/
theorem ell_root (hF : F.Rounds u η hi) (hfa : F.Faithful u η) (hs : Scale u η hi L) {xa xm : XF F} {a m S : K}
    (ha : xa.Is a) (a0 : 0 < a) (haL : a ≤ L) (hη : η ≤ 1 / 2 ^ 20 * (u * a ^ 2)) (hm : xm.Is m)
    (hS : (sqrt (xa * xa - xm * xm)).Is S) :
    0 ≤ S ∧ |S ^ 2 - (a ^ 2 - m ^ 2)| ≤ 705 / 100 * (u * a ^ 2) ∧ m ^ 2 ≤ 1003 / 1000 * a ^ 2 := by
  have hz := hs.sizes
  have u0 := hz.u0
  have η0 := hz.η0
  have A0 : 0 < a ^ 2 := by positivity
  have hA1 : a ^ 2 ≤ L ^ 2 := pow_le_pow_left₀ a0.le haL 2
  have hhi := hs.sq_le
  obtain ⟨d, j1, j2⟩ := Is.sqrt_inv hS
  obtain ⟨A, Mm, k1, k2, k3⟩ := Is.sub_inv j1
  have hA := hfa _ _ (Is.mul_post k1 ha ha)
  have hM := hfa _ _ (Is.mul_post k2 hm hm)
  rw [← pow_two] at hA hM
  obtain ⟨g1, g2, g3⟩ := ell_radicand u0 hz.u1 a0 η0 hη hA hM (hfa _ _ k3) j2
  obtain ⟨S', s1, s2, s3⟩ := rnd_sqrt hF u0.le η0 j1 j2 (by linarith)
  obtain rfl := s1.unique hS
  refine ⟨s2, ?_, g3⟩
  have uA0 : 0 < u * a ^ 2 := mul_pos u0 A0
  have h1 := mul_le_mul_of_nonneg_left g2 u0.le
  have h2 := abs_near_trans s3 g1
  refine h2.trans ?_
  have e : 4 * u * d = 4 * (u * d) := by ring
  rw [e]
  linarith

/-- One of the four searches: if the coordinate computed from `xm` is a number, the point is near the ellipse. -/
theorem ell_point (hF : F.Rounds u η hi) (hfa : F.Faithful u η) (hs : Scale u η hi L) (hr : Scale u η hi r)
    (hηr : η * L ≤ u ^ 2 * r) {xa xm B : XF F} {a b m n : K} (ha : xa.Is a)
    (hβ : ∀ β, B.Is β → |(|β|) - b / a| ≤ u * (b / a) + η) (hra : r ≤ a) (haL : a ≤ L) (hrb : r ≤ b) (hm : xm.Is m)
    (hn : (B * sqrt (xa * xa - xm * xm)).Is n) :
    |m ^ 2 / a ^ 2 + n ^ 2 / b ^ 2 - 1| ≤ 12 * u ∧ |m| ≤ 101 / 100 * a ∧ |n| ≤ 101 / 100 * b := by
  have hz := hs.sizes
  have u0 := hz.u0
  have r0 := hr.pos
  have a0 : 0 < a := r0.trans_le hra
  have b0 : 0 < b := r0.trans_le hrb
  obtain ⟨hη, hη1, hη2⟩ := ell_tiny hs hr hηr hra haL hrb
  obtain ⟨β', S, i1, i2, i3⟩ := Is.mul_inv hn
  obtain ⟨s2, hS, g3⟩ := ell_root hF hfa hs ha a0 haL hη hm i2
  have key := ell_second u0 hz.u1 a0 (div_pos b0 a0) hη1 hη2 (hβ _ i1) s2 hS (hfa _ _ i3)
  rw [div_mul_cancel₀ _ a0.ne'] at key
  exact ell_sizes hz.u1 a0 b0 g3 key

/-- the distance between two points, if the second is not far away -/
theorem dist_fwd (hF : F.Rounds u η hi) (hs : Scale u η hi L) {xq yq xm ym : XF F} {X Y m n : K} (hx : xq.Is X) (hy : yq.Is Y)
    (hm : xm.Is m) (hn : ym.Is n) (gx : |X - m| ≤ 203 / 100 * L) (gy : |Y - n| ≤ 203 / 100 * L) :
    ∃ v, (sqrt ((xq - xm) * (xq - xm) + (yq - ym) * (yq - ym))).Is v ∧ 0 ≤ v ∧
      |v ^ 2 - ((X - m) ^ 2 + (Y - n) ^ 2)| ≤ 70 * (u * L ^ 2) := by
  obtain ⟨u0, u1, η0, ηu, ηL, ηLL, ηuLL, ηuL, L0, uL0, uLL0, uL1, uLL1, hi1, hiL, hiLL⟩ := hs.sizes
  have hhi := hs.sq_le
  have sq : ∀ {x y : XF F} {X m : K}, x.Is X → y.Is m → |X - m| ≤ 203 / 100 * L →
      ∃ P, ((x - y) * (x - y)).Is P ∧ 0 ≤ P ∧ |P - (X - m) ^ 2| ≤ 125 / 10 * (u * L ^ 2) ∧ P ≤ 413 / 100 * L ^ 2 := by
    intro x y X m hx hm g
    obtain ⟨e, e1, e2, -⟩ := rnd_sub hF.toGradual u0.le hx hm g (by linarith)
    have e3 : |e - (X - m)| ≤ 2031 / 1000 * (u * L) := by linarith
    have e4 : |e + (X - m)| ≤ 4061 / 1000 * L := by
      rw [show e + (X - m) = (e - (X - m)) + 2 * (X - m) by ring]
      refine (abs_add_le' e3 (le_refl |2 * (X - m)|)).trans ?_
      rw [abs_mul, abs_two]
      linarith
    have e5 := abs_mul_le e3 e4
    rw [show (e - (X - m)) * (e + (X - m)) = e * e - (X - m) ^ 2 by ring,
      show 2031 / 1000 * (u * L) * (4061 / 1000 * L) = 8247891 / 1000000 * (u * L ^ 2) by ring] at e5
    have g2 : (X - m) ^ 2 ≤ 41209 / 10000 * L ^ 2 := by
      have := abs_mul_le g g
      rw [show (X - m) * (X - m) = (X - m) ^ 2 by ring, abs_of_nonneg (pow_two_nonneg _)] at this
      refine this.trans_eq (by ring)
    have e6 : |e * e| ≤ 4122 / 1000 * L ^ 2 := by
      rw [abs_mul_self]
      have := (abs_le.1 e5).2
      linarith
    obtain ⟨P, p1, p2, p3⟩ := rnd_mul hF.toGradual u0.le e1 e1 e6 (by linarith)
    have p4 := abs_near_trans p2 e5
    have e7 : u * (4122 / 1000 * L ^ 2) = 4122 / 1000 * (u * L ^ 2) := by ring
    rw [e7] at p4
    have p5 : |P - (X - m) ^ 2| ≤ 125 / 10 * (u * L ^ 2) := by linarith
    exact ⟨P, p1, p3 (mul_self_nonneg e), p5, by have := (abs_le.1 p5).2; linarith⟩
  obtain ⟨P, p1, p2, p3, p4⟩ := sq hx hm gx
  obtain ⟨Q, q1, q2, q3, q4⟩ := sq hy hn gy
  obtain ⟨T, t1, t2, t3⟩ := rnd_add hF.toGradual u0.le p1 q1 (A := 826 / 100 * L ^ 2) (by rw [abs_of_nonneg (by linarith)]; linarith)
    (by linarith)
  have e1 : u * (826 / 100 * L ^ 2) = 826 / 100 * (u * L ^ 2) := by ring
  rw [e1] at t2
  have hT : T ≤ 827 / 100 * L ^ 2 := by have := (abs_le.1 t2).2; linarith
  obtain ⟨v, v1, v2, v3⟩ := rnd_sqrt hF u0.le η0 t1 (t3 (by linarith)) (by linarith)
  refine ⟨v, v1, v2, ?_⟩
  have h1 : |(P + Q) - ((X - m) ^ 2 + (Y - n) ^ 2)| ≤ 125 / 10 * (u * L ^ 2) + 125 / 10 * (u * L ^ 2) := by
    rw [show (P + Q) - ((X - m) ^ 2 + (Y - n) ^ 2) = (P - (X - m) ^ 2) + (Q - (Y - n) ^ 2) by ring]
    exact abs_add_le' p3 q3
  have h2 := abs_near_trans (abs_near_trans v3 t2) h1
  have h3 := mul_le_mul_of_nonneg_left hT u0.le
  have e2 : 4 * u * T = 4 * (u * T) := by ring
  rw [e2] at h2
  have e3 : u * (827 / 100 * L ^ 2) = 827 / 100 * (u * L ^ 2) := by ring
  rw [e3] at h3
  linarith

/-- the distance from the ellipse, as one of the four searches finds it -/
theorem lateral_dist (hF : F.Rounds u η hi) (hfa : F.Faithful u η) (hs : Scale u η hi L) (hr : Scale u η hi r)
    (hηr : η * L ≤ u ^ 2 * r) {xa xm B xq yq : XF F} {a b X Y v : K} (ha : xa.Is a)
    (hβ : ∀ β, B.Is β → |(|β|) - b / a| ≤ u * (b / a) + η) (hra : r ≤ a) (haL : a ≤ L) (hrb : r ≤ b) (hbL : b ≤ L)
    (hx : xq.Is X) (hy : yq.Is Y) (hX : |X| ≤ 101 / 100 * L) (hY : |Y| ≤ 101 / 100 * L)
    (hv : (sqrt ((xq - xm) * (xq - xm) + (yq - B * sqrt (xa * xa - xm * xm)) * (yq - B * sqrt (xa * xa - xm * xm)))).Is v) :
    0 ≤ v ∧ ∃ m n, |m ^ 2 / a ^ 2 + n ^ 2 / b ^ 2 - 1| ≤ 12 * u ∧ |X - m| ≤ 203 / 100 * L ∧ |Y - n| ≤ 203 / 100 * L ∧
      |v ^ 2 - ((X - m) ^ 2 + (Y - n) ^ 2)| ≤ 70 * (u * L ^ 2) := by
  have L0 := hs.pos
  obtain ⟨w, w1, -⟩ := Is.sqrt_inv hv
  obtain ⟨w2, w3, w4, w5, -⟩ := Is.add_inv w1
  obtain ⟨w6, -, w7, -⟩ := Is.mul_inv w4
  obtain ⟨-, m, -, hm, -⟩ := Is.sub_inv w7
  obtain ⟨w8, -, w9, -⟩ := Is.mul_inv w5
  obtain ⟨-, n, -, hn, -⟩ := Is.sub_inv w9
  obtain ⟨k1, k2, k3⟩ := ell_point hF hfa hs hr hηr ha hβ hra haL hrb hm hn
  have gx : |X - m| ≤ 203 / 100 * L := (abs_sub_le' hX k2).trans (by linarith)
  have gy : |Y - n| ≤ 203 / 100 * L := (abs_sub_le' hY k3).trans (by linarith)
  obtain ⟨v', v1, v2, v3⟩ := dist_fwd hF hs hx hy hm hn gx gy
  obtain rfl := v1.unique hv
  exact ⟨v2, m, n, k1, gx, gy, v3⟩

/-- the quotients of the half axes -/
theorem axes_quot (hfa : F.Faithful u η) {xa xb : XF F} {a b : K} (ha : xa.Is a) (hb : xb.Is b) (a0 : 0 < a) (b0 : 0 < b) :
    (∀ β, (xb / xa).Is β → |(|β|) - b / a| ≤ u * (b / a) + η) ∧ ∀ β, (-xb / xa).Is β → |(|β|) - b / a| ≤ u * (b / a) + η := by
  have ρ0 : 0 < b / a := div_pos b0 a0
  constructor
  · intro β h
    have h1 := hfa _ _ (Is.div_post h hb ha).2
    have h2 := (abs_abs_sub_abs_le β (b / a)).trans h1
    rwa [abs_of_pos ρ0] at h2
  · intro β h
    have h1 := hfa _ _ (Is.div_post h hb.neg ha).2
    have h2 := (abs_abs_sub_abs_le β (-b / a)).trans h1
    rwa [neg_div, abs_neg, abs_of_pos ρ0] at h2

/-- the distance from the ellipse: whatever the search finds, it is the distance from a point near the ellipse -/
theorem ellipse_dist (hF : F.Rounds u η hi) (hfa : F.Faithful u η) (hs : Scale u η hi L) (hr : Scale u η hi r)
    (hηr : η * L ≤ u ^ 2 * r) (tol : XF F) {xa xb xq yq : XF F} {a b X Y v : K} (ha : xa.Is a) (hb : xb.Is b)
    (hra : r ≤ a) (haL : a ≤ L) (hrb : r ≤ b) (hbL : b ≤ L)
    (hx : xq.Is X) (hy : yq.Is Y) (hX : |X| ≤ 101 / 100 * L) (hY : |Y| ≤ 101 / 100 * L)
    (hv : (minDistEllipse tol xa xb xq yq).2.Is v) :
    0 ≤ v ∧ ∃ m n, |m ^ 2 / a ^ 2 + n ^ 2 / b ^ 2 - 1| ≤ 12 * u ∧ |X - m| ≤ 203 / 100 * L ∧ |Y - n| ≤ 203 / 100 * L ∧
      |v ^ 2 - ((X - m) ^ 2 + (Y - n) ^ 2)| ≤ 70 * (u * L ^ 2) := by
  have a0 : 0 < a := hr.pos.trans_le hra
  have b0 : 0 < b := hr.pos.trans_le hrb
  obtain ⟨q1, q2⟩ := axes_quot hfa ha hb a0 b0
  obtain ⟨q3, q4⟩ := axes_quot hfa hb ha b0 a0
  have swap : (0 ≤ v ∧ ∃ m n, |m ^ 2 / b ^ 2 + n ^ 2 / a ^ 2 - 1| ≤ 12 * u ∧ |Y - m| ≤ 203 / 100 * L ∧ |X - n| ≤ 203 / 100 * L ∧
      |v ^ 2 - ((Y - m) ^ 2 + (X - n) ^ 2)| ≤ 70 * (u * L ^ 2)) →
      0 ≤ v ∧ ∃ m n, |m ^ 2 / a ^ 2 + n ^ 2 / b ^ 2 - 1| ≤ 12 * u ∧ |X - m| ≤ 203 / 100 * L ∧ |Y - n| ≤ 203 / 100 * L ∧
      |v ^ 2 - ((X - m) ^ 2 + (Y - n) ^ 2)| ≤ 70 * (u * L ^ 2) := by
    rintro ⟨h1, m, n, h2, h3, h4, h5⟩
    exact ⟨h1, n, m, by rwa [add_comm (n ^ 2 / a ^ 2)], h4, h3, by rwa [add_comm ((X - n) ^ 2)]⟩
  unfold minDistEllipse at hv
  dsimp only at hv
  split at hv
  · exact lateral_dist hF hfa hs hr hηr ha q1 hra haL hrb hbL hx hy hX hY hv
  · split at hv
    · exact lateral_dist hF hfa hs hr hηr ha q2 hra haL hrb hbL hx hy hX hY hv
    · split at hv
      · exact swap (lateral_dist hF hfa hs hr hηr hb q3 hrb hbL hra haL hy hx hY hX hv)
      · exact swap (lateral_dist hF hfa hs hr hηr hb q4 hrb hbL hra haL hy hx hY hX hv)

/-! ### the equation of the ellipse -/

theorem ell_quot {X2 A2 X a P : K} (u0 : 0 < u) (u1 : u ≤ 1 / 2 ^ 20) (a0 : 0 < a) (η0 : 0 ≤ η) (ηu : η ≤ 1 / 2 ^ 20 * u)
    (hη : η ≤ 1 / 2 ^ 20 * (u * a ^ 2)) (hX : |X2 - X ^ 2| ≤ u * X ^ 2 + η) (hA : |A2 - a ^ 2| ≤ u * a ^ 2 + η)
    (hP : |P - X2 / A2| ≤ u * |X2 / A2| + η) : |P - X ^ 2 / a ^ 2| ≤ 31 / 10 * (u * (X ^ 2 / a ^ 2)) + 1 / 2 ^ 10 * u := by
  have A0 : 0 < a ^ 2 := by positivity
  obtain ⟨t, ht⟩ : ∃ t, t = X ^ 2 / a ^ 2 := ⟨_, rfl⟩
  have hXt : X ^ 2 = t * a ^ 2 := by rw [ht]; field_simp
  have t0 : 0 ≤ t := by rw [ht]; positivity
  rw [← ht]
  rw [hXt] at hX
  have uA1 : u * a ^ 2 ≤ 1 / 2 ^ 20 * a ^ 2 := mul_le_mul_of_nonneg_right u1 A0.le
  have hA1 : |A2 - a ^ 2| ≤ 1001 / 1000 * (u * a ^ 2) := by have : 0 < u * a ^ 2 := mul_pos u0 A0; linarith
  have hA2 : 999 / 1000 * a ^ 2 ≤ A2 := by have := (abs_le.1 hA1).1; linarith
  have A20 : 0 < A2 := by linarith
  have ut0 : 0 ≤ u * t := mul_nonneg u0.le t0
  have ut1 : u * (u * t) ≤ 1 / 2 ^ 20 * (u * t) := mul_le_mul_of_nonneg_right u1 ut0
  have ut2 : u * t ≤ 1 / 2 ^ 20 * t := mul_le_mul_of_nonneg_right u1 t0
  have hq : |X2 / A2 - t| ≤ 2005 / 1000 * (u * t) + 1 / 2 ^ 19 * u := by
    have e : X2 / A2 - t = ((X2 - t * a ^ 2) - t * (A2 - a ^ 2)) / A2 := by field_simp; ring
    rw [e, abs_div, abs_of_pos A20, div_le_iff₀ A20]
    have h1 := abs_mul_le (le_refl |t|) hA1
    rw [abs_of_nonneg t0] at h1
    refine (abs_sub_le' hX h1).trans ?_
    have h2 : (2005 / 1000 * (u * t) + 1 / 2 ^ 19 * u) * (999 / 1000 * a ^ 2) ≤ (2005 / 1000 * (u * t) + 1 / 2 ^ 19 * u) * A2 :=
      mul_le_mul_of_nonneg_left hA2 (by linarith)
    have h3 : (2005 / 1000 * (u * t) + 1 / 2 ^ 19 * u) * (999 / 1000 * a ^ 2) =
      2005 * 999 / 1000000 * (u * t * a ^ 2) + 1 / 2 ^ 19 * (999 / 1000) * (u * a ^ 2) := by ring
    have h4 : u * (t * a ^ 2) = u * t * a ^ 2 := by ring
    have h5 : t * (1001 / 1000 * (u * a ^ 2)) = 1001 / 1000 * (u * t * a ^ 2) := by ring
    have h6 : 0 ≤ u * t * a ^ 2 := mul_nonneg ut0 A0.le
    have h7 : 0 < u * a ^ 2 := mul_pos u0 A0
    rw [h3] at h2
    rw [h4, h5]
    linarith
  have hq1 : |X2 / A2| ≤ 1001 / 1000 * t + 1 / 2 ^ 19 * u := by
    have := abs_le_of_near hq (le_of_eq (abs_of_nonneg t0))
    linarith
  have h1 := mul_le_mul_of_nonneg_left hq1 u0.le
  have h2 := abs_near_trans hP hq
  refine h2.trans ?_
  have h3 : u * (1001 / 1000 * t + 1 / 2 ^ 19 * u) = 1001 / 1000 * (u * t) + 1 / 2 ^ 19 * (u * u) := by ring
  have h4 : u * u ≤ 1 / 2 ^ 20 * u := mul_le_mul_of_nonneg_right u1 u0.le
  rw [h3] at h1
  linarith

/-- what the equation of the ellipse evaluates to, if it is a number -/
theorem ell_value (hF : F.Rounds u η hi) (hfa : F.Faithful u η) (hs : Scale u η hi L) (hr : Scale u η hi r) {x' y' a' b' : XF F}
    {X Y a b e : K} (hx' : x'.Is X) (hy' : y'.Is Y) (ha' : a'.Is a) (hb' : b'.Is b) (hX : |X| ≤ 101 / 100 * L) (hY : |Y| ≤ 101 / 100 * L)
    (hra : r ≤ a) (haL : a ≤ L) (hrb : r ≤ b) (hbL : b ≤ L) (he : (ellipseEquation a' b' x' y').Is e) :
    |e - (X ^ 2 / a ^ 2 + Y ^ 2 / b ^ 2 - 1)| ≤ 6 * (u * (X ^ 2 / a ^ 2 + Y ^ 2 / b ^ 2)) + 2 * u := by
  have hz := hs.sizes
  have u0 := hz.u0
  have u1 := hz.u1
  have η0 := hz.η0
  have ηu : η ≤ 1 / 2 ^ 20 * u := by
    have h1 := hs.η_le
    have h2 : u * u ≤ 1 / 2 ^ 20 * u := mul_le_mul_of_nonneg_right u1 u0.le
    rw [pow_two] at h1
    linarith
  have term : ∀ {x a' : XF F} {X a P : K}, x.Is X → a'.Is a → |X| ≤ 101 / 100 * L → r ≤ a → a ≤ L → (x * x / (a' * a')).Is P →
      |P - X ^ 2 / a ^ 2| ≤ 31 / 10 * (u * (X ^ 2 / a ^ 2)) + 1 / 2 ^ 10 * u := by
    intro x a' X a P hx ha hX hra haL hP
    have a0 : 0 < a := hr.pos.trans_le hra
    have hhi := hs.sq_le
    have hA1 : a ^ 2 ≤ L ^ 2 := pow_le_pow_left₀ a0.le haL 2
    have hX2 : X * X ≤ 10201 / 10000 * L ^ 2 := by
      have := abs_mul_le hX hX
      rw [abs_mul_self] at this
      exact this.trans_eq (by ring)
    have L2 := pow_two_nonneg L
    obtain ⟨X2, p1, p2, -⟩ := rnd_mul hF.toGradual u0.le hx hx (A := X ^ 2) (by rw [abs_mul_self, pow_two]) (by rw [pow_two]; linarith)
    obtain ⟨A2, q1, q2, -⟩ := rnd_mul hF.toGradual u0.le ha ha (A := a ^ 2) (by rw [abs_mul_self, pow_two]) (by linarith)
    rw [← pow_two] at p2 q2
    have hη : η ≤ 1 / 2 ^ 20 * (u * a ^ 2) := by
      have h3 : r ^ 2 ≤ a ^ 2 := pow_le_pow_left₀ hr.pos.le hra 2
      have h4 : u ^ 2 * r ^ 2 ≤ u ^ 2 * a ^ 2 := mul_le_mul_of_nonneg_left h3 (pow_two_nonneg u)
      have h5 : u * (u * a ^ 2) ≤ 1 / 2 ^ 20 * (u * a ^ 2) := mul_le_mul_of_nonneg_right u1 (mul_nonneg u0.le (pow_two_nonneg a))
      have h6 := hr.η_le_sq
      have h7 : u ^ 2 * a ^ 2 = u * (u * a ^ 2) := by ring
      linarith
    exact ell_quot u0 u1 a0 η0 ηu hη p2 q2 (hfa _ _ (Is.div_post hP p1 q1).2)
  obtain ⟨S, o, s1, s2, s3⟩ := Is.sub_inv he
  obtain rfl := s2.unique hF.nat1
  obtain ⟨P, Q, p1, q1, s4⟩ := Is.add_inv s1
  have hP := term hx' ha' hX hra haL p1
  have hQ := term hy' hb' hY hrb hbL q1
  have hS := hfa _ _ s4
  have hE := hfa _ _ s3
  have x0 : 0 ≤ X ^ 2 / a ^ 2 := by positivity
  have y0 : 0 ≤ Y ^ 2 / b ^ 2 := by positivity
  generalize X ^ 2 / a ^ 2 = t1 at *
  generalize Y ^ 2 / b ^ 2 = t2 at *
  have T0 : 0 ≤ t1 + t2 := add_nonneg x0 y0
  have eT : u * (t1 + t2) = u * t1 + u * t2 := by ring
  generalize hT : t1 + t2 = T at *
  have uT0 : 0 ≤ u * T := mul_nonneg u0.le T0
  have uT1 : u * T ≤ 1 / 2 ^ 20 * T := mul_le_mul_of_nonneg_right u1 T0
  have h1 : |(P + Q) - T| ≤ 31 / 10 * (u * T) + 1 / 2 ^ 9 * u := by
    rw [← hT, show (P + Q) - (t1 + t2) = (P - t1) + (Q - t2) by ring]
    refine (abs_add_le' hP hQ).trans ?_
    rw [hT, eT]
    linarith
  have h2 : |P + Q| ≤ 1001 / 1000 * T + 1 / 2 ^ 9 * u := by
    have := abs_le_of_near h1 (le_of_eq (abs_of_nonneg T0))
    linarith
  have h3 := mul_le_mul_of_nonneg_left h2 u0.le
  have uu : u * u ≤ 1 / 2 ^ 20 * u := mul_le_mul_of_nonneg_right u1 u0.le
  have e3 : u * (1001 / 1000 * T + 1 / 2 ^ 9 * u) = 1001 / 1000 * (u * T) + 1 / 2 ^ 9 * (u * u) := by ring
  rw [e3] at h3
  have h4 := abs_near_trans hS h1
  have h5 : |S - T| ≤ 411 / 100 * (u * T) + 1 / 2 ^ 8 * u := by linarith
  have h6 : |S - 1 - (T - 1)| ≤ 411 / 100 * (u * T) + 1 / 2 ^ 8 * u := by rwa [sub_sub_sub_cancel_right]
  have h7 : |S - 1| ≤ 1001 / 1000 * T + 1001 / 1000 := by
    have h8 : |T - 1| ≤ T + 1 := abs_le.2 ⟨by linarith, by linarith⟩
    have := abs_le_of_near h6 h8
    linarith
  have h9 := mul_le_mul_of_nonneg_left h7 u0.le
  have e9 : u * (1001 / 1000 * T + 1001 / 1000) = 1001 / 1000 * (u * T) + 1001 / 1000 * u := by ring
  rw [e9] at h9
  have := abs_near_trans hE h6
  linarith

/-- the coordinates that were given, from those that were computed: at most outside by `μ` -/
theorem ell_given {X Y x y a b θ T : K} (θ0 : 0 ≤ θ) (hX : |X - x| ≤ θ * r) (hY : |Y - y| ≤ θ * r) (r0 : 0 < r) (hra : r ≤ a) (hrb : r ≤ b)
    (hT : X ^ 2 / a ^ 2 + Y ^ 2 / b ^ 2 = T) (h1 : T ≤ 1001 / 1000) (θ1 : θ ≤ 1 / 10) :
    |x ^ 2 / a ^ 2 + y ^ 2 / b ^ 2 - T| ≤ 5 * θ := by
  have term : ∀ {X x a : K}, |X - x| ≤ θ * r → r ≤ a → X ^ 2 / a ^ 2 ≤ 1001 / 1000 → |x ^ 2 / a ^ 2 - X ^ 2 / a ^ 2| ≤ 5 / 2 * θ := by
    intro X x a hX hra h
    have a0 : 0 < a := r0.trans_le hra
    have A0 : 0 < a ^ 2 := by positivity
    rw [div_le_iff₀ A0] at h
    have hX1 : |X| ≤ 1001 / 1000 * a := abs_le_of_sq_le_sq (by rw [mul_pow]; linarith) (by positivity)
    have h1 : |x - X| ≤ θ * a := by rw [abs_sub_comm]; exact hX.trans (mul_le_mul_of_nonneg_left hra θ0)
    have θa : θ * a ≤ 1 / 10 * a := mul_le_mul_of_nonneg_right θ1 a0.le
    have h2 : |x + X| ≤ 5 / 2 * a := by
      rw [show x + X = (x - X) + 2 * X by ring]
      refine (abs_add_le' h1 (le_refl |2 * X|)).trans ?_
      rw [abs_mul, abs_two]
      linarith
    have h3 := abs_mul_le h1 h2
    rw [← sub_div, abs_div, abs_of_pos A0, div_le_iff₀ A0, show x ^ 2 - X ^ 2 = (x - X) * (x + X) by ring]
    exact h3.trans_eq (by ring)
  have x0 : 0 ≤ X ^ 2 / a ^ 2 := by positivity
  have y0 : 0 ≤ Y ^ 2 / b ^ 2 := by positivity
  have t1 := term hX hra (by linarith)
  have t2 := term hY hrb (by linarith)
  rw [← hT, show x ^ 2 / a ^ 2 + y ^ 2 / b ^ 2 - (X ^ 2 / a ^ 2 + Y ^ 2 / b ^ 2) =
    (x ^ 2 / a ^ 2 - X ^ 2 / a ^ 2) + (y ^ 2 / b ^ 2 - Y ^ 2 / b ^ 2) by ring]
  exact (abs_add_le' t1 t2).trans_eq (by ring)

/-! ### the point that was found, in the coordinates of the cylinder -/

theorem side_given {X Y x y m n v M : K} (u0 : 0 ≤ u) (ε0 : 0 ≤ ε) (L0 : 0 < L) (hM : M = 6 * (u * L) + 4 * (ε * L)) (hML : M ≤ 1 / 100 * L)
    (hX : |X - x| ≤ M) (hY : |Y - y| ≤ M) (gx : |X - m| ≤ 203 / 100 * L) (gy : |Y - n| ≤ 203 / 100 * L)
    (hv : |v ^ 2 - ((X - m) ^ 2 + (Y - n) ^ 2)| ≤ 70 * (u * L ^ 2)) :
    |v ^ 2 - ((x - m) ^ 2 + (y - n) ^ 2)| ≤ 120 * (u * L ^ 2) + 34 * (ε * L ^ 2) := by
  have term : ∀ {X x m : K}, |X - x| ≤ M → |X - m| ≤ 203 / 100 * L → |(X - m) ^ 2 - (x - m) ^ 2| ≤ M * (407 / 100 * L) := by
    intro X x m h1 h2
    have h3 : |(X - m) + (x - m)| ≤ 407 / 100 * L := by
      rw [show (X - m) + (x - m) = 2 * (X - m) - (X - x) by ring]
      refine (abs_sub_le' (le_refl |2 * (X - m)|) h1).trans ?_
      rw [abs_mul, abs_two]
      linarith
    have h4 := abs_mul_le h1 h3
    rwa [show (X - x) * ((X - m) + (x - m)) = (X - m) ^ 2 - (x - m) ^ 2 by ring] at h4
  have h1 : |((X - m) ^ 2 + (Y - n) ^ 2) - ((x - m) ^ 2 + (y - n) ^ 2)| ≤ M * (407 / 100 * L) + M * (407 / 100 * L) := by
    rw [show ((X - m) ^ 2 + (Y - n) ^ 2) - ((x - m) ^ 2 + (y - n) ^ 2) =
      ((X - m) ^ 2 - (x - m) ^ 2) + ((Y - n) ^ 2 - (y - n) ^ 2) by ring]
    exact abs_add_le' (term hX gx) (term hY gy)
  refine (abs_near_trans hv h1).trans ?_
  rw [hM]
  have e : (6 * (u * L) + 4 * (ε * L)) * (407 / 100 * L) = 2442 / 100 * (u * L ^ 2) + 1628 / 100 * (ε * L ^ 2) := by ring
  rw [e]
  have n1 : 0 ≤ u * L ^ 2 := by positivity
  have n2 : 0 ≤ ε * L ^ 2 := by positivity
  linarith

theorem cap_given {v w E : K} (u0 : 0 ≤ u) (ε0 : 0 ≤ ε) (L0 : 0 < L) (hE : E = 6 * (u * L) + 4 * (ε * L) + 3 * (u * L)) (hEL : E ≤ 1 / 100 * L)
    (hw : |w| ≤ L) (hv : |v - (|w|)| ≤ E) : |v ^ 2 - w ^ 2| ≤ 120 * (u * L ^ 2) + 34 * (ε * L ^ 2) := by
  have h1 : |v + (|w|)| ≤ 3 * L := by
    rw [show v + |w| = (v - |w|) + 2 * |w| by ring]
    refine (abs_add_le' hv (le_refl |2 * (|w|)|)).trans ?_
    rw [abs_mul, abs_two, abs_abs]
    linarith
  have h2 := abs_mul_le hv h1
  rw [show (v - |w|) * (v + |w|) = v ^ 2 - |w| ^ 2 by ring, sq_abs] at h2
  refine h2.trans ?_
  rw [hE]
  have e : (6 * (u * L) + 4 * (ε * L) + 3 * (u * L)) * (3 * L) = 27 * (u * L ^ 2) + 12 * (ε * L ^ 2) := by ring
  rw [e]
  have n1 : 0 ≤ u * L ^ 2 := by positivity
  have n2 : 0 ≤ ε * L ^ 2 := by positivity
  linarith

/-- the sum of the squares, if the equation is computed as less than `2 u` -/
theorem ell_small {e T : K} (u0 : 0 < u) (u1 : u ≤ 1 / 2 ^ 20) (T0 : 0 ≤ T) (he : |e - (T - 1)| ≤ 6 * (u * T) + 2 * u) (h : e ≤ 2 * u) :
    T ≤ 1001 / 1000 ∧ T ≤ 1 + 11 * u ∧ (-(2 * u) ≤ e → 1 - 11 * u ≤ T) := by
  obtain ⟨h1, h2⟩ := abs_le.1 he
  have uT : u * T ≤ 1 / 2 ^ 20 * T := mul_le_mul_of_nonneg_right u1 T0
  have k1 : T ≤ 1001 / 1000 := by linarith
  have k2 := mul_le_mul_of_nonneg_left k1 u0.le
  exact ⟨k1, by linarith, fun k => by linarith⟩

theorem XF.Is.abs_nonneg' {x : XF F} {v : K} (h : (Scalar.abs x).Is v) : 0 ≤ v := by
  match x, h with
  | .fin a s, h => obtain ⟨t, h⟩ := h; cases h; exact abs_nonneg _
  | .inf s, h => obtain ⟨t, h⟩ := h; cases h
  | .nan, h => obtain ⟨t, h⟩ := h; cases h

theorem lt_fin {x y : XF F} {b : K} (hy : y.Is b) (hb : x = .inf true → False) (h : lt x y = true) : ∃ a, x.Is a ∧ a < b := by
  obtain ⟨t, rfl⟩ := hy
  cases x with
  | fin a s => exact ⟨a, ⟨s, rfl⟩, of_decide_eq_true h⟩
  | inf s =>
    cases s
    · cases h
    · exact (hb rfl).elim
  | nan => cases h

theorem lt_abs_fin {x y : XF F} {b : K} (hy : y.Is b) (h : lt (Scalar.abs x) y = true) : ∃ a, x.Is a ∧ |a| < b := by
  obtain ⟨t, rfl⟩ := hy
  cases x with
  | fin a s => exact ⟨a, ⟨s, rfl⟩, of_decide_eq_true h⟩
  | inf s => cases h
  | nan => cases h

theorem NoSign.sub_le {x y : XF F} (hF : F.Rounds u η hi) (h1 : 1 ≤ hi) (hx : NoSign x) (hy : y.Is 1) :
    x - y ≠ .inf true := by
  obtain ⟨t, rfl⟩ := hy
  rcases hx with ⟨a, s, rfl, ha⟩ | rfl
  · intro k
    change XF.mk F _ (a + -1) = _ at k
    unfold XF.mk at k
    by_cases h0 : a + -1 < 0
    · obtain ⟨r', k1, -⟩ := hF.post (a + -1) (by rw [abs_of_neg h0]; linarith)
      rw [k1] at k
      cases k
    · cases hp : F.post (a + -1) with
      | some r' => rw [hp] at k; cases k
      | none => rw [hp] at k; simp [h0] at k
  · intro k; cases k

/-- the equation of the ellipse is not computed as minus infinity -/
theorem ell_not_inf (hF : F.Rounds u η hi) (hm : F.Monotone) (hs : Scale u η hi L) (hr : Scale u η hi r) {x' y' a' b' : XF F}
    {X Y a b : K} (hx' : x'.Is X) (hy' : y'.Is Y) (ha' : a'.Is a) (hb' : b'.Is b) (hX : |X| ≤ 101 / 100 * L) (hY : |Y| ≤ 101 / 100 * L)
    (hra : r ≤ a) (haL : a ≤ L) (hrb : r ≤ b) (hbL : b ≤ L) : ellipseEquation a' b' x' y' ≠ .inf true :=
  (ell_sum_nosign hF hm hs hr hx' hy' ha' hb' hX hY hra haL hrb hbL).sub_le hF (by have := hs.sizes.hi1; linarith) hF.nat1

end
end Blazert
