/- Rounding errors of the roots of the equation of the elliptic tube. -/
import Verif.Proofs.TubeRound

set_option autoImplicit false
set_option linter.unusedSectionVars false

namespace Blazert
open Scalar

section
variable {K : Type} [Field K] [LinearOrder K] [IsStrictOrderedRing K] [FloorRing K]

/-! ### magnitudes, compared with the square root of `Z` -/

/-- `X` is at most `c √Z` -/
structure Mag (Z c X : K) : Prop where
  nonneg : 0 ≤ c
  sq : X ^ 2 ≤ c ^ 2 * Z

variable {Z c d X Y : K}

theorem Mag.mul (hZ : 0 ≤ Z) (hX : Mag Z c X) (hY : Mag Z d Y) : |X * Y| ≤ c * d * Z := by
  have h0 : 0 ≤ c * d * Z := mul_nonneg (mul_nonneg hX.nonneg hY.nonneg) hZ
  refine abs_le_of_sq_le_sq ?_ h0
  rw [mul_pow, show (c * d * Z) ^ 2 = (c ^ 2 * Z) * (d ^ 2 * Z) by ring]
  exact mul_le_mul hX.sq hY.sq (pow_two_nonneg Y) (mul_nonneg (pow_two_nonneg c) hZ)

theorem Mag.of_abs (h : |X| ≤ |Y|) (hY : Mag Z c Y) : Mag Z c X :=
  ⟨hY.nonneg, (sq_le_sq.2 h).trans hY.sq⟩

theorem Mag.of_le (hX : |X| ≤ Y) (hY : Mag Z c Y) : Mag Z c X := hY.of_abs (hX.trans (le_abs_self Y))

theorem Mag.abs (h : Mag Z c X) : Mag Z c |X| := h.of_abs (by rw [abs_abs])

theorem Mag.neg (h : Mag Z c X) : Mag Z c (-X) := h.of_abs (by rw [abs_neg])

theorem Mag.add (hZ : 0 ≤ Z) (hX : Mag Z c X) (hY : Mag Z d Y) : Mag Z (c + d) (X + Y) := by
  refine ⟨add_nonneg hX.nonneg hY.nonneg, ?_⟩
  have h1 := (le_abs_self _).trans (hX.mul hZ hY)
  have h2 := hX.sq
  have h3 := hY.sq
  nlinarith

theorem Mag.scale {s : K} (hs : 0 ≤ s) (h : Mag Z c X) : Mag Z (s * c) (s * X) := by
  refine ⟨mul_nonneg hs h.nonneg, ?_⟩
  rw [mul_pow, mul_pow, mul_assoc]
  exact mul_le_mul_of_nonneg_left h.sq (pow_two_nonneg s)

theorem Mag.le (hZ : 0 ≤ Z) (h : Mag Z c X) (hcd : c ≤ d) : Mag Z d X :=
  ⟨h.nonneg.trans hcd, h.sq.trans (mul_le_mul_of_nonneg_right (pow_le_pow_left₀ h.nonneg hcd 2) hZ)⟩

/-! ### what is not cancelled -/

variable {a b x y j k : K}

theorem tubeP_sq : tubeP a b x y j k ^ 2 ≤ tubeA a b j k * tubeH a b x y := by
  have e : tubeA a b j k * tubeH a b x y - tubeP a b x y j k ^ 2 =
      tubeA a b j k * (a ^ 2 * b ^ 2) + a ^ 2 * b ^ 2 * (|k * x| - |j * y|) ^ 2 := by
    have h1 : |k * y| ^ 2 = k ^ 2 * y ^ 2 := by rw [sq_abs]; ring
    have h2 : |j * x| ^ 2 = j ^ 2 * x ^ 2 := by rw [sq_abs]; ring
    have h3 : |k * x| ^ 2 = k ^ 2 * x ^ 2 := by rw [sq_abs]; ring
    have h4 : |j * y| ^ 2 = j ^ 2 * y ^ 2 := by rw [sq_abs]; ring
    have h5 : |k * y| * |j * x| = |k * x| * |j * y| := by rw [← abs_mul, ← abs_mul]; congr 1; ring
    unfold tubeA tubeH tubeP
    linear_combination -a ^ 4 * h1 - b ^ 4 * h2 - a ^ 2 * b ^ 2 * h3 - a ^ 2 * b ^ 2 * h4 - 2 * a ^ 2 * b ^ 2 * h5
  have h : 0 ≤ tubeA a b j k * (a ^ 2 * b ^ 2) + a ^ 2 * b ^ 2 * (|k * x| - |j * y|) ^ 2 := by
    unfold tubeA; positivity
  linarith

theorem tubeV_le : a ^ 2 * b ^ 2 * tubeV a b x y j k ≤ tubeA a b j k * tubeH a b x y := by
  have e : tubeA a b j k * tubeH a b x y - a ^ 2 * b ^ 2 * tubeV a b x y j k = (a ^ 2 * |k * y| - b ^ 2 * |j * x|) ^ 2 := by
    have h1 : |k * y| ^ 2 = k ^ 2 * y ^ 2 := by rw [sq_abs]; ring
    have h2 : |j * x| ^ 2 = j ^ 2 * x ^ 2 := by rw [sq_abs]; ring
    have h3 : |k * x| ^ 2 = k ^ 2 * x ^ 2 := by rw [sq_abs]; ring
    have h4 : |j * y| ^ 2 = j ^ 2 * y ^ 2 := by rw [sq_abs]; ring
    have h5 : |k * y| * |j * x| = |k * x| * |j * y| := by rw [← abs_mul, ← abs_mul]; congr 1; ring
    unfold tubeV tubeA tubeH
    linear_combination -a ^ 4 * h1 - b ^ 4 * h2 - a ^ 2 * b ^ 2 * h3 - a ^ 2 * b ^ 2 * h4 + 2 * a ^ 2 * b ^ 2 * h5
  have := pow_two_nonneg (a ^ 2 * |k * y| - b ^ 2 * |j * x|)
  linarith

theorem tubeC_le : tubeC a b x y j k ≤ tubeA a b j k := by
  have : tubeC a b x y j k = tubeA a b j k - (j * y - k * x) ^ 2 := by unfold tubeC; ring
  have := pow_two_nonneg (j * y - k * x)
  linarith

theorem tubeC_le_V : |tubeC a b x y j k| ≤ tubeV a b x y j k := by
  have e : tubeC a b x y j k = tubeA a b j k - (j * y - k * x) ^ 2 := by unfold tubeC; ring
  have hA : 0 ≤ tubeA a b j k := by unfold tubeA; positivity
  rw [e]
  refine (abs_sub_le' (le_of_eq (abs_of_nonneg hA)) (le_of_eq (abs_of_nonneg (pow_two_nonneg _)))).trans ?_
  unfold tubeV
  have := sq_le_sq_of_abs (abs_sub_le' (le_refl |j * y|) (le_refl |k * x|))
  linarith

/-- the equation along the ray -/
theorem tube_along (t : K) : tubeA a b j k * tubeE a b (x + t * j) (y + t * k) =
    (tubeA a b j k * t + tubeB a b x y j k) ^ 2 - a ^ 2 * b ^ 2 * tubeC a b x y j k := by
  unfold tubeA tubeB tubeC tubeE tubeA; ring

theorem tubeE_poly (t : K) : tubeE a b (x + t * j) (y + t * k) =
    tubeA a b j k * t ^ 2 + 2 * tubeB a b x y j k * t + tubeE a b x y := by
  unfold tubeA tubeB tubeE; ring

theorem tubeH_nonneg : 0 ≤ tubeH a b x y := by unfold tubeH; positivity
theorem tubeA_nonneg : 0 ≤ tubeA a b j k := by unfold tubeA; positivity
theorem ab_le_tubeH : a ^ 2 * b ^ 2 ≤ tubeH a b x y := by
  unfold tubeH
  have : 0 ≤ b ^ 2 * x ^ 2 := by positivity
  have : 0 ≤ a ^ 2 * y ^ 2 := by positivity
  linarith

/-! ### the roots -/

variable {F : Fmt K} {u η hi Q : K}

/-- what underflow loses is small compared with the coefficients -/
structure TubeFine (u θ A Z : K) : Prop where
  Apos : 0 < A
  Zpos : 0 < Z
  θA : 2 ^ 12 * θ ≤ u * A
  θZ : Mag Z u (2 ^ 12 * θ)

theorem Mag.part {θ A s : K} (h : TubeFine u θ A Z) (hs : 0 ≤ s) : Mag Z (s / 2 ^ 12 * u) (s * θ) := by
  have := h.θZ.scale (s := s / 2 ^ 12) (by positivity)
  rwa [show s / 2 ^ 12 * (2 ^ 12 * θ) = s * θ by field_simp] at this

/-- the square root of the discriminant -/
theorem tube_sqrt (hF : F.Rounds u η hi) (hs : TubeSizes u η hi Q) {a' b' c' : XF F} {C' : K} (ha : a'.Is a) (hb : b'.Is b)
    (hc : c'.Is C') (h : TubeIn Q a b x y j k) (hC0 : 0 ≤ C')
    (hC : |C' - tubeC a b x y j k| ≤ 8 * (u * tubeV a b x y j k) + 40 * (η * Q ^ 2)) :
    ∃ s r, (a' * b' * sqrt c').Is s ∧ 0 ≤ s ∧ 0 ≤ r ∧ |s - a * b * r| ≤ 2001 / 1000 * (u * (a * b * r)) + 5 * (η * Q ^ 2) ∧
      |r ^ 2 - tubeC a b x y j k| ≤ 121 / 10 * (u * tubeV a b x y j k) + 45 * (η * Q ^ 2) := by
  have hV := h.V_le
  have hCV := tubeC_le_V (a := a) (b := b) (x := x) (y := y) (j := j) (k := k)
  obtain ⟨a0, b0, aQ, bQ, xQ, yQ, j1, k1⟩ := h
  obtain ⟨u0, u1, η0, Q1, ηθ, ηQ, θ0, QQ, Q2, Q3, hi2, hi3, hi4, θu⟩ := hs
  set V := tubeV a b x y j k
  set C := tubeC a b x y j k
  have V0 : 0 ≤ V := (abs_nonneg _).trans hCV
  have uV0 := mul_nonneg u0.le V0
  have uV1 : u * V ≤ 1 / 2 ^ 20 * V := mul_le_mul_of_nonneg_right u1 V0
  have hθ1 : η * Q ^ 2 ≤ 1 / 2 ^ 12 := by linarith
  have hC' : C' ≤ 1001 / 1000 * V + 40 * (η * Q ^ 2) := by
    have := abs_le_of_near hC hCV
    rw [abs_of_nonneg hC0] at this
    linarith
  obtain ⟨r, r1, r0, r2⟩ := rnd_sqrt hF u0.le η0 hc hC0 (by linarith)
  have huC : u * C' ≤ 1001 / 1000 * (u * V) + 1 / 10 * (η * Q ^ 2) := by
    have h1 := mul_le_mul_of_nonneg_left hC' u0.le
    have h2 : u * (η * Q ^ 2) ≤ 1 / 2 ^ 20 * (η * Q ^ 2) := mul_le_mul_of_nonneg_right u1 θ0
    linarith
  have hr : |r ^ 2 - C| ≤ 121 / 10 * (u * V) + 45 * (η * Q ^ 2) := by
    refine (abs_near_trans r2 hC).trans ?_
    linarith
  have hrQ : r ≤ 3 * Q := by
    refine (le_abs_self r).trans (abs_le_of_sq_le_sq ?_ (by linarith))
    have h1 := abs_le_of_near hr hCV
    have h2 := (le_abs_self _).trans h1
    rw [show (3 * Q) ^ 2 = 9 * Q ^ 2 by ring]
    linarith
  have hab : |a * b| ≤ Q ^ 2 := by
    rw [abs_of_pos (mul_pos a0 b0), pow_two]
    exact mul_le_mul aQ bQ b0.le (by linarith)
  have Q30 : 0 ≤ Q ^ 3 := by linarith
  obtain ⟨p, p1, p2, p3⟩ := rnd_mul hF.toGradual u0.le ha hb (le_refl |a * b|) (by linarith)
  obtain ⟨s, s1, s2, s3⟩ := mul_step hF.toGradual u0.le u1 p1 r1 (m := a * b) (e := 1) (E := η) (by rw [one_mul]; exact p2) (by norm_num)
    (by norm_num) hab η0 (by linarith) (S := 3 * Q) (by rw [abs_of_nonneg r0]; exact hrQ) (by
      rw [show 3 * Q ^ 2 * (3 * Q) = 9 * Q ^ 3 by ring]; linarith)
  refine ⟨s, r, s1, s3 (mul_nonneg (p3 (mul_pos a0 b0).le) r0), r0, s2.trans ?_, hr⟩
  have h1 : η * |r| ≤ η * (3 * Q) := mul_le_mul_of_nonneg_left (by rw [abs_of_nonneg r0]; exact hrQ) η0
  have h2 : 0 ≤ u * (a * b * r) := by positivity
  rw [abs_of_nonneg (by positivity : 0 ≤ a * b * r), show (1 : K) + 1001 / 1000 = 2001 / 1000 by norm_num]
  linarith

/-- its square -/
theorem tube_sqrt_sq (u0 : 0 < u) (u1 : u ≤ 1 / 2 ^ 20) {θ s r : K} (a0 : 0 < a) (b0 : 0 < b) (θ0 : 0 ≤ θ)
    (hf : TubeFine u θ (tubeA a b j k) (tubeA a b j k * tubeH a b x y)) (r0 : 0 ≤ r)
    (h1 : |s - a * b * r| ≤ 2001 / 1000 * (u * (a * b * r)) + 5 * θ)
    (h2 : |r ^ 2 - tubeC a b x y j k| ≤ 121 / 10 * (u * tubeV a b x y j k) + 45 * θ) :
    |s ^ 2 - a ^ 2 * b ^ 2 * tubeC a b x y j k| ≤ 17 * (u * (tubeA a b j k * tubeH a b x y)) ∧
      Mag (tubeA a b j k * tubeH a b x y) (1002 / 1000) s := by
  have hCA := tubeC_le (a := a) (b := b) (x := x) (y := y) (j := j) (k := k)
  have hVZ := tubeV_le (a := a) (b := b) (x := x) (y := y) (j := j) (k := k)
  have hab := ab_le_tubeH (a := a) (b := b) (x := x) (y := y)
  have hA0 := hf.Apos
  set A := tubeA a b j k
  set H := tubeH a b x y
  set C := tubeC a b x y j k
  set V := tubeV a b x y j k
  have hZ := hf.Zpos.le
  have hθA := hf.θA
  set Z := A * H with hZdef
  have ab0 : 0 ≤ a ^ 2 * b ^ 2 := by positivity
  have hAZ : a ^ 2 * b ^ 2 * A ≤ Z := by rw [hZdef, mul_comm A H]; exact mul_le_mul_of_nonneg_right hab hA0.le
  have uZ0 : 0 ≤ u * Z := mul_nonneg u0.le hZ
  have uZ1 : u * Z ≤ 1 / 2 ^ 20 * Z := mul_le_mul_of_nonneg_right u1 hZ
  set y' := a * b * r with hy
  have y0 : 0 ≤ y' := by positivity
  have k1 : |y' ^ 2 - a ^ 2 * b ^ 2 * C| ≤ 122 / 10 * (u * Z) := by
    rw [hy, show (a * b * r) ^ 2 - a ^ 2 * b ^ 2 * C = a ^ 2 * b ^ 2 * (r ^ 2 - C) by ring, abs_mul, abs_of_nonneg ab0]
    refine (mul_le_mul_of_nonneg_left h2 ab0).trans ?_
    have e1 : a ^ 2 * b ^ 2 * (121 / 10 * (u * V) + 45 * θ) = 121 / 10 * (u * (a ^ 2 * b ^ 2 * V)) + 45 * (a ^ 2 * b ^ 2 * θ) := by ring
    have e2 := mul_le_mul_of_nonneg_left hVZ u0.le
    have e3 : 2 ^ 12 * (a ^ 2 * b ^ 2 * θ) ≤ u * (a ^ 2 * b ^ 2 * A) := by
      have := mul_le_mul_of_nonneg_left hθA ab0
      linarith
    have e4 := mul_le_mul_of_nonneg_left hAZ u0.le
    rw [e1]
    linarith
  have my : Mag Z (1001 / 1000) y' := by
    refine ⟨by norm_num, ?_⟩
    have e1 := (abs_le.1 k1).2
    have e2 := mul_le_mul_of_nonneg_left hCA ab0
    linarith
  have me : Mag Z (u * (201 / 100)) (s - y') := by
    have e1 : Mag Z (u * (2001 / 1000 * (1001 / 1000))) (u * (2001 / 1000 * y')) := (my.scale (by norm_num)).scale u0.le
    refine Mag.of_le (Y := u * (2001 / 1000 * y') + 5 * θ) (h1.trans_eq (by ring)) ?_
    refine (e1.add hZ (Mag.part hf (by norm_num : (0 : K) ≤ 5))).le hZ ?_
    linarith
  have ms : Mag Z (1002 / 1000) s := by
    have := my.add hZ me
    rw [show y' + (s - y') = s by ring] at this
    refine this.le hZ ?_
    linarith
  refine ⟨?_, ms⟩
  have k2 := me.mul hZ (my.add hZ ms)
  rw [show (s - y') * (y' + s) = s ^ 2 - y' ^ 2 by ring] at k2
  refine (abs_near_trans k2 k1).trans ?_
  rw [show u * (201 / 100) * (1001 / 1000 + 1002 / 1000) * Z = 402603 / 100000 * (u * Z) by ring]
  linarith

/-- a root: the quotient, rounded -/
theorem tube_root (hs : TubeSizes u η hi Q) {A' B' s q N T σ A B P Z : K}
    (hf : TubeFine u (η * Q ^ 2) A Z) (hAQ : A ≤ 21 / 10 * Q ^ 2) (hσ : |σ| = 1) (hσ2 : σ * σ = 1)
    (hA : |A' - A| ≤ 42 / 10 * (u * A) + 14 * (η * Q ^ 2)) (hB : |B' - B| ≤ 42 / 10 * (u * P) + 14 * (η * Q ^ 2))
    (hBP : |B| ≤ P) (hP : Mag Z 1 P) (ms : Mag Z (1002 / 1000) s)
    (hq : |q - σ / A'| ≤ u * |σ / A'| + η) (hN : |N - (-σ * B' + s)| ≤ u * |-σ * B' + s| + η) (hT : |T - q * N| ≤ u * |q * N| + η) :
    Mag Z (u * (192 / 10)) (A * T + B - σ * s) ∧ Mag Z (u * (42 / 10 + 1 / 100)) (B' - B) ∧ |A * q - σ| ≤ 54 / 10 * u ∧
      |A * T - σ * N| ≤ 641 / 100 * (u * |N|) + 3 * (η * Q ^ 2) ∧ Mag Z (1001 / 1000) B' := by
  obtain ⟨u0, u1, η0, Q1, ηθ, ηQ, θ0, QQ, Q2, Q3, hi2, hi3, hi4, θu⟩ := hs
  have A0 := hf.Apos
  have hZ := hf.Zpos.le
  have hθA := hf.θA
  set θ := η * Q ^ 2 with hθ
  have uA1 : u * A ≤ 1 / 2 ^ 20 * A := mul_le_mul_of_nonneg_right u1 A0.le
  have hA' : |A' - A| ≤ 43 / 10 * (u * A) := by
    have : 0 ≤ u * A := mul_nonneg u0.le A0.le
    linarith
  obtain ⟨l1, l2⟩ := abs_le.1 hA'
  have A'0 : 0 < A' := by linarith
  have g1 : A / A' ≤ 1001 / 1000 := by rw [div_le_iff₀ A'0]; linarith
  have g0 : 0 ≤ A / A' := div_nonneg A0.le A'0.le
  have g2 : |A / A' - 1| ≤ 431 / 100 * u := by
    rw [show A / A' - 1 = -((A' - A) / A') by field_simp; ring, abs_neg, abs_div, abs_of_pos A'0, div_le_iff₀ A'0]
    have : u * A ≤ u * (1001 / 1000 * A') := mul_le_mul_of_nonneg_left (by linarith) u0.le
    have : 0 ≤ u * A' := mul_nonneg u0.le A'0.le
    linarith
  have hAη : A * η ≤ 21 / 10 * θ := by
    have := mul_le_mul_of_nonneg_right hAQ η0
    rw [hθ]; linarith
  have hAq : |A * q - σ| ≤ 54 / 10 * u := by
    rw [abs_div, hσ, abs_of_pos A'0] at hq
    have e1 : A * q - σ = A * (q - σ / A') + σ * (A / A' - 1) := by field_simp; ring
    have e2 : |A * (q - σ / A')| ≤ A * (u * (1 / A') + η) := by
      rw [abs_mul, abs_of_pos A0]; exact mul_le_mul_of_nonneg_left hq A0.le
    have e3 : |σ * (A / A' - 1)| ≤ 431 / 100 * u := by rw [abs_mul, hσ, one_mul]; exact g2
    have e4 : A * (u * (1 / A') + η) = u * (A / A') + A * η := by field_simp
    have e5 := mul_le_mul_of_nonneg_left g1 u0.le
    rw [e1]
    refine (abs_add_le' e2 e3).trans ?_
    rw [e4]
    linarith
  have hAT : |A * T - σ * N| ≤ 641 / 100 * (u * |N|) + 3 * θ := by
    have e1 : A * T - σ * N = A * (T - q * N) + (A * q - σ) * N := by ring
    have e2 : |A * (T - q * N)| ≤ A * (u * |q * N| + η) := by
      rw [abs_mul, abs_of_pos A0]; exact mul_le_mul_of_nonneg_left hT A0.le
    have e3 := abs_mul_le hAq (le_refl |N|)
    have e4 : A * (u * |q * N| + η) = u * (|A * q| * |N|) + A * η := by
      rw [abs_mul, abs_mul, abs_of_pos A0]; ring
    have e5 : |A * q| ≤ 1001 / 1000 := by
      have := abs_le_of_near hAq (le_of_eq hσ)
      linarith
    have e6 : u * (|A * q| * |N|) ≤ u * (1001 / 1000 * |N|) :=
      mul_le_mul_of_nonneg_left (mul_le_mul_of_nonneg_right e5 (abs_nonneg N)) u0.le
    have e7 : 0 ≤ u * |N| := mul_nonneg u0.le (abs_nonneg N)
    rw [e1]
    refine (abs_add_le' e2 e3).trans ?_
    rw [e4]
    linarith
  have mB : Mag Z (u * (42 / 10 + 1 / 100)) (B' - B) := by
    have e1 := (hP.scale (by norm_num : (0 : K) ≤ 42 / 10)).scale u0.le
    refine Mag.of_le (Y := u * (42 / 10 * P) + 14 * θ) (hB.trans_eq (by ring)) ((e1.add hZ (Mag.part hf (by norm_num : (0 : K) ≤ 14))).le hZ ?_)
    linarith
  have mB' : Mag Z (1001 / 1000) B' := by
    have := mB.add hZ (Mag.of_le hBP hP)
    rw [show B' - B + B = B' by ring] at this
    exact this.le hZ (by linarith)
  have mσB : Mag Z (1001 / 1000) (-σ * B') := mB'.of_abs (by rw [abs_mul, abs_neg, hσ, one_mul])
  have mn := mσB.add hZ ms
  have mη : ∀ c : K, 0 ≤ c → Mag Z (c / 2 ^ 12 * u) (c * θ) := fun c hc => Mag.part hf hc
  have mNn : Mag Z (u * (2004 / 1000)) (N - (-σ * B' + s)) := by
    refine Mag.of_le (Y := u * |-σ * B' + s| + 1 * θ) (hN.trans (by linarith)) (((mn.abs.scale u0.le).add hZ (mη 1 (by norm_num))).le hZ ?_)
    linarith
  have mN : Mag Z (2004 / 1000) N := by
    have := mn.add hZ mNn
    rw [show (-σ * B' + s) + (N - (-σ * B' + s)) = N by ring] at this
    exact this.le hZ (by linarith)
  have mAT : Mag Z (u * (129 / 10)) (A * T - σ * N) := by
    have e1 := (mN.abs.scale (by norm_num : (0 : K) ≤ 641 / 100)).scale u0.le
    refine Mag.of_le (Y := u * (641 / 100 * |N|) + 3 * θ) (hAT.trans_eq (by ring)) ((e1.add hZ (mη 3 (by norm_num))).le hZ ?_)
    linarith
  refine ⟨?_, mB, hAq, hAT, mB'⟩
  have mσN : Mag Z (u * (2004 / 1000)) (σ * (N - (-σ * B' + s))) := mNn.of_abs (by rw [abs_mul, hσ, one_mul])
  have e : A * T + B - σ * s = (A * T - σ * N) + σ * (N - (-σ * B' + s)) + -(B' - B) := by
    linear_combination -B' * hσ2
  rw [e]
  exact ((mAT.add hZ mσN).add hZ mB.neg).le hZ (by linarith)

/-- the residual of a root -/
theorem tube_residual (u0 : 0 < u) (u1 : u ≤ 1 / 2 ^ 20) {A D E H s σ W θ : K} (hf : TubeFine u θ A (A * H))
    (hσ : |σ| = 1) (hE : A * E = W ^ 2 - D) (hs : |s ^ 2 - D| ≤ 17 * (u * (A * H))) (ms : Mag (A * H) (1002 / 1000) s)
    (hW : Mag (A * H) (u * (192 / 10)) (W - σ * s)) : |E| ≤ 56 * (u * H) ∧ Mag (A * H) (1003 / 1000) W := by
  have hZ := hf.Zpos.le
  have A0 := hf.Apos
  have mσ : Mag (A * H) (1002 / 1000) (σ * s) := ms.of_abs (by rw [abs_mul, hσ, one_mul])
  have mW : Mag (A * H) (1003 / 1000) W := by
    have := hW.add hZ mσ
    rw [show W - σ * s + σ * s = W by ring] at this
    exact this.le hZ (by linarith)
  refine ⟨?_, mW⟩
  have h1 := hW.mul hZ (mW.add hZ mσ)
  have hσ2 : σ ^ 2 = 1 := by rw [← sq_abs, hσ, one_pow]
  have e : (W - σ * s) * (W + σ * s) = W ^ 2 - s ^ 2 := by linear_combination -s ^ 2 * hσ2
  rw [e] at h1
  have h2 := abs_near_trans h1 hs
  rw [← hE, abs_mul, abs_of_pos A0] at h2
  have uZ0 : 0 ≤ u * (A * H) := mul_nonneg u0.le hZ
  have h3 : A * |E| ≤ A * (56 * (u * H)) := by
    refine h2.trans ?_
    rw [show A * (56 * (u * H)) = 56 * (u * (A * H)) by ring,
      show u * (192 / 10) * (1003 / 1000 + 1002 / 1000) * (A * H) = 38496 / 1000 * (u * (A * H)) by ring]
    linarith
  exact le_of_mul_le_mul_left h3 A0

/-- the scales of the coefficients -/
theorem TubeScale.fine {L ν μ : K} (hs : TubeScale u η hi L ν μ) (ha : ν ≤ a) (hb : ν ≤ b) (hjk : μ ≤ |j| ∨ μ ≤ |k|) :
    TubeFine u (η * (1 + L) ^ 2) (tubeA a b j k) (tubeA a b j k * tubeH a b x y) ∧ (μ * ν) ^ 2 ≤ tubeA a b j k := by
  have u0 := hs.u_pos
  have ν0 := hs.ν_pos
  have μ0 := hs.μ_pos
  have w0 : 0 < μ * ν := mul_pos μ0 ν0
  have w1 : μ * ν ≤ 1 := mul_le_one₀ hs.μ_le ν0.le hs.ν_le
  have hA : (μ * ν) ^ 2 ≤ tubeA a b j k := by
    unfold tubeA
    have key : ∀ c z : K, ν ≤ c → μ ≤ |z| → (μ * ν) ^ 2 ≤ c ^ 2 * z ^ 2 := by
      intro c z hc hz
      rw [← mul_pow, ← sq_abs (c * z), abs_mul]
      refine pow_le_pow_left₀ w0.le ?_ 2
      rw [mul_comm]
      exact mul_le_mul (hc.trans (le_abs_self c)) hz μ0.le (abs_nonneg c)
    have h1 : 0 ≤ a ^ 2 * k ^ 2 := by positivity
    have h2 : 0 ≤ b ^ 2 * j ^ 2 := by positivity
    rcases hjk with h | h
    · have := key b j hb h; linarith
    · have := key a k ha h; linarith
  have hab : (μ * ν) ^ 4 ≤ tubeH a b x y := by
    refine le_trans ?_ ab_le_tubeH
    have h1 : μ * ν ≤ a := (mul_le_of_le_one_left ν0.le hs.μ_le).trans ha
    have h2 : μ * ν ≤ b := (mul_le_of_le_one_left ν0.le hs.μ_le).trans hb
    rw [show (μ * ν) ^ 4 = (μ * ν) ^ 2 * (μ * ν) ^ 2 by ring]
    exact mul_le_mul (pow_le_pow_left₀ w0.le h1 2) (pow_le_pow_left₀ w0.le h2 2) (by positivity) (by positivity)
  have A0 : 0 < tubeA a b j k := lt_of_lt_of_le (by positivity) hA
  have H0 : 0 < tubeH a b x y := lt_of_lt_of_le (by positivity) hab
  have h3 : (μ * ν) ^ 3 ≤ (μ * ν) ^ 2 := by
    rw [pow_succ]; exact mul_le_of_le_one_right (by positivity) w1
  refine ⟨⟨A0, mul_pos A0 H0, hs.lost.trans (mul_le_mul_of_nonneg_left (h3.trans hA) u0.le), u0.le, ?_⟩, hA⟩
  have hη := hs.η_nonneg
  refine (pow_le_pow_left₀ (by positivity) hs.lost 2).trans ?_
  rw [mul_pow]
  refine mul_le_mul_of_nonneg_left ?_ (by positivity)
  rw [show ((μ * ν) ^ 3) ^ 2 = (μ * ν) ^ 2 * (μ * ν) ^ 4 by ring]
  exact mul_le_mul hA hab (by positivity) A0.le

/-- where the tube is left: the larger root is positive for an origin well inside -/
theorem tube_exit_pos (hs : TubeSizes u η hi Q) {A B B' D E s N T H : K} (hf : TubeFine u (η * Q ^ 2) A (A * H))
    (hE : A * E = B ^ 2 - D) (hin : E ≤ -(27 * (u * H))) (s0 : 0 ≤ s) (hsq : |s ^ 2 - D| ≤ 17 * (u * (A * H)))
    (ms : Mag (A * H) (1002 / 1000) s) (mB' : Mag (A * H) (1001 / 1000) B') (mB : Mag (A * H) (u * (42 / 10 + 1 / 100)) (B' - B))
    (mB0 : Mag (A * H) 1 B)
    (hN : |N - (-B' + s)| ≤ u * |-B' + s| + η) (hT : |A * T - N| ≤ 641 / 100 * (u * |N|) + 3 * (η * Q ^ 2)) : 0 < T := by
  obtain ⟨u0, u1, η0, Q1, ηθ, ηQ, θ0, QQ, Q2, Q3, hi2, hi3, hi4, θu⟩ := hs
  have A0 := hf.Apos
  have Z0 := hf.Zpos
  have hθ := hf.θZ
  set θ := η * Q ^ 2 with hθdef
  set Z := A * H with hZ
  have uZ : 0 < u * Z := mul_pos u0 Z0
  have h1 := mB.mul Z0.le (mB'.add Z0.le mB0)
  rw [show (B' - B) * (B' + B) = B' ^ 2 - B ^ 2 by ring] at h1
  have h2 := (abs_le.1 hsq).1
  have h3 := (abs_le.1 h1).2
  have h4 : A * E ≤ -(27 * (u * Z)) := by
    have := mul_le_mul_of_nonneg_left hin A0.le
    rw [hZ]; linarith
  have e5 : u * (42 / 10 + 1 / 100) * (1001 / 1000 + 1) * Z = 842421 / 100000 * (u * Z) := by ring
  rw [e5] at h3
  have h5 : u * Z < (s - B') * (s + B') := by
    rw [show (s - B') * (s + B') = s ^ 2 - B' ^ 2 by ring]
    linarith
  have hn : 0 < s - B' := by
    by_contra hneg
    have h6 := not_lt.1 hneg
    have : (s - B') * (s + B') ≤ 0 := mul_nonpos_of_nonpos_of_nonneg h6 (by linarith)
    linarith
  have hnθ : 2 ^ 10 * θ ≤ s - B' := by
    by_contra hneg
    have h6 := not_le.1 hneg
    have h7 : Mag Z (u * (1 / 4)) (s - B') := by
      have := hθ.scale (by norm_num : (0 : K) ≤ 1 / 4)
      refine Mag.of_le (Y := 1 / 4 * (2 ^ 12 * θ)) ?_ (this.le Z0.le (by linarith))
      rw [abs_of_pos hn]; linarith
    have h8 := (le_abs_self _).trans (h7.mul Z0.le (ms.add Z0.le mB'))
    rw [show u * (1 / 4) * (1002 / 1000 + 1001 / 1000) * Z = 2003 / 4000 * (u * Z) by ring] at h8
    linarith
  rw [show -B' + s = s - B' by ring, abs_of_pos hn] at hN
  have hun : u * (s - B') ≤ 1 / 2 ^ 20 * (s - B') := mul_le_mul_of_nonneg_right u1 hn.le
  have hN0 : 99 / 100 * (s - B') ≤ N := by
    have := (abs_le.1 hN).1
    linarith
  have hNpos : 0 < N := by linarith
  rw [abs_of_pos hNpos] at hT
  have huN : u * N ≤ 1 / 2 ^ 20 * N := mul_le_mul_of_nonneg_right u1 hNpos.le
  have hAT : 0 < A * T := by
    have := (abs_le.1 hT).1
    linarith
  exact (mul_pos_iff_of_pos_left A0).1 hAT

end
end Blazert
