/- Rounding errors of the distance to a cylinder, over its caps. -/
import Verif.Proofs.PlaneDist
import Verif.Model.Cylinder

set_option autoImplicit false
set_option linter.unusedSectionVars false

namespace Blazert
open Scalar

section
variable {K : Type} [Field K] [LinearOrder K] [IsStrictOrderedRing K] [FloorRing K] {F : Fmt K} {u η hi L ε r : K}

/-- the square of a coordinate that is off by at most `θ r` -/
theorem off_sq_le {X x a θ : K} (hX : |X - x| ≤ θ * r) (hx : x ^ 2 ≤ a ^ 2) (θ0 : 0 ≤ θ) (θ1 : θ ≤ 1 / 10) (r0 : 0 < r) (hr : r ≤ a) :
    X * X ≤ x ^ 2 + 21 / 10 * (θ * a ^ 2) ∧ X * X ≤ 121 / 100 * a ^ 2 := by
  have a0 : 0 < a := r0.trans_le hr
  have hx' : |x| ≤ a := abs_le_of_sq_le_sq hx a0.le
  have h1 : |X - x| ≤ θ * a := hX.trans (mul_le_mul_of_nonneg_left hr θ0)
  have h2 : |2 * x + (X - x)| ≤ 2 * a + θ * a := by
    refine abs_add_le' ?_ h1
    rw [abs_mul, abs_two]; linarith
  have h3 := (le_abs_self _).trans (abs_mul_le h1 h2)
  have h4 : (X - x) * (2 * x + (X - x)) = X * X - x ^ 2 := by ring
  have h5 : θ * a * (2 * a + θ * a) = 2 * (θ * a ^ 2) + θ * (θ * a ^ 2) := by ring
  have h6 : 0 ≤ θ * a ^ 2 := mul_nonneg θ0 (pow_two_nonneg a)
  have h7 := mul_le_mul_of_nonneg_right θ1 h6
  have h8 := mul_le_mul_of_nonneg_right θ1 (pow_two_nonneg a)
  rw [h4, h5] at h3
  constructor <;> linarith

/-- one summand of the equation of the ellipse -/
theorem ell_term (hF : F.Rounds u η hi) (hs : Scale u η hi L) (hr : Scale u η hi r) {x' a' : XF F} {X x a θ : K} (hx' : x'.Is X)
    (ha' : a'.Is a) (hX : |X - x| ≤ θ * r) (hx : x ^ 2 ≤ a ^ 2) (θ0 : 0 ≤ θ) (θ1 : θ ≤ 1 / 10) (hra : r ≤ a) (haL : a ≤ L) :
    ∃ Q, (x' * x' / (a' * a')).Is Q ∧ 0 ≤ Q ∧ Q ≤ x ^ 2 / a ^ 2 + 21 / 10 * θ + 6 * u := by
  obtain ⟨u0, u1, η0, ηu, ηL, ηLL, ηuLL, ηuL, L0, uL0, uLL0, uL1, uLL1, hi1, hiL, hiLL⟩ := hs.sizes
  have r0 := hr.pos
  have a0 : 0 < a := r0.trans_le hra
  have A0 : 0 < a ^ 2 := by positivity
  have hA1 : a ^ 2 ≤ L ^ 2 := pow_le_pow_left₀ a0.le haL 2
  have hA2 : r ^ 2 ≤ a ^ 2 := pow_le_pow_left₀ r0.le hra 2
  have hη : η ≤ 1 / 2 ^ 20 * (u * a ^ 2) := by
    have h1 := hr.η_le_sq
    have h2 : u ^ 2 * r ^ 2 ≤ u ^ 2 * a ^ 2 := mul_le_mul_of_nonneg_left hA2 (pow_two_nonneg u)
    have h3 : u * (u * a ^ 2) ≤ 1 / 2 ^ 20 * (u * a ^ 2) := mul_le_mul_of_nonneg_right u1 (mul_nonneg u0.le A0.le)
    have h4 : u ^ 2 * a ^ 2 = u * (u * a ^ 2) := by ring
    linarith
  obtain ⟨s1, s2⟩ := off_sq_le hX hx θ0 θ1 r0 hra
  have hXX : |X * X| ≤ 121 / 100 * a ^ 2 := by rw [abs_mul_self]; exact s2
  have hhi : 64 * L ^ 2 ≤ hi := hs.sq_le
  obtain ⟨P, p1, p2, p3⟩ := rnd_mul hF.toGradual u0.le hx' hx' hXX (by linarith)
  have p0 := p3 (mul_self_nonneg X)
  obtain ⟨A, q1, q2, -⟩ := rnd_mul hF.toGradual u0.le ha' ha' (A := a ^ 2) (by rw [abs_mul_self, pow_two]) (by linarith)
  have uA0 : 0 < u * a ^ 2 := mul_pos u0 A0
  have uA1 : u * a ^ 2 ≤ 1 / 2 ^ 20 * a ^ 2 := mul_le_mul_of_nonneg_right u1 A0.le
  have hA3 : a ^ 2 - 101 / 100 * (u * a ^ 2) ≤ A := by
    have h1 := (abs_le.1 q2).1
    have h2 : a * a = a ^ 2 := (pow_two a).symm
    linarith
  have hA : 0 < A := by linarith
  have hP : P ≤ X * X + 122 / 100 * (u * a ^ 2) := by
    have h1 := (abs_le.1 p2).2
    have h2 : u * (121 / 100 * a ^ 2) = 121 / 100 * (u * a ^ 2) := by ring
    linarith
  have hq : P / A ≤ X * X / a ^ 2 + 3 * u := by
    rw [div_le_iff₀ hA]
    have e1 : X * X / a ^ 2 * a ^ 2 = X * X := by field_simp
    have n0 : 0 ≤ X * X / a ^ 2 := div_nonneg (mul_self_nonneg X) A0.le
    have n1 : X * X / a ^ 2 ≤ 121 / 100 := by rw [div_le_iff₀ A0]; exact s2
    have h1 : (X * X / a ^ 2 + 3 * u) * (a ^ 2 - 101 / 100 * (u * a ^ 2)) ≤ (X * X / a ^ 2 + 3 * u) * A :=
      mul_le_mul_of_nonneg_left hA3 (by linarith)
    have h2 : (X * X / a ^ 2 + 3 * u) * (a ^ 2 - 101 / 100 * (u * a ^ 2)) =
        X * X / a ^ 2 * a ^ 2 + 3 * (u * a ^ 2) - 101 / 100 * (X * X / a ^ 2 * (u * a ^ 2)) - 303 / 100 * (u * (u * a ^ 2)) := by ring
    have h3 := mul_le_mul_of_nonneg_right n1 uA0.le
    have h4 := mul_le_mul_of_nonneg_right u1 uA0.le
    rw [h2, e1] at h1
    linarith
  have hq0 : 0 ≤ P / A := div_nonneg p0 hA.le
  have hq1 : X * X / a ^ 2 ≤ x ^ 2 / a ^ 2 + 21 / 10 * θ := by
    rw [div_add' _ _ _ A0.ne', div_le_div_iff_of_pos_right A0]
    linarith
  have hq2 : X * X / a ^ 2 ≤ 121 / 100 := by rw [div_le_iff₀ A0]; exact s2
  obtain ⟨Q, t1, t2, t3⟩ := rnd_div hF.toGradual u0.le p1 q1 hA.ne' (A := 2) (by rw [abs_of_nonneg hq0]; linarith) (by linarith)
  refine ⟨Q, t1, t3 hq0, ?_⟩
  have := (abs_le.1 t2).2
  linarith

/-- well inside of the ellipse, its equation is computed as a negative number -/
theorem ell_neg (hF : F.Rounds u η hi) (hs : Scale u η hi L) (hr : Scale u η hi r) {x' y' a' b' : XF F} {X Y x y a b θ μ : K}
    (hx' : x'.Is X) (hy' : y'.Is Y) (ha' : a'.Is a) (hb' : b'.Is b) (hX : |X - x| ≤ θ * r) (hY : |Y - y| ≤ θ * r)
    (θ0 : 0 ≤ θ) (hμ : 10 * θ ≤ μ) (hμu : 60 * u ≤ μ) (hra : r ≤ a) (haL : a ≤ L) (hrb : r ≤ b) (hbL : b ≤ L)
    (hin : x ^ 2 / a ^ 2 + y ^ 2 / b ^ 2 ≤ 1 - μ) :
    ∃ e, (ellipseEquation a' b' x' y').Is e ∧ e < 0 := by
  obtain ⟨u0, u1, η0, ηu, ηL, ηLL, ηuLL, ηuL, L0, uL0, uLL0, uL1, uLL1, hi1, hiL, hiLL⟩ := hs.sizes
  have a0 : 0 < a := hr.pos.trans_le hra
  have b0 : 0 < b := hr.pos.trans_le hrb
  have A0 : 0 < a ^ 2 := by positivity
  have B0 : 0 < b ^ 2 := by positivity
  have x0 : 0 ≤ x ^ 2 / a ^ 2 := div_nonneg (pow_two_nonneg x) A0.le
  have y0 : 0 ≤ y ^ 2 / b ^ 2 := div_nonneg (pow_two_nonneg y) B0.le
  have hxa : x ^ 2 ≤ a ^ 2 := by
    have h : x ^ 2 / a ^ 2 ≤ 1 := by linarith
    rwa [div_le_one A0] at h
  have hyb : y ^ 2 ≤ b ^ 2 := by
    have h : y ^ 2 / b ^ 2 ≤ 1 := by linarith
    rwa [div_le_one B0] at h
  have θ1 : θ ≤ 1 / 10 := by linarith
  obtain ⟨P, p1, p0, p2⟩ := ell_term hF hs hr hx' ha' hX hxa θ0 θ1 hra haL
  obtain ⟨Q, q1, q0, q2⟩ := ell_term hF hs hr hy' hb' hY hyb θ0 θ1 hrb hbL
  obtain ⟨S, s1, s2, s3⟩ := rnd_add hF.toGradual u0.le p1 q1 (A := 2) (by rw [abs_of_nonneg (by linarith)]; linarith) (by linarith)
  have s0 := s3 (by linarith)
  have s4 := (abs_le.1 s2).2
  have s5 : S ≤ 1 - 19 * u := by linarith
  obtain ⟨e, e1, e2, -⟩ := rnd_sub hF.toGradual u0.le s1 hF.nat1 (A := 1) (abs_le.2 ⟨by linarith, by linarith⟩) (by linarith)
  refine ⟨e, e1, ?_⟩
  have := (abs_le.1 e2).2
  linarith

/-- the distances from the two caps, and on which side of them the point is -/
theorem cap_dists (hF : F.Rounds u η hi) (hs : Scale u η hi L) {z' h' : XF F} {Z z h M : K} (hz' : z'.Is Z) (hh' : h'.Is h)
    (hZ : |Z - z| ≤ M) (hZ' : |Z| ≤ 101 / 100 * L) (hh : |h| ≤ L) :
    (∃ H, (h' / nat 2).Is H ∧ |H - h / 2| ≤ u * L) ∧ (∃ H, (-h' / nat 2).Is H ∧ |H - -(h / 2)| ≤ u * L) ∧
    (∃ d, (abs (z' - h' / nat 2)).Is d ∧ |d - (|z - h / 2|)| ≤ M + 3 * (u * L)) ∧
    ∃ d, (abs (z' + h' / nat 2)).Is d ∧ |d - (|z + h / 2|)| ≤ M + 3 * (u * L) := by
  obtain ⟨u0, u1, η0, ηu, ηL, ηLL, ηuLL, ηuL, L0, uL0, uLL0, uL1, uLL1, hi1, hiL, hiLL⟩ := hs.sizes
  have h2 : |h / 2| ≤ L / 2 := by rw [abs_div, abs_two]; linarith
  obtain ⟨H, a1, a2, -⟩ := rnd_div hF.toGradual u0.le hh' hF.nat2 two_ne_zero h2 (by linarith)
  have h2' : |-h / 2| ≤ L / 2 := by rw [neg_div, abs_neg]; exact h2
  obtain ⟨H', b1, b2, -⟩ := rnd_div hF.toGradual u0.le hh'.neg hF.nat2 two_ne_zero h2' (by linarith)
  have hH' := abs_le_of_near a2 h2
  obtain ⟨d, c1, c2, -⟩ := rnd_sub hF.toGradual u0.le hz' a1 (A := 16 / 10 * L) ((abs_sub_le' hZ' hH').trans (by linarith)) (by linarith)
  obtain ⟨e, e1, e2, -⟩ := rnd_add hF.toGradual u0.le hz' a1 (A := 16 / 10 * L) ((abs_add_le' hZ' hH').trans (by linarith)) (by linarith)
  refine ⟨⟨H, a1, by linarith⟩, ⟨H', b1, ?_⟩, ⟨_, c1.abs, ?_⟩, _, e1.abs, ?_⟩
  · rw [← neg_div]; linarith
  · refine (abs_abs_sub_abs_le _ _).trans ?_
    have h3 : |(Z - H) - (z - h / 2)| ≤ M + (u * (L / 2) + η) := by
      rw [show (Z - H) - (z - h / 2) = (Z - z) - (H - h / 2) by ring]
      exact abs_sub_le' hZ a2
    have := abs_near_trans c2 h3
    linarith
  · refine (abs_abs_sub_abs_le _ _).trans ?_
    have h3 : |(Z + H) - (z + h / 2)| ≤ M + (u * (L / 2) + η) := by
      rw [show (Z + H) - (z + h / 2) = (Z - z) + (H - h / 2) by ring]
      exact abs_add_le' hZ a2
    have := abs_near_trans e2 h3
    linarith

/-- the nearer cap -/
theorem min_cap {z h d e E : K} (hh : 0 ≤ h) (hz : h / 2 ≤ |z|) (hd : |d - (|z - h / 2|)| ≤ E) (he : |e - (|z + h / 2|)| ≤ E) :
    |Min.min d e - (|z| - h / 2)| ≤ E := by
  have h1 : |z| - h / 2 = Min.min |z - h / 2| |z + h / 2| := by
    rcases le_abs.1 hz with k | k
    · rw [abs_of_nonneg (by linarith : 0 ≤ z), abs_of_nonneg (by linarith : 0 ≤ z - h / 2),
        abs_of_nonneg (by linarith : 0 ≤ z + h / 2), min_eq_left (by linarith)]
    · rw [abs_of_nonpos (by linarith : z ≤ 0), abs_of_nonpos (by linarith : z - h / 2 ≤ 0),
        abs_of_nonpos (by linarith : z + h / 2 ≤ 0), min_eq_right (by linarith)]
      ring
  rw [h1]
  exact (abs_min_sub_min_le_max _ _ _ _).trans (max_le hd he)

end
end Blazert
