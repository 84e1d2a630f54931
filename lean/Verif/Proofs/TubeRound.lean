/- Rounding errors in the equation of the elliptic tube. -/
import Verif.Proofs.PlaneRound
import Verif.Spec.CylRound
import Verif.Model.Cylinder

set_option autoImplicit false
set_option linter.unusedSectionVars false

namespace Blazert
open Scalar

section
variable {K : Type} [Field K] [LinearOrder K] [IsStrictOrderedRing K] [FloorRing K] {F : Fmt K} {u η hi L : K}

/-! ### products -/

/-- one more factor -/
theorem mul_step (hF : F.Gradual u η hi) (u0 : 0 ≤ u) (u1 : u ≤ 1 / 2 ^ 20) {x y : XF F} {v s m e E M S : K} (hx : x.Is v) (hy : y.Is s)
    (h : |v - m| ≤ e * (u * |m|) + E) (he : e ≤ 5) (e0 : 0 ≤ e) (hm : |m| ≤ M) (E0 : 0 ≤ E) (hE : E ≤ M) (hs : |s| ≤ S) (hi' : 3 * M * S ≤ hi) :
    ∃ r, (x * y).Is r ∧ |r - m * s| ≤ (e + 1001 / 1000) * (u * |m * s|) + (1001 / 1000 * (E * |s|) + η) ∧
      (0 ≤ v * s → 0 ≤ r) := by
  have m0 := abs_nonneg m
  have s0 := abs_nonneg s
  have um0 : 0 ≤ u * |m| := mul_nonneg u0 m0
  have um1 : u * |m| ≤ 1 / 2 ^ 20 * |m| := mul_le_mul_of_nonneg_right u1 m0
  have eum : e * (u * |m|) ≤ 5 * (u * |m|) := mul_le_mul_of_nonneg_right he um0
  have hv := abs_le_of_near h hm
  have hv2 : |v| ≤ 3 * M := by linarith
  have hvs : |v * s| ≤ 3 * M * S := abs_mul_le hv2 hs
  obtain ⟨r, r1, r2, r3⟩ := rnd_mul hF u0 hx hy (le_refl |v * s|) (hvs.trans hi')
  refine ⟨r, r1, ?_, r3⟩
  have h1 : |v * s - m * s| ≤ (e * (u * |m|) + E) * |s| := by
    rw [← sub_mul, abs_mul]
    exact mul_le_mul_of_nonneg_right h s0
  have eE0 : 0 ≤ e * (u * |m|) + E := (abs_nonneg _).trans h
  have h2 : |v * s| ≤ |m * s| + (e * (u * |m|) + E) * |s| := abs_le_of_near h1 le_rfl
  have h3 : u * |v * s| ≤ u * |m * s| + u * ((e * (u * |m|) + E) * |s|) := by
    have := mul_le_mul_of_nonneg_left h2 u0
    rw [mul_add] at this; exact this
  have hms : u * |m * s| = u * |m| * |s| := by rw [abs_mul]; ring
  have h4 : u * ((e * (u * |m|) + E) * |s|) ≤ 1 / 1000 * (u * |m * s|) + 1 / 1000 * (E * |s|) := by
    have k1 : u * ((e * (u * |m|) + E) * |s|) ≤ 1 / 2 ^ 20 * ((e * (u * |m|) + E) * |s|) :=
      mul_le_mul_of_nonneg_right u1 (mul_nonneg eE0 s0)
    have k2 : (e * (u * |m|) + E) * |s| = e * (u * |m| * |s|) + E * |s| := by ring
    have k3 : e * (u * |m| * |s|) ≤ 5 * (u * |m| * |s|) := mul_le_mul_of_nonneg_right he (mul_nonneg um0 s0)
    have k4 : 0 ≤ u * |m| * |s| := mul_nonneg um0 s0
    have k5 := mul_nonneg E0 s0
    rw [k2] at k1
    rw [hms]
    linarith
  have h5 := abs_near_trans r2 h1
  refine h5.trans ?_
  have e1 : (e * (u * |m|) + E) * |s| = e * (u * |m * s|) + E * |s| := by rw [hms]; ring
  rw [e1]
  linarith

/-- the magnitudes, with `Q` for all lengths -/
structure TubeSizes (u η hi Q : K) : Prop where
  u0 : 0 < u
  u1 : u ≤ 1 / 2 ^ 20
  η0 : 0 ≤ η
  Q1 : 1 ≤ Q
  ηθ : η ≤ η * Q ^ 2
  ηQ : η * Q ≤ η * Q ^ 2
  θ0 : 0 ≤ η * Q ^ 2
  QQ : Q ≤ Q ^ 2
  Q2 : 1 ≤ Q ^ 2
  Q3 : Q ^ 2 ≤ Q ^ 3
  hi2 : 2 ^ 10 * Q ^ 2 ≤ hi
  hi3 : 2 ^ 10 * Q ^ 3 ≤ hi
  hi4 : 2 ^ 10 * Q ^ 4 ≤ hi
  θu : 2 ^ 12 * (η * Q ^ 2) ≤ u

theorem TubeScale.tube {ν μ : K} (h : TubeScale u η hi L ν μ) : TubeSizes u η hi (1 + L) := by
  obtain ⟨u0, u1, η0, ηu, ηL, ηLL, ηuLL, ηuL, L0, uL0, uLL0, uL1, uLL1, hi1, hiL, hiLL⟩ := h.toScale.sizes
  have Q1 : 1 ≤ 1 + L := by linarith
  have hQ : 1 + L ≤ (1 + L) ^ 2 := by rw [pow_two]; exact le_mul_of_one_le_left (by linarith) Q1
  have hQ2 : 1 ≤ (1 + L) ^ 2 := Q1.trans hQ
  have h23 : (1 + L) ^ 2 ≤ (1 + L) ^ 3 := by
    rw [pow_succ (1 + L) 2]; exact le_mul_of_one_le_right (by positivity) Q1
  have h34 : (1 + L) ^ 3 ≤ (1 + L) ^ 4 := by
    rw [pow_succ (1 + L) 3]; exact le_mul_of_one_le_right (by positivity) Q1
  have hhi : 0 ≤ hi := by linarith
  have h4 : 2 ^ 10 * (1 + L) ^ 4 ≤ hi := h.quartic.trans (mul_le_of_le_one_right hhi (pow_le_one₀ h.μ_pos.le h.μ_le))
  have hw : (μ * ν) ^ 3 ≤ 1 := pow_le_one₀ (mul_nonneg h.μ_pos.le h.ν_pos.le) (mul_le_one₀ h.μ_le h.ν_pos.le h.ν_le)
  exact ⟨u0, u1, η0, Q1, le_mul_of_one_le_right η0 hQ2, mul_le_mul_of_nonneg_left hQ η0, by positivity, hQ, hQ2, h23, by linarith,
    by linarith, h4, h.lost.trans (mul_le_of_le_one_right u0.le hw)⟩

variable {Q : K}

/-- two more factors -/
theorem mono_tail (hF : F.Gradual u η hi) (hs : TubeSizes u η hi Q) {x y z : XF F} {v r s m e : K} (hx : x.Is v)
    (hy : y.Is r) (hz : z.Is s) (h : |v - m| ≤ e * (u * |m|) + 3 * η) (he : e ≤ 3) (e0 : 0 ≤ e) (hm : |m| ≤ 3 * Q ^ 2)
    (hr : |r| ≤ 101 / 100 * Q) (hs' : |s| ≤ 101 / 100 * Q) :
    ∃ t, (x * y * z).Is t ∧ |t - m * r * s| ≤ (e + 2002 / 1000) * (u * |m * r * s|) + 6 * (η * Q ^ 2) := by
  obtain ⟨u0, u1, η0, Q1, ηθ, ηQ, θ0, QQ, Q2, Q3, hi2, hi3, hi4, θu⟩ := hs
  have hη : 3 * η ≤ 3 * Q ^ 2 := by linarith
  have Q30 : 0 ≤ Q ^ 3 := by linarith
  have Q40 : 0 ≤ Q ^ 4 := by positivity
  obtain ⟨p, p1, p2, -⟩ := mul_step hF u0.le u1 hx hy h (by linarith) e0 hm (by linarith) hη hr (by
    rw [show 3 * (3 * Q ^ 2) * (101 / 100 * Q) = 909 / 100 * Q ^ 3 by ring]; linarith)
  have h1 : η * |r| ≤ η * (101 / 100 * Q) := mul_le_mul_of_nonneg_left hr η0
  have h2 : |m * r| ≤ 303 / 100 * Q ^ 3 := (abs_mul_le hm hr).trans_eq (by ring)
  have ηQ0 : 0 ≤ η * Q := mul_nonneg η0 (by linarith)
  have hE : 1001 / 1000 * (3 * η * |r|) + η ≤ 304 / 100 * (η * Q) + η := by linarith
  have hE0 : 0 ≤ 304 / 100 * (η * Q) + η := by positivity
  obtain ⟨t, t1, t2, -⟩ := mul_step hF u0.le u1 p1 hz (p2.trans (add_le_add_right hE _)) (by linarith) (by linarith) h2 hE0
    (by linarith) hs' (by
    rw [show 3 * (303 / 100 * Q ^ 3) * (101 / 100 * Q) = 91809 / 10000 * Q ^ 4 by ring]; linarith)
  refine ⟨t, t1, t2.trans ?_⟩
  have h3 : (304 / 100 * (η * Q) + η) * |s| ≤ (304 / 100 * (η * Q) + η) * (101 / 100 * Q) := mul_le_mul_of_nonneg_left hs' hE0
  have e1 : (304 / 100 * (η * Q) + η) * (101 / 100 * Q) = 30704 / 10000 * (η * Q ^ 2) + 101 / 100 * (η * Q) := by ring
  rw [e1] at h3
  rw [show e + 1001 / 1000 + 1001 / 1000 = e + 2002 / 1000 by ring]
  linarith

/-- a product of four numbers -/
theorem mono4 (hF : F.Gradual u η hi) (hs : TubeSizes u η hi Q) {x y z t : XF F} {a b c d : K} (hx : x.Is a) (hy : y.Is b)
    (hz : z.Is c) (ht : t.Is d) (ha : |a| ≤ 101 / 100 * Q) (hb : |b| ≤ 101 / 100 * Q) (hc : |c| ≤ 101 / 100 * Q)
    (hd : |d| ≤ 101 / 100 * Q) :
    ∃ r, (x * y * z * t).Is r ∧ |r - a * b * c * d| ≤ 31 / 10 * (u * |a * b * c * d|) + 6 * (η * Q ^ 2) := by
  have hs' := hs
  obtain ⟨u0, u1, η0, Q1, ηθ, ηQ, θ0, QQ, Q2, Q3, hi2, hi3, hi4, θu⟩ := hs
  have h1 : |a * b| ≤ 102 / 100 * Q ^ 2 * 1 + 1 / 100 * Q ^ 2 := (abs_mul_le ha hb).trans (by
    rw [show 101 / 100 * Q * (101 / 100 * Q) = 10201 / 10000 * Q ^ 2 by ring]; linarith)
  obtain ⟨p, p1, p2, -⟩ := rnd_mul hF u0.le hx hy (le_refl |a * b|) (by linarith)
  obtain ⟨r, r1, r2⟩ := mono_tail hF hs' p1 hz ht (m := a * b) (e := 1) (by rw [one_mul]; linarith) (by norm_num) (by norm_num) (by linarith) hc hd
  refine ⟨r, r1, r2.trans ?_⟩
  have := mul_nonneg u0.le (abs_nonneg (a * b * c * d))
  linarith

/-- twice a product of four numbers, two of which are at most one -/
theorem mono5 (hF : F.Rounds u η hi) (hs : TubeSizes u η hi Q) {x y z t : XF F} {a b c d : K} (hx : x.Is a) (hy : y.Is b)
    (hz : z.Is c) (ht : t.Is d) (ha : |a| ≤ 101 / 100) (hb : |b| ≤ 101 / 100) (hc : |c| ≤ 101 / 100 * Q)
    (hd : |d| ≤ 101 / 100 * Q) :
    ∃ r, (nat 2 * x * y * z * t).Is r ∧ |r - 2 * a * b * c * d| ≤ 41 / 10 * (u * |2 * a * b * c * d|) + 6 * (η * Q ^ 2) := by
  have hs' := hs
  obtain ⟨u0, u1, η0, Q1, ηθ, ηQ, θ0, QQ, Q2, Q3, hi2, hi3, hi4, θu⟩ := hs
  have h1 : |2 * a| ≤ 202 / 100 := by rw [abs_mul, abs_two]; linarith
  have h2 : |2 * a * b| ≤ 205 / 100 := (abs_mul_le h1 hb).trans (by norm_num)
  obtain ⟨p, p1, p2, -⟩ := rnd_mul hF.toGradual u0.le hF.nat2 hx (le_refl |2 * a|) (by linarith)
  obtain ⟨q, q1, q2, -⟩ := mul_step hF.toGradual u0.le u1 p1 hy (m := 2 * a) (e := 1) (E := η) (by rw [one_mul]; exact p2) (by norm_num) (by norm_num) h1 η0
    (by linarith) hb (by linarith)
  have h3 := mul_le_mul_of_nonneg_left hb η0
  obtain ⟨r, r1, r2⟩ := mono_tail hF.toGradual hs' q1 hz ht (m := 2 * a * b) (e := 2001 / 1000) (q2.trans (by
    rw [show (1 : K) + 1001 / 1000 = 2001 / 1000 by norm_num]; linarith)) (by norm_num) (by norm_num) (by linarith) hc hd
  refine ⟨r, r1, r2.trans ?_⟩
  have := mul_nonneg u0.le (abs_nonneg (2 * a * b * c * d))
  linarith

/-- the sum of two products -/
theorem quad_sum (hF : F.Gradual u η hi) (hs : TubeSizes u η hi Q) {x y : XF F} {m n m' n' : K} (hx : x.Is m') (hy : y.Is n')
    (hm : |m' - m| ≤ 31 / 10 * (u * |m|) + 6 * (η * Q ^ 2)) (hn : |n' - n| ≤ 31 / 10 * (u * |n|) + 6 * (η * Q ^ 2))
    (hb : |m| + |n| ≤ 8 * Q ^ 4) :
    ∃ r, (x + y).Is r ∧ |r - (m + n)| ≤ 42 / 10 * (u * (|m| + |n|)) + 14 * (η * Q ^ 2) := by
  obtain ⟨u0, u1, η0, Q1, ηθ, ηQ, θ0, QQ, Q2, Q3, hi2, hi3, hi4, θu⟩ := hs
  have m0 := abs_nonneg m
  have n0 := abs_nonneg n
  have um : u * |m| ≤ 1 / 2 ^ 20 * |m| := mul_le_mul_of_nonneg_right u1 m0
  have un : u * |n| ≤ 1 / 2 ^ 20 * |n| := mul_le_mul_of_nonneg_right u1 n0
  have um0 := mul_nonneg u0.le m0
  have un0 := mul_nonneg u0.le n0
  have h1 := abs_le_of_near hm le_rfl
  have h2 := abs_le_of_near hn le_rfl
  have h3 : |m' + n'| ≤ 1001 / 1000 * (|m| + |n|) + 12 * (η * Q ^ 2) := (abs_add_le' h1 h2).trans (by linarith)
  have hθ : η * Q ^ 2 ≤ 1 := by linarith
  obtain ⟨r, r1, r2, -⟩ := rnd_add hF u0.le hx hy h3 (by linarith)
  refine ⟨r, r1, ?_⟩
  have h4 : |m' + n' - (m + n)| ≤ (31 / 10 * (u * |m|) + 6 * (η * Q ^ 2)) + (31 / 10 * (u * |n|) + 6 * (η * Q ^ 2)) := by
    rw [show m' + n' - (m + n) = (m' - m) + (n' - n) by ring]
    exact abs_add_le' hm hn
  refine (abs_near_trans r2 h4).trans ?_
  have h5 : u * (η * Q ^ 2) ≤ 1 / 2 ^ 20 * (η * Q ^ 2) := mul_le_mul_of_nonneg_right u1 θ0
  linarith

/-! ### the coefficients -/

def tubeA (a b j k : K) : K := a ^ 2 * k ^ 2 + b ^ 2 * j ^ 2
def tubeB (a b x y j k : K) : K := a ^ 2 * k * y + b ^ 2 * j * x
def tubeC (a b x y j k : K) : K := tubeA a b j k - j ^ 2 * y ^ 2 + 2 * j * k * x * y - k ^ 2 * x ^ 2
/-- the size of `B` before cancellation -/
def tubeP (a b x y j k : K) : K := a ^ 2 * |k * y| + b ^ 2 * |j * x|
/-- the size of `C` before cancellation -/
def tubeV (a b x y j k : K) : K := tubeA a b j k + (|j * y| + |k * x|) ^ 2
/-- the size of the equation before cancellation -/
def tubeH (a b x y : K) : K := a ^ 2 * b ^ 2 + b ^ 2 * x ^ 2 + a ^ 2 * y ^ 2

/-- the sizes of what the coefficients are computed from -/
structure TubeIn (Q a b x y j k : K) : Prop where
  a0 : 0 < a
  b0 : 0 < b
  aQ : a ≤ Q
  bQ : b ≤ Q
  xQ : |x| ≤ 101 / 100 * Q
  yQ : |y| ≤ 101 / 100 * Q
  j1 : |j| ≤ 101 / 100
  k1 : |k| ≤ 101 / 100

theorem sq_le_sq_of_abs {x A : K} (h : |x| ≤ A) : x ^ 2 ≤ A ^ 2 := by
  rw [← sq_abs]
  exact pow_le_pow_left₀ (abs_nonneg x) h 2

theorem TubeIn.A_le {a b x y j k : K} (h : TubeIn Q a b x y j k) : tubeA a b j k ≤ 21 / 10 * Q ^ 2 := by
  have ha : a ^ 2 ≤ Q ^ 2 := pow_le_pow_left₀ h.a0.le h.aQ 2
  have hb : b ^ 2 ≤ Q ^ 2 := pow_le_pow_left₀ h.b0.le h.bQ 2
  have hj := sq_le_sq_of_abs h.j1
  have hk := sq_le_sq_of_abs h.k1
  have h1 := mul_le_mul ha hk (pow_two_nonneg k) (pow_two_nonneg Q)
  have h2 := mul_le_mul hb hj (pow_two_nonneg j) (pow_two_nonneg Q)
  have := pow_two_nonneg Q
  unfold tubeA
  linarith

theorem TubeIn.A_nonneg {a b x y j k : K} (_ : TubeIn Q a b x y j k) : 0 ≤ tubeA a b j k := by
  unfold tubeA; positivity

theorem TubeIn.V_le {a b x y j k : K} (h : TubeIn Q a b x y j k) : tubeV a b x y j k ≤ 7 * Q ^ 2 := by
  have h1 := abs_mul_le h.j1 h.yQ
  have h2 := abs_mul_le h.k1 h.xQ
  have h3 : (|j * y| + |k * x|) ^ 2 ≤ (101 / 100 * (101 / 100 * Q) + 101 / 100 * (101 / 100 * Q)) ^ 2 :=
    pow_le_pow_left₀ (by positivity) (add_le_add h1 h2) 2
  have h4 := h.A_le
  have e : (101 / 100 * (101 / 100 * Q) + 101 / 100 * (101 / 100 * Q)) ^ 2 = 416241604 / 10 ^ 8 * Q ^ 2 := by ring
  rw [e] at h3
  have := pow_two_nonneg Q
  unfold tubeV
  linarith

/-- `A - n + m - q`, from left to right -/
theorem chain_sum (hF : F.Gradual u η hi) (hs : TubeSizes u η hi Q) {x y z t : XF F} {A A' N1 n1 N2 n2 N3 n3 α β V : K}
    (A1 : x.Is A') (n1i : y.Is n1) (n2i : z.Is n2) (n3i : t.Is n3) (hA0 : 0 ≤ A) (hα : 0 ≤ α) (hβ : 0 ≤ β)
    (hVeq : V = A + α ^ 2 + 2 * α * β + β ^ 2) (hV : V ≤ 7 * Q ^ 2)
    (A2 : |A' - A| ≤ 42 / 10 * (u * A) + 14 * (η * Q ^ 2)) (eC1 : |N1| = α ^ 2) (eC2 : |N2| = 2 * α * β) (eC3 : |N3| = β ^ 2)
    (n1e : |n1 - N1| ≤ 31 / 10 * (u * α ^ 2) + 6 * (η * Q ^ 2)) (n2e : |n2 - N2| ≤ 41 / 10 * (u * (2 * α * β)) + 6 * (η * Q ^ 2))
    (n3e : |n3 - N3| ≤ 31 / 10 * (u * β ^ 2) + 6 * (η * Q ^ 2)) :
    ∃ C', (x - y + z - t).Is C' ∧ |C' - (A - N1 + N2 - N3)| ≤ 8 * (u * V) + 40 * (η * Q ^ 2) := by
  obtain ⟨u0, u1, η0, Q1, ηθ, ηQ, θ0, QQ, Q2, Q3, hi2, hi3, hi4, θu⟩ := hs
  have α0 : 0 ≤ α ^ 2 := pow_two_nonneg _
  have β0 : 0 ≤ β ^ 2 := pow_two_nonneg _
  have αβ0 : 0 ≤ 2 * α * β := by positivity
  have uA0 := mul_nonneg u0.le hA0
  have uα0 := mul_nonneg u0.le α0
  have uβ0 := mul_nonneg u0.le β0
  have uαβ0 := mul_nonneg u0.le αβ0
  have uV : u * V = u * A + u * α ^ 2 + u * (2 * α * β) + u * β ^ 2 := by rw [hVeq]; ring
  have V0 : 0 ≤ V := by linarith
  have uV0 := mul_nonneg u0.le V0
  have uV1 : u * V ≤ 1 / 2 ^ 20 * V := mul_le_mul_of_nonneg_right u1 V0
  have uθ : u * (η * Q ^ 2) ≤ 1 / 2 ^ 20 * (η * Q ^ 2) := mul_le_mul_of_nonneg_right u1 θ0
  have hθ1 : η * Q ^ 2 ≤ 1 := by linarith
  have kA := abs_le_of_near A2 (le_of_eq (abs_of_nonneg hA0))
  have kn1 := abs_le_of_near n1e (le_of_eq eC1)
  have kn2 := abs_le_of_near n2e (le_of_eq eC2)
  have kn3 := abs_le_of_near n3e (le_of_eq eC3)
  have uuV : u * (101 / 100 * V) = 101 / 100 * (u * V) := by ring
  have step : ∀ c : K, 0 ≤ c → c ≤ 60 → u * (101 / 100 * V + c * (η * Q ^ 2)) + η ≤ 101 / 100 * (u * V) + 2 * (η * Q ^ 2) := by
    intro c c0 c1
    have h1 : c * (u * (η * Q ^ 2)) ≤ 60 * (u * (η * Q ^ 2)) := mul_le_mul_of_nonneg_right c1 (mul_nonneg u0.le θ0)
    have e : u * (101 / 100 * V + c * (η * Q ^ 2)) = 101 / 100 * (u * V) + c * (u * (η * Q ^ 2)) := by ring
    rw [e]
    linarith
  obtain ⟨s1, s1i, s1e, -⟩ := rnd_sub hF u0.le A1 n1i (A := 101 / 100 * V + 20 * (η * Q ^ 2))
    ((abs_sub_le' kA kn1).trans (by linarith)) (by linarith)
  have s1f : |s1 - (A - N1)| ≤ 42 / 10 * (u * A) + 31 / 10 * (u * α ^ 2) + 101 / 100 * (u * V) + 22 * (η * Q ^ 2) := by
    have e : A' - n1 - (A - N1) = (A' - A) - (n1 - N1) := by ring
    have h1 := abs_sub_le' A2 n1e
    rw [← e] at h1
    refine (abs_near_trans s1e h1).trans ?_
    have := step 20 (by norm_num) (by norm_num)
    linarith
  have ks1 : |s1| ≤ A + α ^ 2 + (42 / 10 * (u * A) + 31 / 10 * (u * α ^ 2) + 101 / 100 * (u * V) + 22 * (η * Q ^ 2)) := by
    refine abs_le_of_near s1f ?_
    exact (abs_sub_le' (le_of_eq (abs_of_nonneg hA0)) (le_of_eq eC1))
  obtain ⟨s2, s2i, s2e, -⟩ := rnd_add hF u0.le s1i n2i (A := 101 / 100 * V + 28 * (η * Q ^ 2))
    ((abs_add_le' ks1 kn2).trans (by linarith)) (by linarith)
  have s2f : |s2 - (A - N1 + N2)| ≤
      42 / 10 * (u * A) + 31 / 10 * (u * α ^ 2) + 41 / 10 * (u * (2 * α * β)) + 202 / 100 * (u * V) + 30 * (η * Q ^ 2) := by
    have e : s1 + n2 - (A - N1 + N2) =
      (s1 - (A - N1)) + (n2 - N2) := by ring
    have h1 := abs_add_le' s1f n2e
    rw [← e] at h1
    refine (abs_near_trans s2e h1).trans ?_
    have := step 28 (by norm_num) (by norm_num)
    linarith
  have ks2 : |s2| ≤ A + α ^ 2 + 2 * α * β + (42 / 10 * (u * A) + 31 / 10 * (u * α ^ 2) + 41 / 10 * (u * (2 * α * β)) +
      202 / 100 * (u * V) + 30 * (η * Q ^ 2)) := by
    refine abs_le_of_near s2f ?_
    exact (abs_add_le' (abs_sub_le' (le_of_eq (abs_of_nonneg hA0)) (le_of_eq eC1)) (le_of_eq eC2))
  obtain ⟨C', C1, C2, -⟩ := rnd_sub hF u0.le s2i n3i (A := 101 / 100 * V + 36 * (η * Q ^ 2))
    ((abs_sub_le' ks2 kn3).trans (by linarith)) (by linarith)
  refine ⟨C', C1, ?_⟩
  have e : s2 - n3 - (A - N1 + N2 - N3) = (s2 - (A - N1 + N2)) - (n3 - N3) := by ring
  have h1 := abs_sub_le' s2f n3e
  rw [← e] at h1
  refine (abs_near_trans C2 h1).trans ?_
  have := step 36 (by norm_num) (by norm_num)
  linarith

theorem cyl_coeffs (hF : F.Rounds u η hi) (hs : TubeSizes u η hi Q) {a' b' : XF F} {org dir : Vec3 (XF F)} {a b : K} {p d : Vec3 K}
    (ha : a'.Is a) (hb : b'.Is b) (ho : IsV org p) (hd : IsV dir d) (h : TubeIn Q a b p.x p.y d.x d.y) :
    ∃ A' B' C', (cylABC a' b' org dir).1.Is A' ∧ (cylABC a' b' org dir).2.1.Is B' ∧ (cylABC a' b' org dir).2.2.Is C' ∧
      |A' - tubeA a b d.x d.y| ≤ 42 / 10 * (u * tubeA a b d.x d.y) + 14 * (η * Q ^ 2) ∧
      |B' - tubeB a b p.x p.y d.x d.y| ≤ 42 / 10 * (u * tubeP a b p.x p.y d.x d.y) + 14 * (η * Q ^ 2) ∧
      |C' - tubeC a b p.x p.y d.x d.y| ≤ 8 * (u * tubeV a b p.x p.y d.x d.y) + 40 * (η * Q ^ 2) := by
  have hs' := hs
  have hA := h.A_le
  have hA0 := h.A_nonneg
  have hV := h.V_le
  obtain ⟨a0, b0, aQ, bQ, xQ, yQ, j1, k1⟩ := h
  obtain ⟨u0, u1, η0, Q1, ηθ, ηQ, θ0, QQ, Q2, Q3, hi2, hi3, hi4, θu⟩ := hs
  have aQ' : |a| ≤ 101 / 100 * Q := by rw [abs_of_pos a0]; linarith
  have bQ' : |b| ≤ 101 / 100 * Q := by rw [abs_of_pos b0]; linarith
  have jQ : |d.x| ≤ 101 / 100 * Q := by linarith
  have kQ : |d.y| ≤ 101 / 100 * Q := by linarith
  have hQ40 : 0 ≤ Q ^ 4 := by positivity
  have big : ∀ {p q r s : K}, |p| ≤ 101 / 100 * Q → |q| ≤ 101 / 100 * Q → |r| ≤ 101 / 100 * Q → |s| ≤ 101 / 100 * Q →
      |p * q * r * s| ≤ 2 * Q ^ 4 := by
    intro p q r s hp hq hr hs
    refine (abs_mul_le (abs_mul_le (abs_mul_le hp hq) hr) hs).trans ?_
    rw [show 101 / 100 * Q * (101 / 100 * Q) * (101 / 100 * Q) * (101 / 100 * Q) = 104060401 / 10 ^ 8 * Q ^ 4 by ring]
    linarith
  -- A
  obtain ⟨m1, m1i, m1e⟩ := mono4 hF.toGradual hs' ha ha hd.2.1 hd.2.1 aQ' aQ' kQ kQ
  obtain ⟨m2, m2i, m2e⟩ := mono4 hF.toGradual hs' hb hb hd.1 hd.1 bQ' bQ' jQ jQ
  obtain ⟨A', A1, A2⟩ := quad_sum hF.toGradual hs' m1i m2i m1e m2e (by
    have := big aQ' aQ' kQ kQ; have := big bQ' bQ' jQ jQ; linarith)
  have eA1 : a * a * d.y * d.y = a ^ 2 * d.y ^ 2 := by ring
  have eA2 : b * b * d.x * d.x = b ^ 2 * d.x ^ 2 := by ring
  rw [eA1, eA2, abs_of_nonneg (by positivity : 0 ≤ a ^ 2 * d.y ^ 2), abs_of_nonneg (by positivity : 0 ≤ b ^ 2 * d.x ^ 2)] at A2
  replace A2 : |A' - tubeA a b d.x d.y| ≤ 42 / 10 * (u * tubeA a b d.x d.y) + 14 * (η * Q ^ 2) := A2
  -- B
  obtain ⟨m3, m3i, m3e⟩ := mono4 hF.toGradual hs' ha ha hd.2.1 ho.2.1 aQ' aQ' kQ yQ
  obtain ⟨m4, m4i, m4e⟩ := mono4 hF.toGradual hs' hb hb hd.1 ho.1 bQ' bQ' jQ xQ
  obtain ⟨B', B1, B2⟩ := quad_sum hF.toGradual hs' m3i m4i m3e m4e (by
    have := big aQ' aQ' kQ yQ; have := big bQ' bQ' jQ xQ; linarith)
  have eB1 : |a * a * d.y * p.y| = a ^ 2 * |d.y * p.y| := by
    rw [show a * a * d.y * p.y = a ^ 2 * (d.y * p.y) by ring, abs_mul, abs_of_nonneg (pow_two_nonneg a)]
  have eB2 : |b * b * d.x * p.x| = b ^ 2 * |d.x * p.x| := by
    rw [show b * b * d.x * p.x = b ^ 2 * (d.x * p.x) by ring, abs_mul, abs_of_nonneg (pow_two_nonneg b)]
  have eB3 : a * a * d.y * p.y + b * b * d.x * p.x = tubeB a b p.x p.y d.x d.y := by unfold tubeB; ring
  rw [eB1, eB2, eB3] at B2
  -- C
  obtain ⟨n1, n1i, n1e⟩ := mono4 hF.toGradual hs' hd.1 hd.1 ho.2.1 ho.2.1 jQ jQ yQ yQ
  obtain ⟨n2, n2i, n2e⟩ := mono5 hF hs' hd.1 hd.2.1 ho.1 ho.2.1 j1 k1 xQ yQ
  obtain ⟨n3, n3i, n3e⟩ := mono4 hF.toGradual hs' hd.2.1 hd.2.1 ho.1 ho.1 kQ kQ xQ xQ
  have eC1 : |d.x * d.x * p.y * p.y| = |d.x * p.y| ^ 2 := by
    rw [show d.x * d.x * p.y * p.y = (d.x * p.y) ^ 2 by ring, abs_of_nonneg (pow_two_nonneg _), sq_abs]
  have eC3 : |d.y * d.y * p.x * p.x| = |d.y * p.x| ^ 2 := by
    rw [show d.y * d.y * p.x * p.x = (d.y * p.x) ^ 2 by ring, abs_of_nonneg (pow_two_nonneg _), sq_abs]
  have eC2 : |2 * d.x * d.y * p.x * p.y| = 2 * |d.x * p.y| * |d.y * p.x| := by
    rw [show 2 * d.x * d.y * p.x * p.y = 2 * (d.x * p.y) * (d.y * p.x) by ring, abs_mul, abs_mul, abs_two]
  rw [eC1] at n1e
  rw [eC2] at n2e
  rw [eC3] at n3e
  obtain ⟨C', C1, C2⟩ := chain_sum hF.toGradual hs' A1 n1i n2i n3i hA0 (abs_nonneg _) (abs_nonneg _) (V := tubeV a b p.x p.y d.x d.y)
    (by unfold tubeV; ring) hV A2 eC1 eC2 eC3 n1e n2e n3e
  refine ⟨A', B', C', A1, B1, C1, A2, B2, ?_⟩
  have eC : tubeC a b p.x p.y d.x d.y = tubeA a b d.x d.y - d.x * d.x * p.y * p.y + 2 * d.x * d.y * p.x * p.y -
      d.y * d.y * p.x * p.x := by
    unfold tubeC; ring
  rw [eC]
  exact C2

end
end Blazert
