/- The barycentric coordinates that the triangle test records, with rounding. -/
import Verif.Proofs.TriRound

set_option autoImplicit false
set_option linter.unusedSectionVars false

namespace Blazert
open Scalar

variable {K : Type} [Field K] [LinearOrder K] [IsStrictOrderedRing K] [FloorRing K] {F : Fmt K} {u η hi lo lo' L : K}

/-- The quotient `t / D` for numbers of the size of areas and any sign. -/
theorem uv_quotient (hF : F.Rounds u η hi) (hs : Scale3 u η hi lo L) {x y : XF F} {t D : K} (hx : x.Is t) (hy : y.Is D)
    (ht : |t| ≤ 1126 / 1000 * L ^ 2) (hD : lo ≤ D) (hD1 : D ≤ 1126 / 1000 * L ^ 2) :
    ∃ h, (x * (nat 1 / y)).Is h ∧ |h * D - t| ≤ 24 / 10 * (u * L ^ 2) := by
  obtain ⟨u0, u1, η0, ηu, ηL, ηLL, -, -, L0, uL0, uLL0, uL1, uLL1, hi1, hiL, hiLL⟩ := hs.toScale.sizes
  have hlo := hs.lo_pos
  have hD0 : 0 < D := lt_of_lt_of_le hlo hD
  have hhi : 0 < hi := by linarith
  have hq1 : 4 * (1 / D) ≤ hi := by
    rw [mul_one_div, div_le_iff₀ hD0]
    have h1 := hs.inv_le
    have h2 := mul_le_mul_of_nonneg_right hD hhi.le
    linarith
  have hq3 : 4 * L ^ 3 * (1 / D) ≤ hi := by
    rw [mul_one_div, div_le_iff₀ hD0]
    have h1 := hs.quot_le
    have h2 := mul_le_mul_of_nonneg_right hD hhi.le
    linarith
  have hq0 : 0 < 1 / D := by positivity
  obtain ⟨r, r1, r2, r3⟩ := rnd_div hF.toGradual u0.le hF.nat1 hy hD0.ne' (A := 1 / D) (by rw [abs_of_pos hq0])
    (by linarith)
  have hr0 : 0 ≤ r := r3 hq0.le
  have hηD : η * D ≤ 1 / 100 * u := by
    have h1 : η * D ≤ η * (1126 / 1000 * L ^ 2) := mul_le_mul_of_nonneg_left hD1 η0
    have h2 := hs.η_inv
    have h3 : u ^ 2 ≤ 1 / 2 ^ 20 * u := by rw [pow_two]; exact mul_le_mul_of_nonneg_right u1 u0.le
    linarith
  have hηD' : η * D ≤ 1 / 100 * (u * L ^ 2) := by
    have h1 : η * D ≤ (u / 2 ^ 20) * (1126 / 1000 * L ^ 2) := mul_le_mul ηu hD1 hD0.le (by positivity)
    have e : u / 2 ^ 20 * (1126 / 1000 * L ^ 2) = 1126 / 1000 / 2 ^ 20 * (u * L ^ 2) := by ring
    rw [e] at h1
    linarith
  have r4 : |r * D - 1| ≤ 101 / 100 * u := by
    have e : r * D - 1 = (r - 1 / D) * D := by field_simp
    rw [e, abs_mul, abs_of_pos hD0]
    have h1 := mul_le_mul_of_nonneg_right r2 hD0.le
    have e2 : (u * (1 / D) + η) * D = u + η * D := by field_simp
    rw [e2] at h1
    linarith
  obtain ⟨r5, r6⟩ := abs_le.1 r4
  have hrD : r ≤ 102 / 100 * (1 / D) := by
    have e : 102 / 100 * (1 / D) = (102 / 100) / D := by ring
    rw [e, le_div_iff₀ hD0]
    linarith
  have hLL : L ^ 2 ≤ 1 + L ^ 3 := by nlinarith [sq_nonneg (L - 1), sq_nonneg L]
  have htr : |t| * r ≤ hi := by
    have h1 : |t| * r ≤ 1126 / 1000 * L ^ 2 * (102 / 100 * (1 / D)) := mul_le_mul ht hrD hr0 (by positivity)
    have h2 : L ^ 2 * (1 / D) ≤ (1 + L ^ 3) * (1 / D) := mul_le_mul_of_nonneg_right hLL hq0.le
    have e : 1126 / 1000 * L ^ 2 * (102 / 100 * (1 / D)) = 1126 / 1000 * (102 / 100) * (L ^ 2 * (1 / D)) := by ring
    have e2 : (1 + L ^ 3) * (1 / D) = 1 / 4 * (4 * (1 / D)) + 1 / 4 * (4 * L ^ 3 * (1 / D)) := by ring
    rw [e] at h1
    rw [e2] at h2
    linarith
  have htr' : |t * r| ≤ |t| * r := by rw [abs_mul, abs_of_nonneg hr0]
  obtain ⟨h, h1, h2, -⟩ := rnd_mul hF.toGradual u0.le hx r1 htr' htr
  refine ⟨h, h1, ?_⟩
  rw [show h * D - t = (h - t * r) * D + t * (r * D - 1) by ring]
  have h4 : |(h - t * r) * D| ≤ (u * (|t| * r) + η) * D := by
    rw [abs_mul, abs_of_pos hD0]; exact mul_le_mul_of_nonneg_right h2 hD0.le
  have h5 : |t * (r * D - 1)| ≤ |t| * (101 / 100 * u) := by
    rw [abs_mul]; exact mul_le_mul_of_nonneg_left r4 (abs_nonneg t)
  refine (abs_add_le' h4 h5).trans ?_
  have h6 : u * |t| * (r * D) ≤ u * |t| * (102 / 100) := mul_le_mul_of_nonneg_left (by linarith) (by positivity)
  have e : (u * (|t| * r) + η) * D = u * |t| * (r * D) + η * D := by ring
  rw [e]
  have h7 := mul_le_mul_of_nonneg_left ht u0.le
  have e3 : u * (1126 / 1000 * L ^ 2) = 1126 / 1000 * (u * L ^ 2) := by ring
  rw [e3] at h7
  linarith

/-- what an accepted test records as coordinates -/
theorem triIntersect_uv {i : TriI (XF F)} {tri : Triangle (XF F)} {ray : Ray (XF F)} (h : (triIntersect i tri ray).2 = true) :
    (triIntersect i tri ray).1.uv =
      (productSign (Vec3.dot (Vec3.cross ray.direction (tri.a - ray.origin)) tri.b) (Vec3.dot (Vec3.cross tri.c tri.b) ray.direction) *
          (nat 1 / abs (Vec3.dot (Vec3.cross tri.c tri.b) ray.direction)),
       productSign (Vec3.dot (Vec3.cross ray.direction (tri.a - ray.origin)) tri.c) (Vec3.dot (Vec3.cross tri.c tri.b) ray.direction) *
          (nat 1 / abs (Vec3.dot (Vec3.cross tri.c tri.b) ray.direction))) := by
  revert h
  unfold triIntersect
  simp only
  intro h
  split_ifs at h ⊢
  rfl

/-- the recorded coordinates, times the exact determinant, are the sides on which the ray passes the edges -/
theorem tri_uv_near (hF : F.Rounds u η hi) (hF' : F.Relative u lo' hi) (hs : Scale3 u η hi lo L) {i : TriI (XF F)}
    {tri : Triangle (XF F)} {ray : Ray (XF F)} {A B C o d : Vec3 K} {m : K} (ht : TriWithin o L tri A B C)
    (ho : IsV ray.origin o) (hd : IsV ray.direction d) (hD : Vec3.dot d d ≤ 5 / 4) (hm : i.minHit.Is m)
    (h : (triIntersect i tri ray).2 = true) (hN : 11 * (u * L ^ 2) ≤ |Vec3.dot (normalOf A B C) d|) :
    ∃ U V, (triIntersect i tri ray).1.uv.1.Is U ∧ (triIntersect i tri ray).1.uv.2.Is V ∧
      |U * Vec3.dot (normalOf A B C) d - edgeSide o d A C| ≤ 12 * (u * L ^ 2) * (1 + |U|) ∧
      |V * Vec3.dot (normalOf A B C) d - edgeSide o d B A| ≤ 12 * (u * L ^ 2) * (1 + |V|) := by
  obtain ⟨u0, u1, η0, ηu, ηL, ηLL, -, -, L0, uL0, uLL0, uL1, uLL1, hi1, hiL, hiLL⟩ := hs.toScale.sizes
  obtain ⟨D, U, V, T, n1, hn, ⟨-, h0⟩ | ⟨w, s, x, y, hr⟩⟩ := tri_run hF hF' hs ht ho hd hD hm
  · rw [h0] at h; cases h
  obtain ⟨s1, s2, s3⟩ := hr.abs_sign
  have hss : s * s = 1 := by rcases hr.sign with ⟨h, -⟩ | ⟨h, -⟩ <;> simp [h]
  have bD : |D| ≤ 1126 / 1000 * L ^ 2 := (abs_le_of_near hn.det hn.d0).trans (by linarith)
  have hlo : lo ≤ |D| := by
    have a1 := hs.lo_le
    have a2 := abs_sub_abs_le_abs_sub (Vec3.dot (normalOf A B C) d) D
    rw [abs_sub_comm] at a2
    have a3 := hn.det
    linarith
  have hD0 : D ≠ 0 := by
    rintro rfl
    simp at s3
  have hps : ∀ {x : XF F} {v : K}, x.Is v →
      (productSign x (Vec3.dot (Vec3.cross tri.c tri.b) ray.direction)).Is (s * v) := by
    intro x v hx
    have := hx.productSign n1 hD0
    rcases hr.sign with ⟨h1, h2⟩ | ⟨h1, h2⟩
    · rw [if_neg (not_lt.2 h2.le)] at this
      rwa [h1, one_mul]
    · rw [if_pos h2] at this
      rwa [h1, neg_one_mul]
  rw [triIntersect_uv h]
  have key : ∀ {x : XF F} {v v0 : K}, x.Is v → |v - v0| ≤ 95 / 10 * (u * L ^ 2) → |v0| ≤ 9 / 8 * L ^ 2 →
      ∃ q, (productSign x (Vec3.dot (Vec3.cross tri.c tri.b) ray.direction) *
          (nat 1 / abs (Vec3.dot (Vec3.cross tri.c tri.b) ray.direction))).Is q ∧
        |q * Vec3.dot (normalOf A B C) d - v0| ≤ 12 * (u * L ^ 2) * (1 + |q|) := by
    intro x v v0 hx hv hv0
    have bv : |s * v| ≤ 1126 / 1000 * L ^ 2 := by
      rw [abs_mul, s1, one_mul]
      exact (abs_le_of_near hv hv0).trans (by linarith)
    obtain ⟨q, q1, q2⟩ := uv_quotient hF hs (hps hx) n1.abs bv hlo bD
    refine ⟨q, q1, ?_⟩
    have e : q * Vec3.dot (normalOf A B C) d - v0 =
        s * (q * |D| - s * v) + (v - v0) + q * (Vec3.dot (normalOf A B C) d - D) := by
      rw [s2]; linear_combination (v - q * D) * hss
    rw [e]
    have e1 : |s * (q * |D| - s * v)| ≤ 24 / 10 * (u * L ^ 2) := by rw [abs_mul, s1, one_mul]; exact q2
    have e2 : |q * (Vec3.dot (normalOf A B C) d - D)| ≤ |q| * (95 / 10 * (u * L ^ 2)) := by
      rw [abs_mul, abs_sub_comm]
      exact mul_le_mul_of_nonneg_left hn.det (abs_nonneg q)
    refine (abs_add_le' (abs_add_le' e1 hv) e2).trans ?_
    have := mul_nonneg (abs_nonneg q) uLL0.le
    have e3 : 12 * (u * L ^ 2) * (1 + |q|) = 12 * (u * L ^ 2) + 12 * (|q| * (u * L ^ 2)) := by ring
    rw [e3]
    linarith
  obtain ⟨q, q1, q2⟩ := key hr.edgeAC hn.ac hn.u0
  obtain ⟨q', q1', q2'⟩ := key hr.edgeBA hn.ba hn.v0
  exact ⟨q, q', q1, q1', q2, q2'⟩

/-- Cramer's rule -/
theorem uv_cramer (o d A B C : Vec3 K) (k U V : K) (j : Fin 3) :
    Vec3.dot (normalOf A B C) d * ((along o d k).get j - ((1 - U - V) * A.get j + U * B.get j + V * C.get j)) =
      (k * Vec3.dot (normalOf A B C) d - Vec3.dot (normalOf A B C) (A - o)) * d.get j
      - (U * Vec3.dot (normalOf A B C) d - edgeSide o d A C) * (B.get j - A.get j)
      - (V * Vec3.dot (normalOf A B C) d - edgeSide o d B A) * (C.get j - A.get j) := by
  fin_cases j <;>
  · simp only [Vec3.get, Vec3.dot, normalOf, edgeSide, along, Vec3.cross, Vec3.sub_x, Vec3.sub_y, Vec3.sub_z, Vec3.add_x, Vec3.add_y,
      Vec3.add_z, Vec3.smul_x, Vec3.smul_y, Vec3.smul_z]
    ring

end Blazert
