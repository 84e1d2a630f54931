/- The point `closest_point_on_triangle` computes is nearly the closest one, with rounding: the regions. -/
import Verif.Proofs.ClosestOpt

set_option autoImplicit false
set_option linter.unusedSectionVars false

namespace Blazert
open Scalar

variable {K : Type} [Field K] [LinearOrder K] [IsStrictOrderedRing K] [FloorRing K] {F : Fmt K} {u η hi L N : K}

section
variable (hF : F.Rounds u η hi) (hs : Scale u η hi L)
include hF hs

/-- a quotient below 1, times the divisor -/
theorem unit_quot_near {x y : XF F} {n q : K} (hx : x.Is n) (hy : y.Is q) (n0 : 0 ≤ n) (hlt : n < q) :
    ∃ r, (x / y).Is r ∧ 0 ≤ r ∧ r ≤ 1 + 2 * u ∧ |q * r - n| ≤ 2 * u * q := by
  obtain ⟨u0, u1, η0, ηu, -, -, -, -, -, -, -, -, -, hi1, -, -⟩ := hs.sizes
  have q0 : 0 < q := by linarith
  have h0 : 0 ≤ n / q := div_nonneg n0 q0.le
  have h1 : n / q ≤ 1 := by rw [div_le_one q0]; exact hlt.le
  obtain ⟨r, r1, r2, r3⟩ := rnd_div hF.toGradual u0.le hx hy q0.ne' (by rw [abs_of_nonneg h0]; exact h1) (by linarith : (1 : K) ≤ hi)
  have := (abs_le.1 r2).2
  refine ⟨r, r1, r3 h0, by linarith, ?_⟩
  have e : q * r - n = (r - n / q) * q := by field_simp
  rw [e, abs_mul, abs_of_pos q0]
  exact mul_le_mul_of_nonneg_right (r2.trans (by linarith)) q0.le

/-- the other coordinate on the third edge -/
theorem rest_near {x : XF F} {r : K} (hx : x.Is r) (h0 : 0 ≤ r) (h1 : r ≤ 1 + 2 * u) :
    ∃ w, (nat 1 - x).Is w ∧ |w - (1 - r)| ≤ 2 * u := by
  obtain ⟨u0, u1, η0, ηu, -, -, -, -, -, -, -, -, -, hi1, -, -⟩ := hs.sizes
  obtain ⟨w, w1, w2, -⟩ := rnd_sub hF.toGradual u0.le hF.nat1 hx (by rw [abs_le]; constructor <;> linarith : |1 - r| ≤ 1)
    (by linarith : (1 : K) ≤ hi)
  exact ⟨w, w1, w2.trans (by linarith)⟩

/-- the sums -/
theorem add_near {x y : XF F} {a b M A : K} (hx : x.Is a) (hy : y.Is b) (ha : |a + b| ≤ A) (hA : A ≤ hi) (hM : A ≤ 5 * M) (hη : η ≤ u * M / 2 ^ 20) :
    ∃ r, (x + y).Is r ∧ |r - (a + b)| ≤ u * A + u * M / 2 ^ 20 := by
  obtain ⟨r, r1, r2, -⟩ := rnd_add hF.toGradual hs.u_pos.le hx hy ha hA
  exact ⟨r, r1, r2.trans (by linarith)⟩

end

/-- everything the regions depend on -/
structure Quads (u η hi L N : K) (xa xb xc xd xe : XF F) (a b c d e S T D : K) : Prop where
  ha : xa.Is a
  hb : xb.Is b
  hc : xc.Is c
  hd : xd.Is d
  he : xe.Is e
  dM : |d| ≤ 11 / 10 * L ^ 2
  eM : |e| ≤ 11 / 10 * L ^ 2
  quad : Quad a b c d e S T D (11 / 10 * L ^ 2) (36 * (u * L ^ 2)) (40 * (u * L ^ 4)) N
  uM : u * L ^ 2 ≤ N

namespace Quads
variable {xa xb xc xd xe : XF F} {a b c d e S T D : K} (h : Quads u η hi L N xa xb xc xd xe a b c d e S T D) (hF : F.Rounds u η hi)
  (h4 : Scale4 u η hi L)

include h in
theorem swap : Quads u η hi L N xc xb xa xe xd c b a e d T S D := ⟨h.hc, h.hb, h.ha, h.he, h.hd, h.eM, h.dM, h.quad.swap, h.uM⟩

include h hF h4

/-- `c t + e = 0` on the edge -/
theorem foot (hS : S ≤ 40 * (u * L ^ 4)) (e0 : e < 0) (hec : -e < c) : ∃ t, (-xe / xc).Is t ∧ KKT (10 * N) a b c d e 0 t := by
  obtain ⟨u0, u1, η0, ηu, ηL, ηLL, ηuLL, ηuL, L0, uL0, uLL0, uL1, uLL1, hi1, hiL, hiLL⟩ := h4.lin.sizes
  obtain ⟨t, t1, t2, t3, t4⟩ := unit_quot_near hF h4.lin h.he.neg h.hc (by linarith) hec
  refine ⟨t, t1, h.quad.edge hS ?_ t2 (by linarith)⟩
  rw [sub_neg_eq_add] at t4
  refine t4.trans ?_
  have := mul_le_mul_of_nonneg_left h.quad.cM (by linarith : 0 ≤ 2 * u)
  linarith

theorem corner (hS : S ≤ 40 * (u * L ^ 4)) (hsum : S + T ≤ D + 40 * (u * L ^ 4)) (hce : c + e ≤ 0) : KKT (10 * N) a b c d e 0 1 := by
  have N0 := h.quad.N0
  have := h.quad.corner2_v1 hS hsum (hce.trans h.quad.ε0)
  exact Quad.corner2 (by linarith) (by linarith) (by linarith)

/-- the edge `s = 0` -/
theorem r3_best (hS : S ≤ 40 * (u * L ^ 4)) (hsum : S + T ≤ D + 40 * (u * L ^ 4)) (hd : 0 ≤ e → -(10 * N) ≤ d) :
    ∃ t, (r3 xc xe).1.Is 0 ∧ (r3 xc xe).2.Is t ∧ KKT (10 * N) a b c d e 0 t := by
  have N0 := h.quad.N0
  have e0 := h.quad.ε0
  unfold r3
  by_cases g1 : ge xe (nat 0) = true
  · rw [if_pos g1]
    have he := (XF.Is.ge h.he hF.nat0).1 g1
    exact ⟨0, hF.nat0, hF.nat0, Quad.corner0 (hd he) (by linarith) N0⟩
  · rw [if_neg g1]
    by_cases g2 : ge (-xe) xc = true
    · rw [if_pos g2]
      have he := (XF.Is.ge h.he.neg h.hc).1 g2
      exact ⟨1, hF.nat0, hF.nat1, h.corner hF h4 hS hsum (by linarith)⟩
    · rw [if_neg g2]
      obtain ⟨t, t1, t2⟩ := h.foot hF h4 hS (not_le.1 fun hc => g1 ((XF.Is.ge h.he hF.nat0).2 hc))
        (not_le.1 fun hc => g2 ((XF.Is.ge h.he.neg h.hc).2 hc))
      exact ⟨t, hF.nat0, t1, t2⟩

/-- the quotient of the third edge -/
theorem hyp_best {xn xq : XF F} {n q : K} (hn : xn.Is n) (hq : xq.Is q) (n0 : 0 ≤ n) (dn : |n - (c + e - b - d)| ≤ 12 * (u * L ^ 2))
    (dq : |q - (a - 2 * b + c)| ≤ 12 * (u * L ^ 2)) (hT : -(40 * (u * L ^ 4)) ≤ T) (hsum : D - 40 * (u * L ^ 4) ≤ S + T) :
    ∃ s t, (if ge xn xq then nat 1 else xn / xq).Is s ∧ (nat 1 - (if ge xn xq then nat 1 else xn / xq)).Is t ∧ KKT (40 * N) a b c d e s t := by
  obtain ⟨u0, u1, η0, ηu, ηL, ηLL, ηuLL, ηuL, L0, uL0, uLL0, uL1, uLL1, hi1, hiL, hiLL⟩ := h4.lin.sizes
  have N0 := h.quad.N0
  have hε := h.quad.ε_le
  have uM := h.uM
  have key : ∃ s, (if ge xn xq then nat 1 else xn / xq).Is s ∧ 0 ≤ s ∧ s ≤ 1 + 2 * u ∧ KKT (10 * N) a b c d e s (1 - s) := by
    obtain ⟨n1, n2⟩ := abs_le.1 dn
    obtain ⟨q1, q2⟩ := abs_le.1 dq
    by_cases g : ge xn xq = true
    · rw [if_pos g]
      have hnq := (XF.Is.ge hn hq).1 g
      refine ⟨1, hF.nat1, zero_le_one, by linarith, ?_⟩
      rw [sub_self]
      have i1 := h.quad.swap.corner2_v0 hT (by linarith) (by linarith)
      exact (Quad.corner2 (by linarith) (by linarith) (by linarith) : KKT (10 * N) c b a e d 0 1).swap
    · rw [if_neg g]
      obtain ⟨s, s1, s2, s3, s4⟩ := unit_quot_near hF h4.lin hn hq n0 (not_le.1 fun hc => g ((XF.Is.ge hn hq).2 hc))
      refine ⟨s, s1, s2, s3, (h.quad.hyp hsum ?_ s2 (by linarith)).mono (by linarith)⟩
      obtain ⟨b1, b2⟩ := abs_le.1 h.quad.bM
      have i1 : |(q - (a - 2 * b + c)) * s| ≤ 12 * (u * L ^ 2) * (101 / 100) :=
        abs_mul_le dq (by rw [abs_of_nonneg s2]; linarith)
      have i2 : 2 * u * q ≤ 2 * u * (9 / 2 * L ^ 2) := mul_le_mul_of_nonneg_left (by linarith [h.quad.aM, h.quad.cM]) (by linarith)
      rw [show c + e - b - d - (a - 2 * b + c) * s = -(n - (c + e - b - d)) + (-(q * s - n) + (q - (a - 2 * b + c)) * s) by ring]
      refine (abs_add_le' ((abs_neg _).le.trans dn) (abs_add_le' ((abs_neg _).le.trans s4) i1)).trans ?_
      linarith
  obtain ⟨s, s1, s2, s3, s4⟩ := key
  obtain ⟨t, t1, t2⟩ := rest_near hF h4.lin s1 s2 s3
  refine ⟨s, t, s1, t1, (s4.perturb h.quad.bM (by rw [abs_of_nonneg h.quad.c0]; exact h.quad.cM) h.eM s2 (by linarith) (by linarith) (by linarith) t2
    (by linarith)).mono ?_⟩
  linarith

theorem denom_near : ∃ q, (xa - nat 2 * xb + xc).Is q ∧ |q - (a - 2 * b + c)| ≤ 12 * (u * L ^ 2) := by
  obtain ⟨u0, u1, η0, ηu, ηL, ηLL, ηuLL, ηuL, L0, uL0, uLL0, uL1, uLL1, hi1, hiL, hiLL⟩ := h4.lin.sizes
  have scale : ∀ c : K, u * (c * L ^ 2) = c * (u * L ^ 2) := fun c => by ring
  have a1 : |a| ≤ 11 / 10 * L ^ 2 := by rw [abs_of_nonneg h.quad.a0]; exact h.quad.aM
  have c1 : |c| ≤ 11 / 10 * L ^ 2 := by rw [abs_of_nonneg h.quad.c0]; exact h.quad.cM
  have b1 : |2 * b| ≤ 22 / 10 * L ^ 2 := by have := h.quad.bM; rw [abs_mul, abs_two]; linarith
  obtain ⟨p, p1, p2, -⟩ := rnd_mul hF.toGradual u0.le hF.nat2 h.hb b1 (by linarith)
  rw [scale] at p2
  have p3 : |p| ≤ 23 / 10 * L ^ 2 := (abs_le_of_near p2 b1).trans (by linarith)
  obtain ⟨q, q1, q2, -⟩ := rnd_sub hF.toGradual u0.le h.ha p1 ((abs_sub_le' a1 p3).trans (by linarith : _ ≤ 34 / 10 * L ^ 2)) (by linarith)
  rw [scale] at q2
  have q3 : |q| ≤ 35 / 10 * L ^ 2 := (abs_le_of_near q2 ((abs_sub_le' a1 p3).trans (by linarith : _ ≤ 34 / 10 * L ^ 2))).trans (by linarith)
  obtain ⟨r, r1, r2, -⟩ := rnd_add hF.toGradual u0.le q1 h.hc ((abs_add_le' q3 c1).trans (by linarith : _ ≤ 46 / 10 * L ^ 2)) (by linarith)
  rw [scale] at r2
  refine ⟨r, r1, ?_⟩
  rw [show r - (a - 2 * b + c) = (r - (q + c)) + ((q - (a - p)) + -(p - 2 * b)) by ring]
  refine (abs_add_le' r2 (abs_add_le' q2 ((abs_neg _).le.trans p2))).trans ?_
  linarith

theorem sum_near {x y : XF F} {v w : K} (hx : x.Is v) (hy : y.Is w) (hv : |v| ≤ 11 / 10 * L ^ 2) (hw : |w| ≤ 11 / 10 * L ^ 2) :
    ∃ r, (x + y).Is r ∧ |r - (v + w)| ≤ 23 / 10 * (u * L ^ 2) ∧ |r| ≤ 23 / 10 * L ^ 2 := by
  obtain ⟨u0, u1, η0, ηu, ηL, ηLL, ηuLL, ηuL, L0, uL0, uLL0, uL1, uLL1, hi1, hiL, hiLL⟩ := h4.lin.sizes
  have i1 : |v + w| ≤ 22 / 10 * L ^ 2 := (abs_add_le' hv hw).trans (by linarith)
  obtain ⟨r, r1, r2, -⟩ := rnd_add hF.toGradual u0.le hx hy i1 (by linarith)
  have scale : u * (22 / 10 * L ^ 2) = 22 / 10 * (u * L ^ 2) := by ring
  rw [scale] at r2
  exact ⟨r, r1, r2.trans (by linarith), (abs_le_of_near r2 i1).trans (by linarith)⟩

theorem r1_best (hS : -(40 * (u * L ^ 4)) ≤ S) (hT : -(40 * (u * L ^ 4)) ≤ T) (hsum : D - 40 * (u * L ^ 4) ≤ S + T) :
    ∃ s t, (r1 xa xb xc xd xe).1.Is s ∧ (r1 xa xb xc xd xe).2.Is t ∧ KKT (40 * N) a b c d e s t := by
  obtain ⟨u0, u1, η0, ηu, ηL, ηLL, ηuLL, ηuL, L0, uL0, uLL0, uL1, uLL1, hi1, hiL, hiLL⟩ := h4.lin.sizes
  have N0 := h.quad.N0
  have hε := h.quad.ε_le
  have uM := h.uM
  have scale : ∀ c : K, u * (c * L ^ 2) = c * (u * L ^ 2) := fun c => by ring
  have c1 : |c| ≤ 11 / 10 * L ^ 2 := by rw [abs_of_nonneg h.quad.c0]; exact h.quad.cM
  obtain ⟨p, p1, p2, p3⟩ := h.sum_near hF h4 h.hc h.he c1 h.eM
  have i1 := (abs_sub_le' p3 h.quad.bM).trans (by linarith : _ ≤ 34 / 10 * L ^ 2)
  obtain ⟨q, q1, q2, -⟩ := rnd_sub hF.toGradual u0.le p1 h.hb i1 (by linarith)
  rw [scale] at q2
  have q3 : |q| ≤ 35 / 10 * L ^ 2 := (abs_le_of_near q2 i1).trans (by linarith)
  have i2 := (abs_sub_le' q3 h.dM).trans (by linarith : _ ≤ 46 / 10 * L ^ 2)
  obtain ⟨n, n1, n2, -⟩ := rnd_sub hF.toGradual u0.le q1 h.hd i2 (by linarith)
  rw [scale] at n2
  have dn : |n - (c + e - b - d)| ≤ 12 * (u * L ^ 2) := by
    rw [show n - (c + e - b - d) = (n - (q - d)) + ((q - (p - b)) + (p - (c + e))) by ring]
    refine (abs_add_le' n2 (abs_add_le' q2 p2)).trans ?_
    linarith
  obtain ⟨m, m1, m2⟩ := h.denom_near hF h4
  unfold r1
  simp only
  by_cases g : le (xc + xe - xb - xd) (nat 0) = true
  · rw [if_pos g]
    have n0 := (XF.Is.le n1 hF.nat0).1 g
    obtain ⟨t, t1, t2⟩ := rest_near hF h4.lin hF.nat0 le_rfl (by linarith)
    rw [sub_zero] at t2
    have dn1 := (abs_le.1 dn).1
    have j1 := h.quad.corner2_v0 hS hsum (by linarith)
    have j2 : KKT (10 * N) a b c d e 0 1 := Quad.corner2 (by linarith) (by linarith) (by linarith)
    refine ⟨0, t, hF.nat0, t1, (j2.perturb h.quad.bM c1 h.eM le_rfl (by norm_num) (by norm_num) (by norm_num) t2 (by linarith)).mono ?_⟩
    linarith
  · rw [if_neg g]
    have n0 : 0 < n := not_le.1 fun hc => g ((XF.Is.le n1 hF.nat0).2 hc)
    exact h.hyp_best hF h4 n1 m1 n0.le dn m2 hT hsum

end Quads

/-- `r2` and `r6` up to the order of the two coordinates -/
def r26 (xb xc xd xe xq : XF F) : XF F × XF F :=
  let tmp0 := xb + xd
  let tmp1 := xc + xe
  if gt tmp1 tmp0 then
    let numer := tmp1 - tmp0
    let s := if ge numer xq then nat 1 else numer / xq
    (s, nat 1 - s)
  else
    (nat 0, if le tmp1 (nat 0) then nat 1 else if ge xe (nat 0) then nat 0 else -xe / xc)

theorem r2_eq (xa xb xc xd xe : XF F) : r2 xa xb xc xd xe = r26 xb xc xd xe (xa - nat 2 * xb + xc) := rfl

theorem r6_eq (xa xb xc xd xe : XF F) : r6 xa xb xc xd xe = (r26 xb xa xe xd (xa - nat 2 * xb + xc)).swap := by
  unfold r6 r26
  simp only
  by_cases g : gt (xa + xd) (xb + xe) = true
  · rw [if_pos g, if_pos g]; rfl
  · rw [if_neg g, if_neg g]; rfl

namespace Quads
variable {xa xb xc xd xe : XF F} {a b c d e S T D : K} (h : Quads u η hi L N xa xb xc xd xe a b c d e S T D) (hF : F.Rounds u η hi)
  (h4 : Scale4 u η hi L)
include h hF h4

theorem r26_best (hodd : F.Odd) {xq : XF F} {q : K} (hq : xq.Is q) (dq : |q - (a - 2 * b + c)| ≤ 12 * (u * L ^ 2)) (hS : S ≤ 40 * (u * L ^ 4))
    (hT : -(40 * (u * L ^ 4)) ≤ T) (hsum : D - 40 * (u * L ^ 4) ≤ S + T) :
    ∃ s t, (r26 xb xc xd xe xq).1.Is s ∧ (r26 xb xc xd xe xq).2.Is t ∧ KKT (40 * N) a b c d e s t := by
  obtain ⟨u0, u1, η0, ηu, ηL, ηLL, ηuLL, ηuL, L0, uL0, uLL0, uL1, uLL1, hi1, hiL, hiLL⟩ := h4.lin.sizes
  have N0 := h.quad.N0
  have hε := h.quad.ε_le
  have scale : ∀ c : K, u * (c * L ^ 2) = c * (u * L ^ 2) := fun c => by ring
  have c1 : |c| ≤ 11 / 10 * L ^ 2 := by rw [abs_of_nonneg h.quad.c0]; exact h.quad.cM
  obtain ⟨p, p1, p2, p3⟩ := h.sum_near hF h4 h.hb h.hd h.quad.bM h.dM
  obtain ⟨r, r1, r2, r3⟩ := h.sum_near hF h4 h.hc h.he c1 h.eM
  obtain ⟨p4, p5⟩ := abs_le.1 p2
  obtain ⟨r4, r5⟩ := abs_le.1 r2
  unfold r26
  simp only
  by_cases g : gt (xc + xe) (xb + xd) = true
  · rw [if_pos g]
    have hlt := (XF.Is.gt r1 p1).1 g
    have i1 := (abs_sub_le' r3 p3).trans (by linarith : _ ≤ 46 / 10 * L ^ 2)
    obtain ⟨n, n1, n2, n3⟩ := rnd_sub hF.toGradual u0.le r1 p1 i1 (by linarith)
    rw [scale] at n2
    have dn : |n - (c + e - b - d)| ≤ 12 * (u * L ^ 2) := by
      rw [show n - (c + e - b - d) = (n - (r - p)) + ((r - (c + e)) + -(p - (b + d))) by ring]
      refine (abs_add_le' n2 (abs_add_le' r2 ((abs_neg _).le.trans p2))).trans ?_
      linarith
    exact h.hyp_best hF h4 n1 hq (n3 (by linarith)) dn dq hT hsum
  · rw [if_neg g]
    have hle : r ≤ p := not_lt.1 fun hc => g ((XF.Is.gt r1 p1).2 hc)
    by_cases g1 : le (xc + xe) (nat 0) = true
    · rw [if_pos g1]
      have := (XF.Is.le r1 hF.nat0).1 g1
      exact ⟨0, 1, hF.nat0, hF.nat1, Quad.corner2 (by linarith) (by linarith) (by linarith)⟩
    · rw [if_neg g1]
      by_cases g2 : ge xe (nat 0) = true
      · rw [if_pos g2]
        have he := (XF.Is.ge h.he hF.nat0).1 g2
        have := h.quad.d_lo hS hT (by linarith [h.quad.ε0])
        exact ⟨0, 0, hF.nat0, hF.nat0, (Quad.corner0 (N := N) (by linarith) (by linarith) N0).mono (by linarith)⟩
      · rw [if_neg g2]
        have e0 : e < 0 := not_le.1 fun hc => g2 ((XF.Is.ge h.he hF.nat0).2 hc)
        have hq : 0 < r := not_le.1 fun hc => g1 ((XF.Is.le r1 hF.nat0).2 hc)
        obtain ⟨q', q3, -, -, q4⟩ := grad_add_sign hF.toGradual hodd h.hc h.he ((abs_add_le' c1 h.eM).trans (by linarith))
        have hqq : q' = r := q3.unique r1
        have hce : 0 < c + e := not_le.1 fun hc => by have := q4 hc; linarith
        obtain ⟨t, t1, t2⟩ := h.foot hF h4 hS e0 (by linarith)
        exact ⟨0, t, hF.nat0, t1, t2.mono (by linarith)⟩

/-- all regions -/
theorem best (hodd : F.Odd) (hD : 60 * (u * L ^ 4) ≤ D) :
    ∃ s t, (closestST xa xb xc xd xe).1.Is s ∧ (closestST xa xb xc xd xe).2.Is t ∧ KKT (40 * N) a b c d e s t := by
  obtain ⟨u0, u1, η0, ηu, ηM, ηMM, ηuMM, ηuM, M0, uM0, uMM0, uM1, uMM1, hi1, hiM, hiMM⟩ := h4.quad.sizes
  have N0 := h.quad.N0
  have eQ : (L ^ 2) ^ 2 = L ^ 4 := by ring
  rw [eQ] at ηMM ηuMM uMM0 uMM1 hiMM
  have Q0 : 0 < L ^ 4 := by rw [← eQ]; positivity
  have a1 : |a| ≤ 11 / 10 * L ^ 2 := by rw [abs_of_nonneg h.quad.a0]; exact h.quad.aM
  have c1 : |c| ≤ 11 / 10 * L ^ 2 := by rw [abs_of_nonneg h.quad.c0]; exact h.quad.cM
  have prod : ∀ {x y : K}, |x| ≤ 11 / 10 * L ^ 2 → |y| ≤ 11 / 10 * L ^ 2 → |x * y| ≤ 121 / 100 * L ^ 4 := by
    intro x y hx hy
    exact (abs_mul_le hx hy).trans_eq (by ring)
  have det2 : ∀ {x y z w : XF F} {p q r k : K}, x.Is p → y.Is q → z.Is r → w.Is k → |p| ≤ 11 / 10 * L ^ 2 → |q| ≤ 11 / 10 * L ^ 2 →
      |r| ≤ 11 / 10 * L ^ 2 → |k| ≤ 11 / 10 * L ^ 2 → ∃ v, (x * y - z * w).Is v ∧ |v| ≤ 3 * L ^ 4 ∧ |v - (p * q - r * k)| ≤ 5 * (u * L ^ 4) := by
    intro x y z w p q r k hx hy hz hw p1 q1 r1 k1
    have i1 := prod p1 q1
    have i2 := prod r1 k1
    obtain ⟨v, v1, v2⟩ := rnd_det2 hF.toGradual u0.le h4.lin.u_le η0 hx hy hz hw (add_le_add i1 i2) (by linarith)
    have i3 : u * (|p * q| + |r * k|) ≤ u * (121 / 100 * L ^ 4 + 121 / 100 * L ^ 4) := mul_le_mul_of_nonneg_left (add_le_add i1 i2) u0.le
    have i4 : |v - (p * q - r * k)| ≤ 5 * (u * L ^ 4) := v2.trans (by linarith)
    exact ⟨v, v1, (abs_le_of_near i4 (abs_sub_le' i1 i2)).trans (by linarith), i4⟩
  obtain ⟨s, s1, s2, s3⟩ := det2 h.hb h.he h.hc h.hd h.quad.bM h.eM c1 h.dM
  obtain ⟨t, t1, t2, t3⟩ := det2 h.hb h.hd h.ha h.he h.quad.bM h.dM a1 h.eM
  obtain ⟨δ, δ1, δ2, δ3⟩ := det2 h.ha h.hc h.hb h.hb a1 c1 h.quad.bM h.quad.bM
  rw [← h.quad.hS] at s3
  rw [← h.quad.hT] at t3
  rw [← h.quad.hD] at δ3
  have i1 : |s + t| ≤ 6 * L ^ 4 := (abs_add_le' s2 t2).trans (by linarith)
  obtain ⟨σ, σ1, σ2, -⟩ := rnd_add hF.toGradual u0.le s1 t1 i1 (by linarith)
  have scale : u * (6 * L ^ 4) = 6 * (u * L ^ 4) := by ring
  rw [scale] at σ2
  obtain ⟨s4, s5⟩ := abs_le.1 s3
  obtain ⟨t4, t5⟩ := abs_le.1 t3
  obtain ⟨δ4, δ5⟩ := abs_le.1 δ3
  obtain ⟨σ4, σ5⟩ := abs_le.1 σ2
  unfold closestST
  simp only
  by_cases g0 : le (xb * xe - xc * xd + (xb * xd - xa * xe)) (xa * xc - xb * xb) = true
  · rw [if_pos g0]
    have hle := (XF.Is.le σ1 δ1).1 g0
    have hsum : S + T ≤ D + 40 * (u * L ^ 4) := by linarith
    by_cases g1 : lt (xb * xe - xc * xd) (nat 0) = true
    · rw [if_pos g1]
      have s0 := (XF.Is.lt s1 hF.nat0).1 g1
      by_cases g2 : lt (xb * xd - xa * xe) (nat 0) = true
      · rw [if_pos g2]
        have t0 := (XF.Is.lt t1 hF.nat0).1 g2
        unfold r4
        by_cases g3 : lt xd (nat 0) = true
        · rw [if_pos g3]
          have d0 := (XF.Is.lt h.hd hF.nat0).1 g3
          by_cases g4 : ge (-xd) xa = true
          · rw [if_pos g4]
            have := (XF.Is.ge h.hd.neg h.ha).1 g4
            exact ⟨1, 0, hF.nat1, hF.nat0, (h.swap.corner hF h4 (by linarith) (by linarith) (by linarith)).swap.mono (by linarith)⟩
          · rw [if_neg g4]
            obtain ⟨p, p1, p2⟩ := h.swap.foot hF h4 (by linarith) d0 (not_le.1 fun hc => g4 ((XF.Is.ge h.hd.neg h.ha).2 hc))
            exact ⟨p, 0, p1, hF.nat0, p2.swap.mono (by linarith)⟩
        · rw [if_neg g3]
          have d0 : 0 ≤ d := not_lt.1 fun hc => g3 ((XF.Is.lt h.hd hF.nat0).2 hc)
          obtain ⟨p, p1, p2, p3⟩ := h.r3_best hF h4 (by linarith) hsum fun _ => by linarith
          exact ⟨0, p, p1, p2, p3.mono (by linarith)⟩
      · rw [if_neg g2]
        have t0 : 0 ≤ t := not_lt.1 fun hc => g2 ((XF.Is.lt t1 hF.nat0).2 hc)
        obtain ⟨p, p1, p2, p3⟩ := h.r3_best hF h4 (by linarith) hsum fun he => by
          have := h.quad.d_lo (by linarith) (by linarith) (by linarith [h.quad.ε0])
          linarith
        exact ⟨0, p, p1, p2, p3.mono (by linarith)⟩
    · rw [if_neg g1]
      have s0 : 0 ≤ s := not_lt.1 fun hc => g1 ((XF.Is.lt s1 hF.nat0).2 hc)
      by_cases g2 : lt (xb * xd - xa * xe) (nat 0) = true
      · rw [if_pos g2]
        have t0 := (XF.Is.lt t1 hF.nat0).1 g2
        obtain ⟨p, p1, p2, p3⟩ := h.swap.r3_best hF h4 (by linarith) (by linarith) fun he => by
          have := h.swap.quad.d_lo (by linarith) (by linarith) (by linarith [h.quad.ε0])
          linarith
        exact ⟨p, 0, p2, p1, p3.swap.mono (by linarith)⟩
      · rw [if_neg g2]
        have t0 : 0 ≤ t := not_lt.1 fun h => g2 ((XF.Is.lt t1 hF.nat0).2 h)
        obtain ⟨x, y, i1, i2, i3, i4, i5⟩ := r0_near hF u0 u1 η0 hi1 h4.lin.η_le Q0 ηuMM h4.η_inv h4.inv_le (by linarith) s1 t1 δ1 s0 t0
          ((le_abs_self _).trans s2) ((le_abs_self _).trans t2) σ1 hle (by linarith) ((le_abs_self _).trans δ2)
        have := i3.s0
        have := i3.t0
        have := i3.sum
        have x1 : |x| ≤ 101 / 100 := by rw [abs_le]; constructor <;> linarith
        have y1 : |y| ≤ 101 / 100 := by rw [abs_le]; constructor <;> linarith
        have back : ∀ {z v V : K}, |z| ≤ 101 / 100 → |δ * z - v| ≤ 10 * (u * L ^ 4) → |v - V| ≤ 5 * (u * L ^ 4) →
            |D * z - V| ≤ 40 * (u * L ^ 4) := by
          intro z v V h1 h2 h3
          rw [show D * z - V = (δ * z - v) + ((v - V) + -((δ - D) * z)) by ring]
          refine (abs_add_le' h2 (abs_add_le' h3 ((abs_neg _).le.trans (abs_mul_le δ3 h1)))).trans ?_
          linarith
        refine ⟨x, y, i1, i2, (h.quad.inner (back x1 i4 s3) (back y1 i5 t3) (by linarith) ?_ (by linarith) ?_).mono (by linarith)⟩
        · rw [abs_le]; constructor <;> linarith
        · rw [abs_le]; constructor <;> linarith
  · rw [if_neg g0]
    have hle : δ < σ := not_le.1 fun hc => g0 ((XF.Is.le σ1 δ1).2 hc)
    have hsum : D - 40 * (u * L ^ 4) ≤ S + T := by linarith
    obtain ⟨q, q1, q2⟩ := h.denom_near hF h4
    by_cases g1 : lt (xb * xe - xc * xd) (nat 0) = true
    · rw [if_pos g1]
      have s0 := (XF.Is.lt s1 hF.nat0).1 g1
      rw [r2_eq]
      exact h.r26_best hF h4 hodd q1 q2 (by linarith) (by linarith) hsum
    · rw [if_neg g1]
      have s0 : 0 ≤ s := not_lt.1 fun hc => g1 ((XF.Is.lt s1 hF.nat0).2 hc)
      by_cases g2 : lt (xb * xd - xa * xe) (nat 0) = true
      · rw [if_pos g2]
        have t0 := (XF.Is.lt t1 hF.nat0).1 g2
        rw [r6_eq]
        obtain ⟨p, v, p1, p2, p3⟩ := h.swap.r26_best hF h4 hodd q1 (by rwa [show c - 2 * b + a = a - 2 * b + c by ring]) (by linarith) (by linarith)
          (by linarith)
        exact ⟨v, p, p2, p1, p3.swap⟩
      · rw [if_neg g2]
        have t0 : 0 ≤ t := not_lt.1 fun h => g2 ((XF.Is.lt t1 hF.nat0).2 h)
        exact h.r1_best hF h4 (by linarith) (by linarith) hsum

end Quads

/-! ### The point -/

theorem form_near {a b c d e a0 b0 c0 d0 e0 s t E : K} (ha : |a - a0| ≤ E) (hb : |b - b0| ≤ E) (hc : |c - c0| ≤ E) (hd : |d - d0| ≤ E)
    (he : |e - e0| ≤ E) (hst : |s| + |t| ≤ 101 / 100) :
    |(a * s * s + 2 * b * s * t + c * t * t + 2 * d * s + 2 * e * t) -
      (a0 * s * s + 2 * b0 * s * t + c0 * t * t + 2 * d0 * s + 2 * e0 * t)| ≤ 4 * E := by
  have E0 : 0 ≤ E := (abs_nonneg _).trans ha
  have s0 := abs_nonneg s
  have t0 := abs_nonneg t
  have i1 := abs_mul_le (abs_mul_le ha (le_refl |s|)) (le_refl |s|)
  have i2 := abs_mul_le (abs_mul_le hb (le_refl |s|)) (le_refl |t|)
  have i3 := abs_mul_le (abs_mul_le hc (le_refl |t|)) (le_refl |t|)
  have i4 := abs_mul_le hd (le_refl |s|)
  have i5 := abs_mul_le he (le_refl |t|)
  rw [show (a * s * s + 2 * b * s * t + c * t * t + 2 * d * s + 2 * e * t) -
      (a0 * s * s + 2 * b0 * s * t + c0 * t * t + 2 * d0 * s + 2 * e0 * t) =
      (a - a0) * s * s + ((b - b0) * s * t + (b - b0) * s * t) + (c - c0) * t * t + ((d - d0) * s + (d - d0) * s) +
        ((e - e0) * t + (e - e0) * t) by ring]
  refine (abs_add_le' (abs_add_le' (abs_add_le' (abs_add_le' i1 (abs_add_le' i2 i2)) i3) (abs_add_le' i4 i4)) (abs_add_le' i5 i5)).trans ?_
  have e1 : E * |s| * |s| + (E * |s| * |t| + E * |s| * |t|) + E * |t| * |t| + (E * |s| + E * |s|) + (E * |t| + E * |t|) =
      E * ((|s| + |t|) * (|s| + |t|) + 2 * (|s| + |t|)) := by ring
  rw [e1, mul_comm 4 E]
  refine mul_le_mul_of_nonneg_left ?_ E0
  have := mul_le_mul hst hst (add_nonneg s0 t0) (by norm_num)
  linarith

theorem NearBary.abs_sum {ν s t : K} (h : NearBary ν s t) (hν : 0 ≤ ν) : |s| + |t| ≤ 1 + 5 * ν := by
  obtain ⟨h1, h2, h3⟩ := h
  have i1 : |s| ≤ s + 2 * ν := by rw [abs_le]; constructor <;> linarith
  have i2 : |t| ≤ t + 2 * ν := by rw [abs_le]; constructor <;> linarith
  linarith

/-- the squared distance, as a function of the coordinates -/
theorem dist_form (A B C P : Vec3 K) (s t : K) :
    Vec3.dot (P - bary A B C s t) (P - bary A B C s t) = (Vec3.dot (B - A) (B - A) * s * s + 2 * Vec3.dot (B - A) (C - A) * s * t +
      Vec3.dot (C - A) (C - A) * t * t + 2 * Vec3.dot (B - A) (A - P) * s + 2 * Vec3.dot (C - A) (A - P) * t) +
      Vec3.dot (A - P) (A - P) := by
  simp only [bary, Vec3.dot, Vec3.add_x, Vec3.add_y, Vec3.add_z, Vec3.smul_x, Vec3.smul_y, Vec3.smul_z, Vec3.sub_x, Vec3.sub_y,
    Vec3.sub_z]
  ring

theorem sq_shift {v x δ : K} (h : |x| ≤ δ) : (v - x) * (v - x) ≤ v * v + (2 * |v| * δ + δ * δ) := by
  have i1 := (abs_le.1 (abs_mul_le (le_refl |v|) h)).1
  have i2 := (abs_le.1 (abs_mul_le h h)).2
  linarith

theorem dot_shift {P W Q : Vec3 K} {δ V : K} (hx : |Q.x - W.x| ≤ δ) (hy : |Q.y - W.y| ≤ δ) (hz : |Q.z - W.z| ≤ δ) (hV : oneNorm (P - W) ≤ V) :
    Vec3.dot (P - Q) (P - Q) ≤ Vec3.dot (P - W) (P - W) + (2 * V * δ + 3 * (δ * δ)) := by
  have δ0 : 0 ≤ δ := (abs_nonneg _).trans hx
  have key : ∀ {p q w : K}, |q - w| ≤ δ → (p - q) * (p - q) ≤ (p - w) * (p - w) + (2 * |p - w| * δ + δ * δ) := by
    intro p q w h
    have := sq_shift (v := p - w) h
    rwa [show p - w - (q - w) = p - q by ring] at this
  have g1 := key (p := P.x) hx
  have g2 := key (p := P.y) hy
  have g3 := key (p := P.z) hz
  have g4 := mul_le_mul_of_nonneg_right hV δ0
  unfold oneNorm at g4
  unfold Vec3.dot
  simp only [Vec3.sub_x, Vec3.sub_y, Vec3.sub_z] at g4 ⊢
  linarith

theorem bary_far {A B C P : Vec3 K} {s t : K} (hBC : oneNorm (B - A) + oneNorm (C - A) ≤ L) (hP : oneNorm (A - P) ≤ L) (sb : |s| ≤ 101 / 100)
    (tb : |t| ≤ 101 / 100) : oneNorm (P - bary A B C s t) ≤ 202 / 100 * L := by
  have coord : ∀ {π α β γ : K}, |π - ((1 - s - t) * α + s * β + t * γ)| ≤ |α - π| + (101 / 100 * |β - α| + 101 / 100 * |γ - α|) := by
    intro π α β γ
    rw [show π - ((1 - s - t) * α + s * β + t * γ) = -(α - π) + (-(s * (β - α)) + -(t * (γ - α))) by ring]
    exact abs_add_le' (abs_neg _).le (abs_add_le' ((abs_neg _).le.trans (abs_mul_le sb le_rfl)) ((abs_neg _).le.trans (abs_mul_le tb le_rfl)))
  have c1 := coord (π := P.x) (α := A.x) (β := B.x) (γ := C.x)
  have c2 := coord (π := P.y) (α := A.y) (β := B.y) (γ := C.y)
  have c3 := coord (π := P.z) (α := A.z) (β := B.z) (γ := C.z)
  have L0 : 0 ≤ L := (oneNorm_nonneg _).trans hP
  unfold oneNorm at hBC hP ⊢
  simp only [bary, Vec3.add_x, Vec3.add_y, Vec3.add_z, Vec3.smul_x, Vec3.smul_y, Vec3.smul_z, Vec3.sub_x, Vec3.sub_y, Vec3.sub_z] at hBC hP ⊢
  linarith

theorem best_sum {dq dw dr f f0 g g0 k E N X : K} (h5 : dq ≤ dw + X) (h3 : dw = f0 + k) (h4 : dr = g0 + k) (h1 : -(4 * E) ≤ f - f0)
    (h2 : g - g0 ≤ 4 * E) (hle : f ≤ g + 2 * (40 * N)) : dq - dr ≤ 80 * N + 8 * E + X := by linarith

/-- what the point is computed from -/
theorem closestPoint_core (hF : F.Rounds u η hi) (hodd : F.Odd) (h4 : Scale4 u η hi L) {v0 v1 v2 p : Vec3 (XF F)} {A B C P : Vec3 K}
    (h0 : IsV v0 A) (h1 : IsV v1 B) (h2 : IsV v2 C) (hp : IsV p P) (hBC : oneNorm (B - A) + oneNorm (C - A) ≤ L)
    (hP : oneNorm (A - P) ≤ L) (hA : oneNorm A ≤ L) (hnd : 100 * (u * L ^ 4) ≤ Vec3.dot (normalOf A B C) (normalOf A B C)) :
    ∃ a b c d e s t N Q, IsV (closestPointOnTriangle v0 v1 v2 p) Q ∧ 0 ≤ N ∧
      Vec3.dot (normalOf A B C) (normalOf A B C) * N = 63 * (u * L ^ 6) ∧
      Vec3.dot (normalOf A B C) (normalOf A B C) * (u * L ^ 2) ≤ u * L ^ 6 ∧
      (0 ≤ a ∧ 0 ≤ c ∧ b * b ≤ a * c) ∧ KKT (40 * N) a b c d e s t ∧ |s| + |t| ≤ 101 / 100 ∧
      (|a - Vec3.dot (B - A) (B - A)| ≤ 7 * (u * L ^ 2) ∧ |b - Vec3.dot (B - A) (C - A)| ≤ 7 * (u * L ^ 2) ∧
        |c - Vec3.dot (C - A) (C - A)| ≤ 7 * (u * L ^ 2) ∧ |d - Vec3.dot (B - A) (A - P)| ≤ 7 * (u * L ^ 2) ∧
        |e - Vec3.dot (C - A) (A - P)| ≤ 7 * (u * L ^ 2)) ∧
      |Q.x - (bary A B C s t).x| ≤ 12 * (u * L) ∧ |Q.y - (bary A B C s t).y| ≤ 12 * (u * L) ∧ |Q.z - (bary A B C s t).z| ≤ 12 * (u * L) := by
  obtain ⟨u0, u1, η0, ηu, ηL, ηLL, ηuLL, ηuL, L0, uL0, uLL0, uL1, uLL1, hi1, hiL, hiLL⟩ := h4.lin.sizes
  obtain ⟨-, -, -, -, -, ηMM, ηuMM, -, -, -, uMM0, -, uMM1, -, -, hiMM⟩ := h4.quad.sizes
  have eQ : (L ^ 2) ^ 2 = L ^ 4 := by ring
  rw [eQ] at ηMM ηuMM uMM0 uMM1 hiMM
  have nB := oneNorm_nonneg (B - A)
  have nC := oneNorm_nonneg (C - A)
  obtain ⟨w0, i0, j0⟩ := rnd_subv hF h4.lin h1 h0 ((by linarith : oneNorm (B - A) ≤ L))
  obtain ⟨w1, i1, j1⟩ := rnd_subv hF h4.lin h2 h0 ((by linarith : oneNorm (C - A) ≤ L))
  obtain ⟨wD, iD, jD⟩ := rnd_subv hF h4.lin h0 hp hP
  obtain ⟨a, a1, a2, a3, a4, a5⟩ := dot_diff_near hF h4 i0 i0 j0 j0
  obtain ⟨b, b1, b2, b3, b4, -⟩ := dot_diff_near hF h4 i0 i1 j0 j1
  obtain ⟨c, c1, c2, c3, c4, c5⟩ := dot_diff_near hF h4 i1 i1 j1 j1
  obtain ⟨d, d1, d2, d3, -⟩ := dot_diff_near hF h4 i0 iD j0 jD
  obtain ⟨e, e1, e2, e3, -⟩ := dot_diff_near hF h4 i1 iD j1 jD
  have a0 := a5 (mul_self_nonneg _) (mul_self_nonneg _) (mul_self_nonneg _)
  have c0 := c5 (mul_self_nonneg _) (mul_self_nonneg _) (mul_self_nonneg _)
  -- the determinant
  have q1 : |a * c| ≤ 121 / 100 * L ^ 4 := (abs_mul_le a2 c2).trans_eq (by ring)
  have q2 : |b * b| ≤ 121 / 100 * L ^ 4 := (abs_mul_le b2 b2).trans_eq (by ring)
  obtain ⟨δ, δ1, δ2⟩ := rnd_det2 hF.toGradual u0.le h4.lin.u_le η0 a1 c1 b1 b1 (add_le_add q1 q2) (by linarith)
  have n1 := prod_near a3 c3 a4 c2
  have n2 := prod_near b3 b3 b4 b2
  have en : 7 * (u * L ^ 2) * (11 / 10 * L ^ 2) + L ^ 2 * (7 * (u * L ^ 2)) = 147 / 10 * (u * L ^ 4) := by ring
  rw [en] at n1 n2
  have hdet : Vec3.dot (B - A) (B - A) * Vec3.dot (C - A) (C - A) - Vec3.dot (B - A) (C - A) * Vec3.dot (B - A) (C - A) =
      Vec3.dot (normalOf A B C) (normalOf A B C) := by
    simp only [normalOf, Vec3.cross, Vec3.dot, Vec3.sub_x, Vec3.sub_y, Vec3.sub_z]; ring
  obtain ⟨G, hG⟩ : ∃ G, G = Vec3.dot (normalOf A B C) (normalOf A B C) := ⟨_, rfl⟩
  rw [← hG] at hdet hnd ⊢
  have G0 : 0 < G := by linarith
  have G1 : G ≤ L ^ 4 := by
    have k1 := (le_abs_self _).trans (abs_mul_le a4 c4)
    have k2 := mul_self_nonneg (Vec3.dot (B - A) (C - A))
    have k3 : L ^ 2 * L ^ 2 = L ^ 4 := by ring
    linarith
  have n3 := mul_le_mul_of_nonneg_left (add_le_add q1 q2) u0.le
  have en3 : u * (121 / 100 * L ^ 4 + 121 / 100 * L ^ 4) = 242 / 100 * (u * L ^ 4) := by ring
  rw [en3] at n3
  have k2 := (abs_le.1 n1).1
  have k3 := (abs_le.1 n2).2
  have hD : 7 / 10 * G ≤ a * c - b * b := by linarith
  have δ3 : 50 * (u * L ^ 4) ≤ δ := by
    have k1 := (abs_le.1 δ2).1
    linarith
  have δ4 : δ ≤ 3 * L ^ 4 := by
    refine (le_abs_self δ).trans ((abs_le_of_near δ2 (abs_sub_le' q1 q2)).trans ?_)
    linarith
  obtain ⟨s, t, s1, t1, hst⟩ := closestST_near hF hodd h4 a1 b1 c1 d1 e1 a2 b2 c2 d2 e2 δ1 δ3 δ4
  -- optimality
  have uL6 : 0 < u * L ^ 6 := by positivity
  obtain ⟨N, hN⟩ : ∃ N, N = 63 * (u * L ^ 6) / G := ⟨_, rfl⟩
  have GN : G * N = 63 * (u * L ^ 6) := by rw [hN]; field_simp
  have N0 : 0 ≤ N := by rw [hN]; positivity
  have uG : G * (u * L ^ 2) ≤ u * L ^ 6 := by
    have := mul_le_mul_of_nonneg_right G1 uLL0.le
    have e : L ^ 4 * (u * L ^ 2) = u * L ^ 6 := by ring
    linarith
  have hQ : Quads u η hi L N (Vec3.dot (v1 - v0) (v1 - v0)) (Vec3.dot (v1 - v0) (v2 - v0)) (Vec3.dot (v2 - v0) (v2 - v0))
      (Vec3.dot (v1 - v0) (v0 - p)) (Vec3.dot (v2 - v0) (v0 - p)) a b c d e (b * e - c * d) (b * d - a * e) (a * c - b * b) := by
    refine ⟨a1, b1, c1, d1, e1, d2, e2, ⟨a0, c0, (le_abs_self _).trans a2, b2, (le_abs_self _).trans c2, rfl, rfl, rfl, by linarith,
      by linarith, ?_, ?_⟩, ?_⟩
    · have e : 11 / 10 * L ^ 2 * (36 * (u * L ^ 2)) = 396 / 10 * (u * L ^ 4) := by ring
      rw [e]; linarith
    · have e : 11 / 10 * L ^ 2 * (40 * (u * L ^ 4)) = 44 * (u * L ^ 6) := by ring
      have := mul_le_mul_of_nonneg_right hD N0
      rw [e]; linarith
    · exact le_of_mul_le_mul_left (by linarith : G * (u * L ^ 2) ≤ G * N) G0
  obtain ⟨s', t', s2, t2, hK⟩ := hQ.best hF h4 hodd (by linarith)
  obtain rfl : s' = s := s2.unique s1
  obtain rfl : t' = t := t2.unique t1
  have abst := hst.abs_sum (by linarith)
  have abst : |s'| + |t'| ≤ 101 / 100 := by linarith
  have sb : |s'| ≤ 101 / 100 := by have := abs_nonneg t'; linarith
  have tb : |t'| ≤ 101 / 100 := by have := abs_nonneg s'; linarith
  have supA := Sup.of_one hA
  have sup0 : Sup (B - A) L := .of_one (by linarith)
  have sup1 : Sup (C - A) L := .of_one (by linarith)
  have n0 := Sup.of_one (j0.one h4.lin)
  have n1' := Sup.of_one (j1.one h4.lin)
  obtain ⟨x, x1, x2⟩ := coord_near hF h4.lin h0.1 s1 t1 i0.1 i1.1 supA.x sb tb n0.x n1'.x sup0.x sup1.x
  obtain ⟨y, y1, y2⟩ := coord_near hF h4.lin h0.2.1 s1 t1 i0.2.1 i1.2.1 supA.y sb tb n0.y n1'.y sup0.y sup1.y
  obtain ⟨z, z1, z2⟩ := coord_near hF h4.lin h0.2.2 s1 t1 i0.2.2 i1.2.2 supA.z sb tb n0.z n1'.z sup0.z sup1.z
  have ebary : ∀ {α β γ : K}, α + s' * (β - α) + t' * (γ - α) = (1 - s' - t') * α + s' * β + t' * γ := by intros; ring
  simp only [Vec3.sub_x, Vec3.sub_y, Vec3.sub_z, ebary] at x2 y2 z2
  exact ⟨a, b, c, d, e, s', t', N, ⟨x, y, z⟩, ⟨x1, y1, z1⟩, N0, GN, uG, ⟨a0, c0, by linarith⟩, hK, abst, ⟨a3, b3, c3, d3, e3⟩, x2, y2, z2⟩

/-- no point of the triangle is clearly closer -/
theorem closestPoint_best (hF : F.Rounds u η hi) (hodd : F.Odd) (h4 : Scale4 u η hi L) {v0 v1 v2 p : Vec3 (XF F)} {A B C P : Vec3 K}
    (h0 : IsV v0 A) (h1 : IsV v1 B) (h2 : IsV v2 C) (hp : IsV p P) (hBC : oneNorm (B - A) + oneNorm (C - A) ≤ L)
    (hP : oneNorm (A - P) ≤ L) (hA : oneNorm A ≤ L) (hnd : 100 * (u * L ^ 4) ≤ Vec3.dot (normalOf A B C) (normalOf A B C)) :
    ∃ Q, IsV (closestPointOnTriangle v0 v1 v2 p) Q ∧ ∀ R, InTriangle A B C R →
      Vec3.dot (normalOf A B C) (normalOf A B C) * (Vec3.dot (P - Q) (P - Q) - Vec3.dot (P - R) (P - R)) ≤ 5200 * (u * L ^ 6) := by
  obtain ⟨u0, u1, η0, ηu, ηL, ηLL, ηuLL, ηuL, L0, uL0, uLL0, uL1, uLL1, hi1, hiL, hiLL⟩ := h4.lin.sizes
  obtain ⟨a, b, c, d, e, s, t, N, Q, hQ, N0, GN, uG, ⟨a0, c0, hdet⟩, hK, abst, ⟨a3, b3, c3, d3, e3⟩, x2, y2, z2⟩ :=
    closestPoint_core hF hodd h4 h0 h1 h2 hp hBC hP hA hnd
  have G0 : 0 ≤ Vec3.dot (normalOf A B C) (normalOf A B C) := le_trans (by positivity) hnd
  have sb : |s| ≤ 101 / 100 := by have := abs_nonneg t; linarith
  have tb : |t| ≤ 101 / 100 := by have := abs_nonneg s; linarith
  refine ⟨Q, hQ, ?_⟩
  rintro R ⟨r, q, r0, r1, r2, rfl⟩
  have hle := hK.le a0 c0 hdet (by linarith) r0 r1 r2
  have f1 := (abs_le.1 (form_near a3 b3 c3 d3 e3 abst)).1
  have f2 := (abs_le.1 (form_near a3 b3 c3 d3 e3 (by rw [abs_of_nonneg r0, abs_of_nonneg r1]; linarith : |r| + |q| ≤ 101 / 100))).2
  have f3 := dist_form A B C P s t
  have f4 := dist_form A B C P r q
  have f5 := dot_shift (P := P) x2 y2 z2 (bary_far hBC hP sb tb)
  have f7 := mul_le_mul_of_nonneg_left (best_sum f5 f3 f4 f1 f2 hle) G0
  refine f7.trans ?_
  clear f1 f2 f3 f4 f5 hle f7
  have e5 : 2 * (202 / 100 * L) * (12 * (u * L)) + 3 * (12 * (u * L) * (12 * (u * L))) = 4848 / 100 * (u * L ^ 2) + 432 * (u * (u * L ^ 2)) := by ring
  have g5 := mul_le_mul_of_nonneg_right u1 uLL0.le
  have g6 : 80 * N + 8 * (7 * (u * L ^ 2)) + (2 * (202 / 100 * L) * (12 * (u * L)) + 3 * (12 * (u * L) * (12 * (u * L)))) ≤
      80 * N + 106 * (u * L ^ 2) := by
    rw [e5]; linarith
  refine (mul_le_mul_of_nonneg_left g6 G0).trans ?_
  have uL6 : 0 < u * L ^ 6 := by positivity
  generalize Vec3.dot (normalOf A B C) (normalOf A B C) = G at GN uG ⊢
  have e6 : G * (80 * N + 106 * (u * L ^ 2)) = 80 * (G * N) + 106 * (G * (u * L ^ 2)) := by ring
  rw [e6, GN]
  linarith

end Blazert
