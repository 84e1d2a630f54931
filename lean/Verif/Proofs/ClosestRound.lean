/- `closest_point_on_triangle` with rounding. -/
import Verif.Proofs.TriRound
import Verif.Spec.ClosestRound
import Verif.Spec.TriRound

set_option autoImplicit false
set_option linter.unusedSectionVars false

namespace Blazert
open Scalar

variable {K : Type} [Field K] [LinearOrder K] [IsStrictOrderedRing K] [FloorRing K] {F : Fmt K} {u η hi L N : K}

/-- sums keep their sign -/
theorem grad_add_sign (hF : F.Gradual u η hi) (hodd : F.Odd) {x y : XF F} {a b : K} (hx : x.Is a) (hy : y.Is b) (hr : |a + b| ≤ hi) :
    ∃ r', (x + y).Is r' ∧ |r' - (a + b)| ≤ u * |a + b| + η ∧ (0 ≤ a + b → 0 ≤ r') ∧ (a + b ≤ 0 → r' ≤ 0) := by
  obtain ⟨r', h1, h2, h3, -⟩ := grad_add hF hx hy hr
  refine ⟨r', h1, h2, h3, fun h0 => ?_⟩
  obtain ⟨q, q1, -, q2⟩ := hF.post (-(a + b)) (by rwa [abs_neg])
  have q3 : F.post (a + b) = some (-q) := by
    have := hodd (-(a + b))
    rw [neg_neg, q1] at this
    exact this
  obtain ⟨s, rfl⟩ := hx
  obtain ⟨t, rfl⟩ := hy
  have h4 : ∀ b' : Bool, (XF.mk F b' (a + b)).Is (-q) := by
    intro b'
    unfold XF.mk
    rw [q3]
    exact ⟨_, rfl⟩
  have : r' = -q := h1.unique (h4 _)
  rw [this]
  linarith [q2 (by linarith)]

/-- barycentric coordinates of a point of the triangle, up to `ν` -/
structure NearBary (ν s t : K) : Prop where
  s0 : -ν ≤ s
  t0 : -ν ≤ t
  sum : s + t ≤ 1 + ν

theorem NearBary.clamp {ν s t : K} (h : NearBary ν s t) (hν : 0 ≤ ν) :
    ∃ s' t', 0 ≤ s' ∧ 0 ≤ t' ∧ s' + t' ≤ 1 ∧ |s - s'| ≤ 4 * ν ∧ |t - t'| ≤ 4 * ν := by
  obtain ⟨h1, h2, h3⟩ := h
  obtain ⟨a, ha⟩ : ∃ a, a = max s 0 := ⟨_, rfl⟩
  obtain ⟨b, hb⟩ : ∃ b, b = max t 0 := ⟨_, rfl⟩
  have a0 : 0 ≤ a := by rw [ha]; exact le_max_right _ _
  have a1 : s ≤ a := by rw [ha]; exact le_max_left _ _
  have a2 : a ≤ s + ν := by rw [ha]; exact max_le (by linarith) (by linarith)
  have b0 : 0 ≤ b := by rw [hb]; exact le_max_right _ _
  have b1 : t ≤ b := by rw [hb]; exact le_max_left _ _
  have b2 : b ≤ t + ν := by rw [hb]; exact max_le (by linarith) (by linarith)
  obtain ⟨m, hm⟩ : ∃ m, m = max 1 (a + b) := ⟨_, rfl⟩
  have m1 : 1 ≤ m := by rw [hm]; exact le_max_left _ _
  have m2 : a + b ≤ m := by rw [hm]; exact le_max_right _ _
  have m3 : m ≤ 1 + 3 * ν := by rw [hm]; exact max_le (by linarith) (by linarith)
  have m0 : 0 < m := by linarith
  have key : ∀ x, 0 ≤ x → x ≤ m → 0 ≤ x / m ∧ x / m ≤ x ∧ x - 3 * ν ≤ x / m := by
    intro x x0 x1
    refine ⟨div_nonneg x0 m0.le, div_le_self x0 m1, ?_⟩
    rw [le_div_iff₀ m0]
    have i1 : 0 ≤ 3 * ν * (m - x) := mul_nonneg (by linarith) (by linarith)
    have i2 : x * m ≤ x * (1 + 3 * ν) := mul_le_mul_of_nonneg_left m3 x0
    nlinarith
  obtain ⟨c1, c2, c3⟩ := key a a0 (by linarith)
  obtain ⟨d1, d2, d3⟩ := key b b0 (by linarith)
  refine ⟨a / m, b / m, c1, d1, ?_, ?_, ?_⟩
  · rw [← add_div, div_le_one m0]; exact m2
  · rw [abs_le]; constructor <;> linarith
  · rw [abs_le]; constructor <;> linarith

/-! ### The six outer regions -/

section
variable (hF : F.Rounds u η hi) (hs : Scale u η hi L)
include hF hs

/-- a quotient below 1 -/
theorem unit_quot {x y : XF F} {n q : K} (hx : x.Is n) (hy : y.Is q) (n0 : 0 ≤ n) (hlt : n < q) :
    ∃ r, (x / y).Is r ∧ 0 ≤ r ∧ r ≤ 1 + 2 * u := by
  obtain ⟨u0, u1, η0, ηu, -, -, -, -, -, -, -, -, -, hi1, -, -⟩ := hs.sizes
  have q0 : 0 < q := by linarith
  have h0 : 0 ≤ n / q := div_nonneg n0 q0.le
  have h1 : n / q ≤ 1 := by rw [div_le_one q0]; exact hlt.le
  obtain ⟨r, r1, r2, r3⟩ := rnd_div hF.toGradual u0.le hx hy q0.ne' (by rw [abs_of_nonneg h0]; exact h1) (by linarith : (1 : K) ≤ hi)
  have := (abs_le.1 r2).2
  exact ⟨r, r1, r3 h0, by linarith⟩

theorem clamp_quot {x y : XF F} {n q : K} (hx : x.Is n) (hy : y.Is q) (n0 : 0 ≤ n) :
    ∃ r, (if ge x y then nat 1 else x / y).Is r ∧ 0 ≤ r ∧ r ≤ 1 + 2 * u := by
  have u0 := hs.u_pos
  by_cases h : ge x y = true
  · rw [if_pos h]; exact ⟨1, hF.nat1, zero_le_one, by linarith⟩
  · rw [if_neg h]
    exact unit_quot hF hs hx hy n0 (not_le.1 fun hc => h ((XF.Is.ge hx hy).2 hc))

/-- the foot of the perpendicular on an edge -/
theorem edge_foot {x y : XF F} {e c : K} (hx : x.Is e) (hy : y.Is c) :
    ∃ r, (if ge x (nat 0) then nat 0 else if ge (-x) y then nat 1 else -x / y).Is r ∧ 0 ≤ r ∧ r ≤ 1 + 2 * u := by
  have u0 := hs.u_pos
  by_cases h : ge x (nat 0) = true
  · rw [if_pos h]; exact ⟨0, hF.nat0, le_rfl, by linarith⟩
  · rw [if_neg h]
    have : e < 0 := not_le.1 fun hc => h ((XF.Is.ge hx hF.nat0).2 hc)
    exact clamp_quot hF hs hx.neg hy (by linarith)

/-- the other coordinate on the third edge -/
theorem bary_rest {x : XF F} {r : K} (hx : x.Is r) (h0 : 0 ≤ r) (h1 : r ≤ 1 + 2 * u) :
    ∃ w, (nat 1 - x).Is w ∧ NearBary (16 * u) r w ∧ NearBary (16 * u) w r := by
  obtain ⟨u0, u1, η0, ηu, -, -, -, -, -, -, -, -, -, hi1, -, -⟩ := hs.sizes
  obtain ⟨w, w1, w2, -⟩ := rnd_sub hF.toGradual u0.le hF.nat1 hx (by rw [abs_le]; constructor <;> linarith : |1 - r| ≤ 1)
    (by linarith : (1 : K) ≤ hi)
  obtain ⟨w3, w4⟩ := abs_le.1 w2
  exact ⟨w, w1, ⟨by linarith, by linarith, by linarith⟩, ⟨by linarith, by linarith, by linarith⟩⟩

omit hF in
theorem bary_single {r : K} (h0 : 0 ≤ r) (h1 : r ≤ 1 + 2 * u) : NearBary (16 * u) r 0 ∧ NearBary (16 * u) 0 r := by
  have u0 := hs.u_pos
  exact ⟨⟨by linarith, by linarith, by linarith⟩, ⟨by linarith, by linarith, by linarith⟩⟩

omit hs in
theorem fin_add (hs : Scale u η hi L) {x y : XF F} {a b A B : K} (hx : x.Is a) (hy : y.Is b) (ha : |a| ≤ A) (hb : |b| ≤ B) (hAB : A + B ≤ hi) :
    ∃ r, (x + y).Is r ∧ |r| ≤ 101 / 100 * (A + B) + η := by
  obtain ⟨u0, u1, -⟩ := hs.sizes
  obtain ⟨r, r1, r2, -⟩ := rnd_add hF.toGradual u0.le hx hy (abs_add_le' ha hb) hAB
  have h0 : 0 ≤ A + B := by have := abs_nonneg a; have := abs_nonneg b; linarith
  have h1 := mul_le_mul_of_nonneg_right u1 h0
  refine ⟨r, r1, (abs_le_of_near r2 (abs_add_le' ha hb)).trans ?_⟩
  linarith

omit hs in
theorem fin_sub (hs : Scale u η hi L) {x y : XF F} {a b A B : K} (hx : x.Is a) (hy : y.Is b) (ha : |a| ≤ A) (hb : |b| ≤ B) (hAB : A + B ≤ hi) :
    ∃ r, (x - y).Is r ∧ |r| ≤ 101 / 100 * (A + B) + η := by
  obtain ⟨u0, u1, -⟩ := hs.sizes
  obtain ⟨r, r1, r2, -⟩ := rnd_sub hF.toGradual u0.le hx hy (abs_sub_le' ha hb) hAB
  have h0 : 0 ≤ A + B := by have := abs_nonneg a; have := abs_nonneg b; linarith
  have h1 := mul_le_mul_of_nonneg_right u1 h0
  refine ⟨r, r1, (abs_le_of_near r2 (abs_sub_le' ha hb)).trans ?_⟩
  linarith

/-- the squared length of the third edge is a number -/
theorem denom_is {xa xb xc : XF F} {a b c : K} (ha : xa.Is a) (hb : xb.Is b) (hc : xc.Is c) (a1 : |a| ≤ N) (b1 : |b| ≤ N) (c1 : |c| ≤ N)
    (hN : 8 * N ≤ hi) (hη : 100 * η ≤ N) : ∃ q, (xa - nat 2 * xb + xc).Is q := by
  obtain ⟨u0, u1, η0, -⟩ := hs.sizes
  have N0 : 0 ≤ N := (abs_nonneg _).trans a1
  obtain ⟨p, p1, p2, -⟩ := rnd_mul hF.toGradual u0.le hF.nat2 hb (by rw [abs_mul, abs_two]; linarith : |2 * b| ≤ 2 * N) (by linarith)
  have h1 : |2 * b| ≤ 2 * N := by rw [abs_mul, abs_two]; linarith
  have h2 := mul_le_mul_of_nonneg_right u1 (by linarith : 0 ≤ 2 * N)
  have p3 : |p| ≤ 21 / 10 * N := (abs_le_of_near p2 h1).trans (by linarith)
  obtain ⟨q, q1, q2⟩ := fin_sub hF hs ha p1 a1 p3 (by linarith)
  obtain ⟨r, r1, -⟩ := fin_add hF hs q1 hc q2 c1 (by linarith)
  exact ⟨r, r1⟩

variable {xa xb xc xd xe : XF F} {a b c d e : K} (ha : xa.Is a) (hb : xb.Is b) (hc : xc.Is c) (hd : xd.Is d) (he : xe.Is e)
  (a1 : |a| ≤ N) (b1 : |b| ≤ N) (c1 : |c| ≤ N) (d1 : |d| ≤ N) (e1 : |e| ≤ N) (hN : 8 * N ≤ hi) (hη : 100 * η ≤ N)
include ha hb hc hd he a1 b1 c1 d1 e1 hN hη

theorem r1_near : ∃ s t, (r1 xa xb xc xd xe).1.Is s ∧ (r1 xa xb xc xd xe).2.Is t ∧ NearBary (16 * u) s t := by
  obtain ⟨u0, u1, η0, -⟩ := hs.sizes
  have N0 : 0 ≤ N := (abs_nonneg _).trans a1
  obtain ⟨p, p1, p2⟩ := fin_add hF hs hc he c1 e1 (by linarith)
  obtain ⟨q, q1, q2⟩ := fin_sub hF hs p1 hb p2 b1 (by linarith)
  obtain ⟨n, n1, n2⟩ := fin_sub hF hs q1 hd q2 d1 (by linarith)
  obtain ⟨m, m1⟩ := denom_is hF hs ha hb hc a1 b1 c1 hN hη
  have key : ∃ s, (r1 xa xb xc xd xe).1.Is s ∧ 0 ≤ s ∧ s ≤ 1 + 2 * u := by
    unfold r1
    simp only
    by_cases h : le (xc + xe - xb - xd) (nat 0) = true
    · rw [if_pos h]; exact ⟨0, hF.nat0, le_rfl, by linarith⟩
    · rw [if_neg h]
      have n0 : 0 < n := not_le.1 fun hc => h ((XF.Is.le n1 hF.nat0).2 hc)
      exact clamp_quot hF hs n1 m1 n0.le
  obtain ⟨s, s1, s2, s3⟩ := key
  obtain ⟨t, t1, t2, -⟩ := bary_rest hF hs s1 s2 s3
  exact ⟨s, t, s1, t1, t2⟩

theorem r2_near (hodd : F.Odd) : ∃ s t, (r2 xa xb xc xd xe).1.Is s ∧ (r2 xa xb xc xd xe).2.Is t ∧ NearBary (16 * u) s t := by
  obtain ⟨u0, u1, η0, -⟩ := hs.sizes
  have N0 : 0 ≤ N := (abs_nonneg _).trans a1
  obtain ⟨p, p1, p2⟩ := fin_add hF hs hb hd b1 d1 (by linarith)
  obtain ⟨q, q1, q2⟩ := fin_add hF hs hc he c1 e1 (by linarith)
  obtain ⟨m, m1⟩ := denom_is hF hs ha hb hc a1 b1 c1 hN hη
  unfold r2
  simp only
  by_cases h : gt (xc + xe) (xb + xd) = true
  · rw [if_pos h]
    have hlt := (XF.Is.gt q1 p1).1 h
    obtain ⟨n, n1, -, n2⟩ := rnd_sub hF.toGradual u0.le q1 p1 (abs_sub_le' q2 p2) (by linarith)
    obtain ⟨s, s1, s2, s3⟩ := clamp_quot hF hs n1 m1 (n2 (by linarith))
    obtain ⟨t, t1, t2, -⟩ := bary_rest hF hs s1 s2 s3
    exact ⟨s, t, s1, t1, t2⟩
  · rw [if_neg h]
    by_cases h1 : le (xc + xe) (nat 0) = true
    · rw [if_pos h1]
      exact ⟨0, 1, hF.nat0, hF.nat1, (bary_single hs zero_le_one (by linarith)).2⟩
    · rw [if_neg h1]
      by_cases h2 : ge xe (nat 0) = true
      · rw [if_pos h2]
        exact ⟨0, 0, hF.nat0, hF.nat0, (bary_single hs le_rfl (by linarith)).2⟩
      · rw [if_neg h2]
        have e0 : e < 0 := not_le.1 fun hc => h2 ((XF.Is.ge he hF.nat0).2 hc)
        have hq : 0 < q := not_le.1 fun hc => h1 ((XF.Is.le q1 hF.nat0).2 hc)
        obtain ⟨q', q3, -, -, q4⟩ := grad_add_sign hF.toGradual hodd hc he ((abs_add_le' c1 e1).trans (by linarith))
        have hqq : q' = q := q3.unique q1
        have hce : 0 < c + e := not_le.1 fun hc => by have := q4 hc; linarith
        obtain ⟨t, t1, t2, t3⟩ := unit_quot hF hs he.neg hc (by linarith) (by linarith)
        exact ⟨0, t, hF.nat0, t1, (bary_single hs t2 t3).2⟩

theorem r6_near (hodd : F.Odd) : ∃ s t, (r6 xa xb xc xd xe).1.Is s ∧ (r6 xa xb xc xd xe).2.Is t ∧ NearBary (16 * u) s t := by
  obtain ⟨u0, u1, η0, -⟩ := hs.sizes
  have N0 : 0 ≤ N := (abs_nonneg _).trans a1
  obtain ⟨p, p1, p2⟩ := fin_add hF hs hb he b1 e1 (by linarith)
  obtain ⟨q, q1, q2⟩ := fin_add hF hs ha hd a1 d1 (by linarith)
  obtain ⟨m, m1⟩ := denom_is hF hs ha hb hc a1 b1 c1 hN hη
  unfold r6
  simp only
  by_cases h : gt (xa + xd) (xb + xe) = true
  · rw [if_pos h]
    have hlt := (XF.Is.gt q1 p1).1 h
    obtain ⟨n, n1, -, n2⟩ := rnd_sub hF.toGradual u0.le q1 p1 (abs_sub_le' q2 p2) (by linarith)
    obtain ⟨s, s1, s2, s3⟩ := clamp_quot hF hs n1 m1 (n2 (by linarith))
    obtain ⟨t, t1, -, t2⟩ := bary_rest hF hs s1 s2 s3
    exact ⟨t, s, t1, s1, t2⟩
  · rw [if_neg h]
    by_cases h1 : le (xa + xd) (nat 0) = true
    · rw [if_pos h1]
      exact ⟨1, 0, hF.nat1, hF.nat0, (bary_single hs zero_le_one (by linarith)).1⟩
    · rw [if_neg h1]
      by_cases h2 : ge xd (nat 0) = true
      · rw [if_pos h2]
        exact ⟨0, 0, hF.nat0, hF.nat0, (bary_single hs le_rfl (by linarith)).2⟩
      · rw [if_neg h2]
        have e0 : d < 0 := not_le.1 fun hc => h2 ((XF.Is.ge hd hF.nat0).2 hc)
        have hq : 0 < q := not_le.1 fun hc => h1 ((XF.Is.le q1 hF.nat0).2 hc)
        obtain ⟨q', q3, -, -, q4⟩ := grad_add_sign hF.toGradual hodd ha hd ((abs_add_le' a1 d1).trans (by linarith))
        have hqq : q' = q := q3.unique q1
        have hce : 0 < a + d := not_le.1 fun hc => by have := q4 hc; linarith
        obtain ⟨t, t1, t2, t3⟩ := unit_quot hF hs hd.neg ha (by linarith) (by linarith)
        exact ⟨t, 0, t1, hF.nat0, (bary_single hs t2 t3).1⟩

end

section
variable (hF : F.Rounds u η hi) (hs : Scale u η hi L) {xa xc xd xe : XF F} {a c d e : K}
include hF hs

theorem r3_near (hc : xc.Is c) (he : xe.Is e) : ∃ s t, (r3 xc xe).1.Is s ∧ (r3 xc xe).2.Is t ∧ NearBary (16 * u) s t := by
  obtain ⟨t, t1, t2, t3⟩ := edge_foot hF hs he hc
  exact ⟨0, t, hF.nat0, t1, (bary_single hs t2 t3).2⟩

theorem r5_near (ha : xa.Is a) (hd : xd.Is d) : ∃ s t, (r5 xa xd).1.Is s ∧ (r5 xa xd).2.Is t ∧ NearBary (16 * u) s t := by
  obtain ⟨t, t1, t2, t3⟩ := edge_foot hF hs hd ha
  exact ⟨t, 0, t1, hF.nat0, (bary_single hs t2 t3).1⟩

theorem r4_near (ha : xa.Is a) (hc : xc.Is c) (hd : xd.Is d) (he : xe.Is e) :
    ∃ s t, (r4 xa xc xd xe).1.Is s ∧ (r4 xa xc xd xe).2.Is t ∧ NearBary (16 * u) s t := by
  unfold r4
  by_cases h : lt xd (nat 0) = true
  · rw [if_pos h]
    have := (XF.Is.lt hd hF.nat0).1 h
    obtain ⟨t, t1, t2, t3⟩ := clamp_quot hF hs hd.neg ha (by linarith)
    exact ⟨t, 0, t1, hF.nat0, (bary_single hs t2 t3).1⟩
  · rw [if_neg h]
    exact r3_near hF hs hc he

end

/-! ### The interior -/

theorem r0_near (hF : F.Rounds u η hi) {Q : K} (u0 : 0 < u) (u1 : u ≤ 1 / 2 ^ 20) (η0 : 0 ≤ η) (hi1 : 64 ≤ hi) (hη1 : η ≤ u ^ 2)
    (Q0 : 0 < Q) (hηQ : η ≤ u ^ 2 * Q) (hinv : η * Q ≤ u ^ 2) (hhi : 1 ≤ u * Q * hi) (hQ : 8 * Q ≤ hi)
    {x y w : XF F} {s t δ σ : K} (hx : x.Is s) (hy : y.Is t) (hw : w.Is δ) (s0 : 0 ≤ s) (t0 : 0 ≤ t) (s1 : s ≤ 3 * Q) (t1 : t ≤ 3 * Q)
    (hσ : (x + y).Is σ) (hle : σ ≤ δ) (hδ : 50 * (u * Q) ≤ δ) (hδ1 : δ ≤ 3 * Q) :
    ∃ s' t', (r0 x y w).1.Is s' ∧ (r0 x y w).2.Is t' ∧ NearBary (16 * u) s' t' ∧ |δ * s' - s| ≤ 10 * (u * Q) ∧
      |δ * t' - t| ≤ 10 * (u * Q) := by
  have uQ0 : 0 < u * Q := mul_pos u0 Q0
  have δ0 : 0 < δ := by linarith
  -- the inverse
  have hd0 : 0 ≤ 1 / δ := by positivity
  have hd1 : 1 / δ ≤ hi := by
    rw [div_le_iff₀ δ0]
    have h2 : u * Q * hi ≤ δ * hi := mul_le_mul_of_nonneg_right (by linarith) (by linarith)
    linarith
  obtain ⟨v, v1, v2, v3⟩ := rnd_div hF.toGradual u0.le hF.nat1 hw δ0.ne' (le_refl |1 / δ|) (by rw [abs_of_nonneg hd0]; exact hd1)
  have v0 := v3 hd0
  rw [abs_of_nonneg hd0] at v2
  have v4 : v * δ ≤ 1 + 2 * u := by
    have h1 := (abs_le.1 v2).2
    have h2 : v ≤ 1 / δ + (u * (1 / δ) + η) := by linarith
    have h3 := mul_le_mul_of_nonneg_right h2 δ0.le
    have h4 : (1 / δ + (u * (1 / δ) + η)) * δ = 1 + u + η * δ := by field_simp; ring
    have h5 : η * δ ≤ η * (3 * Q) := mul_le_mul_of_nonneg_left hδ1 η0
    have h6 : u ^ 2 ≤ u * (1 / 2 ^ 20) := by rw [pow_two]; exact mul_le_mul_of_nonneg_left u1 u0.le
    linarith
  -- the sum of the numerators
  have hS0 : 0 ≤ s + t := by linarith
  obtain ⟨σ', e1, e2, -⟩ := grad_add hF.toGradual hx hy (by rw [abs_of_nonneg hS0]; linarith)
  have : σ' = σ := e1.unique hσ
  subst this
  rw [abs_of_nonneg hS0] at e2
  have hS : s + t ≤ δ * (1 + 2 * u) := by
    have h1 := (abs_le.1 e2).1
    have h2 : (s + t) * (1 - u) ≤ δ + u ^ 2 * Q := by linarith
    have h3 : u ^ 2 * Q ≤ u * δ / 50 := by
      have : u * (50 * (u * Q)) ≤ u * δ := mul_le_mul_of_nonneg_left hδ u0.le
      have e : u * (50 * (u * Q)) = 50 * (u ^ 2 * Q) := by ring
      linarith
    have h4 : (s + t) * (1 - u) ≤ δ * (1 + 2 * u) * (1 - u) := by
      have e : δ * (1 + 2 * u) * (1 - u) = δ + u * δ - 2 * (u * δ) * u := by ring
      have uδ : 0 ≤ u * δ := mul_nonneg u0.le δ0.le
      have h5 : 2 * (u * δ) * u ≤ 2 * (u * δ) * (1 / 2 ^ 20) := mul_le_mul_of_nonneg_left u1 (by linarith)
      rw [e]; linarith
    exact le_of_mul_le_mul_right h4 (by linarith)
  have hSv : (s + t) * v ≤ 1 + 5 * u := by
    have h1 : (s + t) * v ≤ δ * (1 + 2 * u) * v := mul_le_mul_of_nonneg_right hS v0
    have h2 : δ * (1 + 2 * u) * v = (1 + 2 * u) * (v * δ) := by ring
    have h3 : (1 + 2 * u) * (v * δ) ≤ (1 + 2 * u) * (1 + 2 * u) := mul_le_mul_of_nonneg_left v4 (by linarith)
    have h6 : u * u ≤ u * (1 / 2 ^ 20) := mul_le_mul_of_nonneg_left u1 u0.le
    nlinarith
  have hsv : 0 ≤ s * v := mul_nonneg s0 v0
  have htv : 0 ≤ t * v := mul_nonneg t0 v0
  have hsum : (s + t) * v = s * v + t * v := by ring
  obtain ⟨p, p1, p2, p3, -⟩ := grad_mul hF.toGradual hx v1 (by rw [abs_of_nonneg hsv]; linarith)
  obtain ⟨q, q1, q2, q3, -⟩ := grad_mul hF.toGradual hy v1 (by rw [abs_of_nonneg htv]; linarith)
  rw [abs_of_nonneg hsv] at p2
  rw [abs_of_nonneg htv] at q2
  have v5 : |v * δ - 1| ≤ 2 * u := by
    have h1 := mul_le_mul_of_nonneg_right (by have := (abs_le.1 v2).1; linarith : 1 / δ - (u * (1 / δ) + η) ≤ v) δ0.le
    have h4 : (1 / δ - (u * (1 / δ) + η)) * δ = 1 - u - η * δ := by field_simp; ring
    have h5 : η * δ ≤ η * (3 * Q) := mul_le_mul_of_nonneg_left hδ1 η0
    have h6 : u ^ 2 ≤ u * (1 / 2 ^ 20) := by rw [pow_two]; exact mul_le_mul_of_nonneg_left u1 u0.le
    rw [abs_le]
    constructor <;> linarith
  have back : ∀ {x y : K}, 0 ≤ x → x ≤ 3 * Q → |y - x * v| ≤ u * (x * v) + η → |δ * y - x| ≤ 10 * (u * Q) := by
    intro x y x0 x1 hy
    rw [show δ * y - x = δ * (y - x * v) + x * (v * δ - 1) by ring]
    refine (abs_add_le' (abs_mul_le (by rw [abs_of_pos δ0] : |δ| ≤ δ) hy) (abs_mul_le (by rw [abs_of_nonneg x0]; exact x1 : |x| ≤ 3 * Q) v5)).trans ?_
    have e1 : δ * (u * (x * v) + η) = u * (x * (v * δ)) + η * δ := by ring
    have i1 : x * (v * δ) ≤ 3 * Q * (1 + 2 * u) := mul_le_mul x1 v4 (mul_nonneg v0 δ0.le) (by linarith)
    have i2 := mul_le_mul_of_nonneg_left i1 u0.le
    have e2 : u * (3 * Q * (1 + 2 * u)) = 3 * (u * Q) + 6 * (u * (u * Q)) := by ring
    have i3 := mul_le_mul_of_nonneg_right u1 uQ0.le
    have i4 : η * δ ≤ u ^ 2 * (3 * Q) := mul_le_mul hη1 hδ1 δ0.le (by positivity)
    have e4 : u ^ 2 * (3 * Q) = 3 * (u * (u * Q)) := by ring
    have e5 : 3 * Q * (2 * u) = 6 * (u * Q) := by ring
    rw [e1, e5]
    linarith
  refine ⟨p, q, p1, q1, ⟨by linarith [p3 hsv], by linarith [q3 htv], ?_⟩, back s0 s1 p2, back t0 t1 q2⟩
  have h1 := (abs_le.1 p2).2
  have h2 := (abs_le.1 q2).2
  have h3 : u * (s * v) + u * (t * v) ≤ u * 2 := by
    rw [← mul_add, ← hsum]
    exact mul_le_mul_of_nonneg_left (by linarith) u0.le
  have h6 : u ^ 2 ≤ u * (1 / 2 ^ 20) := by rw [pow_two]; exact mul_le_mul_of_nonneg_left u1 u0.le
  linarith

/-- all regions -/
theorem closestST_near (hF : F.Rounds u η hi) (hodd : F.Odd) (h4 : Scale4 u η hi L)
    {xa xb xc xd xe : XF F} {a b c d e δ : K} (ha : xa.Is a) (hb : xb.Is b) (hc : xc.Is c) (hd : xd.Is d) (he : xe.Is e)
    (a1 : |a| ≤ 11 / 10 * L ^ 2) (b1 : |b| ≤ 11 / 10 * L ^ 2) (c1 : |c| ≤ 11 / 10 * L ^ 2) (d1 : |d| ≤ 11 / 10 * L ^ 2)
    (e1 : |e| ≤ 11 / 10 * L ^ 2) (hdet : (xa * xc - xb * xb).Is δ) (hδ : 50 * (u * L ^ 4) ≤ δ) (hδ1 : δ ≤ 3 * L ^ 4) :
    ∃ s t, (closestST xa xb xc xd xe).1.Is s ∧ (closestST xa xb xc xd xe).2.Is t ∧ NearBary (16 * u) s t := by
  obtain ⟨u0, u1, η0, ηu, ηM, ηMM, ηuMM, ηuM, M0, uM0, uMM0, uM1, uMM1, hi1, hiM, hiMM⟩ := h4.quad.sizes
  have eQ : (L ^ 2) ^ 2 = L ^ 4 := by ring
  rw [eQ] at ηMM ηuMM uMM0 uMM1 hiMM
  have Q0 : 0 < L ^ 4 := by rw [← eQ]; positivity
  have hη : 100 * η ≤ 11 / 10 * L ^ 2 := by linarith
  have hN : 8 * (11 / 10 * L ^ 2) ≤ hi := by linarith
  have prod : ∀ {x y : K}, |x| ≤ 11 / 10 * L ^ 2 → |y| ≤ 11 / 10 * L ^ 2 → |x * y| ≤ 121 / 100 * L ^ 4 := by
    intro x y hx hy
    exact (abs_mul_le hx hy).trans_eq (by ring)
  have det2 : ∀ {x y z w : XF F} {p q r k : K}, x.Is p → y.Is q → z.Is r → w.Is k → |p| ≤ 11 / 10 * L ^ 2 → |q| ≤ 11 / 10 * L ^ 2 →
      |r| ≤ 11 / 10 * L ^ 2 → |k| ≤ 11 / 10 * L ^ 2 → ∃ v, (x * y - z * w).Is v ∧ |v| ≤ 3 * L ^ 4 := by
    intro x y z w p q r k hx hy hz hw p1 q1 r1 k1
    have i1 := prod p1 q1
    have i2 := prod r1 k1
    obtain ⟨v, v1, v2⟩ := rnd_det2 hF.toGradual u0.le h4.lin.u_le η0 hx hy hz hw (add_le_add i1 i2) (by linarith)
    refine ⟨v, v1, (abs_le_of_near v2 (abs_sub_le' i1 i2)).trans ?_⟩
    have i3 : u * (|p * q| + |r * k|) ≤ 1 / 2 ^ 20 * (121 / 100 * L ^ 4 + 121 / 100 * L ^ 4) :=
      mul_le_mul u1 (add_le_add i1 i2) (by positivity) (by norm_num)
    linarith
  obtain ⟨s, s1, s2⟩ := det2 hb he hc hd b1 e1 c1 d1
  obtain ⟨t, t1, t2⟩ := det2 hb hd ha he b1 d1 a1 e1
  obtain ⟨σ, σ1, -⟩ := fin_add hF h4.lin s1 t1 s2 t2 (by linarith)
  unfold closestST
  simp only
  by_cases g0 : le (xb * xe - xc * xd + (xb * xd - xa * xe)) (xa * xc - xb * xb) = true
  · rw [if_pos g0]
    by_cases g1 : lt (xb * xe - xc * xd) (nat 0) = true
    · rw [if_pos g1]
      by_cases g2 : lt (xb * xd - xa * xe) (nat 0) = true
      · rw [if_pos g2]; exact r4_near hF h4.lin ha hc hd he
      · rw [if_neg g2]; exact r3_near hF h4.lin hc he
    · rw [if_neg g1]
      by_cases g2 : lt (xb * xd - xa * xe) (nat 0) = true
      · rw [if_pos g2]; exact r5_near hF h4.lin ha hd
      · rw [if_neg g2]
        have s0 : 0 ≤ s := not_lt.1 fun h => g1 ((XF.Is.lt s1 hF.nat0).2 h)
        have t0 : 0 ≤ t := not_lt.1 fun h => g2 ((XF.Is.lt t1 hF.nat0).2 h)
        obtain ⟨x, y, i1, i2, i3, -⟩ := r0_near hF u0 u1 η0 hi1 h4.lin.η_le Q0 ηuMM h4.η_inv h4.inv_le (by linarith) s1 t1 hdet s0 t0 ((le_abs_self _).trans s2)
          ((le_abs_self _).trans t2) σ1 ((XF.Is.le σ1 hdet).1 g0) hδ hδ1
        exact ⟨x, y, i1, i2, i3⟩
  · rw [if_neg g0]
    by_cases g1 : lt (xb * xe - xc * xd) (nat 0) = true
    · rw [if_pos g1]; exact r2_near hF h4.lin ha hb hc hd he a1 b1 c1 d1 e1 hN hη hodd
    · rw [if_neg g1]
      by_cases g2 : lt (xb * xd - xa * xe) (nat 0) = true
      · rw [if_pos g2]; exact r6_near hF h4.lin ha hb hc hd he a1 b1 c1 d1 e1 hN hη hodd
      · rw [if_neg g2]; exact r1_near hF h4.lin ha hb hc hd he a1 b1 c1 d1 e1 hN hη

/-! ### The point -/

theorem NearV.one (hs : Scale u η hi L) {w v : Vec3 K} (h : NearV u η L w v) : oneNorm (w - v) ≤ 101 / 100 * (u * L) := by
  obtain ⟨u0, u1, η0, ηu, ηL, ηLL, ηuLL, ηuL, L0, uL0, uLL0, uL1, uLL1, hi1, hiL, hiLL⟩ := hs.sizes
  obtain ⟨h1, h2, h3, h4⟩ := h
  have h5 := mul_le_mul_of_nonneg_left h4 u0.le
  unfold oneNorm
  simp only [Vec3.sub_x, Vec3.sub_y, Vec3.sub_z]
  linarith

/-- the scalar products of two rounded differences -/
theorem dot_diff_near (hF : F.Rounds u η hi) (h4 : Scale4 u η hi L) {x y : Vec3 (XF F)} {w v w' v' : Vec3 K} (hx : IsV x w)
    (hy : IsV y w') (h : NearV u η L w v) (h' : NearV u η L w' v') :
    ∃ r, (Vec3.dot x y).Is r ∧ |r| ≤ 11 / 10 * L ^ 2 ∧ |r - Vec3.dot v v'| ≤ 7 * (u * L ^ 2) ∧ |Vec3.dot v v'| ≤ L ^ 2 ∧
      (0 ≤ w.x * w'.x → 0 ≤ w.y * w'.y → 0 ≤ w.z * w'.z → 0 ≤ r) := by
  obtain ⟨u0, u1, η0, ηu, ηL, ηLL, ηuLL, ηuL, L0, uL0, uLL0, uL1, uLL1, hi1, hiL, hiLL⟩ := h4.lin.sizes
  have k1 := h.one h4.lin
  have k2 := h'.one h4.lin
  have s1 : oneNorm v ≤ L := h.size
  have s2 : oneNorm v' ≤ L := h'.size
  have w1 : oneNorm w ≤ 101 / 100 * L := (oneNorm_near k1 s1).trans (by linarith)
  have w2 : oneNorm w' ≤ 101 / 100 * L := (oneNorm_near k2 s2).trans (by linarith)
  have b0 : |Vec3.dot v v'| ≤ L ^ 2 := (abs_dot_le s1 (.of_one s2)).trans_eq (by ring)
  have b1 : |w.x * w'.x| + |w.y * w'.y| + |w.z * w'.z| ≤ 103 / 100 * L ^ 2 := by
    refine (dot_sum_le w1 (.of_one w2)).trans ?_
    have := sq_nonneg L
    nlinarith
  obtain ⟨r, r1, r2, r3⟩ := rnd_dot hF.toGradual u0.le (by linarith) η0 hx hy b1 (by linarith)
  have n1 := dot_near k1 s1 (.of_one k2) (.of_one s2)
  have n2 : 101 / 100 * (u * L) * (L + 101 / 100 * (u * L)) + L * (101 / 100 * (u * L)) ≤ 204 / 100 * (u * L ^ 2) := by
    have e : 101 / 100 * (u * L) * (L + 101 / 100 * (u * L)) + L * (101 / 100 * (u * L)) =
        202 / 100 * (u * L ^ 2) + 101 / 100 * (101 / 100) * (u * (u * L ^ 2)) := by ring
    have i := mul_le_mul_of_nonneg_right u1 uLL0.le
    rw [e]; linarith
  have e4 : 4 * u * (103 / 100 * L ^ 2) = 412 / 100 * (u * L ^ 2) := by ring
  have n3 : |r - Vec3.dot v v'| ≤ 7 * (u * L ^ 2) := by
    refine (abs_near_trans r2 n1).trans ?_
    rw [e4]; linarith
  exact ⟨r, r1, (abs_le_of_near n3 b0).trans (by linarith), n3, b0, r3⟩

theorem prod_near {x x0 y y0 E M M' : K} (h1 : |x - x0| ≤ E) (h2 : |y - y0| ≤ E) (h3 : |x0| ≤ M) (h4 : |y| ≤ M') :
    |x * y - x0 * y0| ≤ E * M' + M * E := by
  rw [show x * y - x0 * y0 = (x - x0) * y + x0 * (y - y0) by ring]
  exact abs_add_le' (abs_mul_le h1 h4) (abs_mul_le h3 h2)

/-- one coordinate -/
theorem coord_near (hF : F.Rounds u η hi) (hs : Scale u η hi L) {x y z p q : XF F} {a s t v v' w w' : K} (hx : x.Is a) (hp : p.Is s)
    (hq : q.Is t) (hy : y.Is w) (hz : z.Is w') (ha : |a| ≤ L) (hs1 : |s| ≤ 101 / 100) (ht1 : |t| ≤ 101 / 100)
    (hw : |w - v| ≤ 101 / 100 * (u * L)) (hw' : |w' - v'| ≤ 101 / 100 * (u * L)) (hv : |v| ≤ L) (hv' : |v'| ≤ L) :
    ∃ r, (x + p * y + q * z).Is r ∧ |r - (a + s * v + t * v')| ≤ 12 * (u * L) := by
  obtain ⟨u0, u1, η0, ηu, ηL, ηLL, ηuLL, ηuL, L0, uL0, uLL0, uL1, uLL1, hi1, hiL, hiLL⟩ := hs.sizes
  have w1 : |w| ≤ 101 / 100 * L := (abs_le_of_near hw hv).trans (by linarith)
  have w2 : |w'| ≤ 101 / 100 * L := (abs_le_of_near hw' hv').trans (by linarith)
  have p1 : |s * w| ≤ 103 / 100 * L := (abs_mul_le hs1 w1).trans (by linarith)
  have p2 : |t * w'| ≤ 103 / 100 * L := (abs_mul_le ht1 w2).trans (by linarith)
  have scale : ∀ c : K, u * (c * L) = c * (u * L) := fun c => by ring
  obtain ⟨m, m1, m2, -⟩ := rnd_mul hF.toGradual u0.le hp hy p1 (by linarith)
  obtain ⟨n, n1, n2, -⟩ := rnd_mul hF.toGradual u0.le hq hz p2 (by linarith)
  rw [scale] at m2 n2
  have m3 : |m| ≤ 105 / 100 * L := (abs_le_of_near m2 p1).trans (by linarith)
  have n3 : |n| ≤ 105 / 100 * L := (abs_le_of_near n2 p2).trans (by linarith)
  have g1 : |a + m| ≤ 21 / 10 * L := (abs_add_le' ha m3).trans (by linarith)
  obtain ⟨k, k1, k2, -⟩ := rnd_add hF.toGradual u0.le hx m1 g1 (by linarith)
  rw [scale] at k2
  have k3 : |k| ≤ 22 / 10 * L := (abs_le_of_near k2 g1).trans (by linarith)
  obtain ⟨r, r1, r2, -⟩ := rnd_add hF.toGradual u0.le k1 n1 ((abs_add_le' k3 n3).trans (by linarith : 22 / 10 * L + 105 / 100 * L ≤ 33 / 10 * L))
    (by linarith)
  rw [scale] at r2
  have e1 : |s * (w - v)| ≤ 103 / 100 * (u * L) := (abs_mul_le hs1 hw).trans (by linarith)
  have e2 : |t * (w' - v')| ≤ 103 / 100 * (u * L) := (abs_mul_le ht1 hw').trans (by linarith)
  refine ⟨r, r1, ?_⟩
  rw [show r - (a + s * v + t * v') = (r - (k + n)) + (k - (a + m)) + (m - s * w) + (n - t * w') + s * (w - v) + t * (w' - v') by ring]
  refine (abs_add_le' (abs_add_le' (abs_add_le' (abs_add_le' (abs_add_le' r2 k2) m2) n2) e1) e2).trans ?_
  linarith

/-- the computed point is near a point of the triangle -/
theorem closestPoint_near (hF : F.Rounds u η hi) (hodd : F.Odd) (h4 : Scale4 u η hi L) {v0 v1 v2 p : Vec3 (XF F)} {A B C P : Vec3 K}
    (h0 : IsV v0 A) (h1 : IsV v1 B) (h2 : IsV v2 C) (hp : IsV p P) (hBC : oneNorm (B - A) + oneNorm (C - A) ≤ L)
    (hP : oneNorm (A - P) ≤ L) (hA : oneNorm A ≤ L) (hnd : 100 * (u * L ^ 4) ≤ Vec3.dot (normalOf A B C) (normalOf A B C)) :
    ∃ Q Y, IsV (closestPointOnTriangle v0 v1 v2 p) Q ∧ InTriangle A B C Y ∧ ∀ k, |Q.get k - Y.get k| ≤ 80 * (u * L) := by
  obtain ⟨u0, u1, η0, ηu, ηL, ηLL, ηuLL, ηuL, L0, uL0, uLL0, uL1, uLL1, hi1, hiL, hiLL⟩ := h4.lin.sizes
  obtain ⟨-, -, -, -, -, ηMM, ηuMM, -, -, -, uMM0, -, uMM1, -, -, hiMM⟩ := h4.quad.sizes
  have eQ : (L ^ 2) ^ 2 = L ^ 4 := by ring
  rw [eQ] at ηMM ηuMM uMM0 uMM1 hiMM
  have nB := oneNorm_nonneg (B - A)
  have nC := oneNorm_nonneg (C - A)
  obtain ⟨w0, i0, j0⟩ := rnd_subv hF h4.lin h1 h0 ((by linarith : oneNorm (B - A) ≤ L))
  obtain ⟨w1, i1, j1⟩ := rnd_subv hF h4.lin h2 h0 ((by linarith : oneNorm (C - A) ≤ L))
  obtain ⟨wD, iD, jD⟩ := rnd_subv hF h4.lin h0 hp hP
  obtain ⟨a, a1, a2, a3, a4, -⟩ := dot_diff_near hF h4 i0 i0 j0 j0
  obtain ⟨b, b1, b2, b3, b4, -⟩ := dot_diff_near hF h4 i0 i1 j0 j1
  obtain ⟨c, c1, c2, c3, c4, -⟩ := dot_diff_near hF h4 i1 i1 j1 j1
  obtain ⟨d, d1, d2, -⟩ := dot_diff_near hF h4 i0 iD j0 jD
  obtain ⟨e, e1, e2, -⟩ := dot_diff_near hF h4 i1 iD j1 jD
  -- the determinant
  have q1 : |a * c| ≤ 121 / 100 * L ^ 4 := (abs_mul_le a2 c2).trans_eq (by ring)
  have q2 : |b * b| ≤ 121 / 100 * L ^ 4 := (abs_mul_le b2 b2).trans_eq (by ring)
  obtain ⟨δ, δ1, δ2⟩ := rnd_det2 hF.toGradual u0.le h4.lin.u_le η0 a1 c1 b1 b1 (add_le_add q1 q2) (by linarith)
  have n1 := prod_near a3 c3 a4 c2
  have n2 := prod_near b3 b3 b4 b2
  have en : 7 * (u * L ^ 2) * (11 / 10 * L ^ 2) + L ^ 2 * (7 * (u * L ^ 2)) = 147 / 10 * (u * L ^ 4) := by ring
  rw [en] at n1 n2
  have hdet : Vec3.dot (B - A) (B - A) * Vec3.dot (C - A) (C - A) - Vec3.dot (B - A) (C - A) * Vec3.dot (B - A) (C - A) =
      Vec3.dot (normalOf A B C) (normalOf A B C) := by
    simp only [normalOf, Vec3.cross, Vec3.dot, Vec3.sub_x, Vec3.sub_y, Vec3.sub_z]; ring
  have n3 := mul_le_mul_of_nonneg_left (add_le_add q1 q2) u0.le
  have en3 : u * (121 / 100 * L ^ 4 + 121 / 100 * L ^ 4) = 242 / 100 * (u * L ^ 4) := by ring
  rw [en3] at n3
  have δ3 : 50 * (u * L ^ 4) ≤ δ := by
    have k1 := (abs_le.1 δ2).1
    have k2 := (abs_le.1 n1).1
    have k3 := (abs_le.1 n2).2
    linarith
  have δ4 : δ ≤ 3 * L ^ 4 := by
    refine (le_abs_self δ).trans ((abs_le_of_near δ2 (abs_sub_le' q1 q2)).trans ?_)
    linarith
  obtain ⟨s, t, s1, t1, hst⟩ := closestST_near hF hodd h4 a1 b1 c1 d1 e1 a2 b2 c2 d2 e2 δ1 δ3 δ4
  obtain ⟨s', t', s0, t0, st1, ds, dt⟩ := hst.clamp (by linarith)
  have sb : |s| ≤ 101 / 100 := by
    have := hst.s0
    have := hst.t0
    have := hst.sum
    rw [abs_le]; constructor <;> linarith
  have tb : |t| ≤ 101 / 100 := by
    have := hst.s0
    have := hst.t0
    have := hst.sum
    rw [abs_le]; constructor <;> linarith
  have supA := Sup.of_one hA
  have sup0 : Sup (B - A) L := .of_one (by linarith)
  have sup1 : Sup (C - A) L := .of_one (by linarith)
  have n0 := Sup.of_one (j0.one h4.lin)
  have n1' := Sup.of_one (j1.one h4.lin)
  obtain ⟨x, x1, x2⟩ := coord_near hF h4.lin h0.1 s1 t1 i0.1 i1.1 supA.x sb tb n0.x n1'.x sup0.x sup1.x
  obtain ⟨y, y1, y2⟩ := coord_near hF h4.lin h0.2.1 s1 t1 i0.2.1 i1.2.1 supA.y sb tb n0.y n1'.y sup0.y sup1.y
  obtain ⟨z, z1, z2⟩ := coord_near hF h4.lin h0.2.2 s1 t1 i0.2.2 i1.2.2 supA.z sb tb n0.z n1'.z sup0.z sup1.z
  refine ⟨⟨x, y, z⟩, bary A B C s' t', ⟨x1, y1, z1⟩, ⟨s', t', s0, t0, st1, rfl⟩, ?_⟩
  have fin : ∀ {r α v v' : K}, |r - (α + s * v + t * v')| ≤ 12 * (u * L) → |v| ≤ oneNorm (B - A) → |v'| ≤ oneNorm (C - A) →
      |r - (α + s' * v + t' * v')| ≤ 80 * (u * L) := by
    intro r α v v' g1 g2 g3
    rw [show r - (α + s' * v + t' * v') = (r - (α + s * v + t * v')) + (s - s') * v + (t - t') * v' by ring]
    refine (abs_add_le' (abs_add_le' g1 (abs_mul_le ds g2)) (abs_mul_le dt g3)).trans ?_
    have := mul_le_mul_of_nonneg_left hBC (by linarith : 0 ≤ 4 * (16 * u))
    linarith
  have t0' := Sup.of_one (le_refl (oneNorm (B - A)))
  have t1' := Sup.of_one (le_refl (oneNorm (C - A)))
  have ex : ∀ {r α β γ : K}, |r - (α + s' * (β - α) + t' * (γ - α))| ≤ 80 * (u * L) →
      |r - ((1 - s' - t') * α + s' * β + t' * γ)| ≤ 80 * (u * L) := by
    intro r α β γ h
    rwa [show (1 - s' - t') * α + s' * β + t' * γ = α + s' * (β - α) + t' * (γ - α) by ring]
  intro k
  fin_cases k
  · exact ex (fin x2 t0'.x t1'.x)
  · exact ex (fin y2 t0'.y t1'.y)
  · exact ex (fin z2 t0'.z t1'.z)

end Blazert
