/- Rounding errors of the distance to a cylinder, anywhere. -/
import Verif.Proofs.CylDistLow

set_option autoImplicit false
set_option linter.unusedSectionVars false

namespace Blazert
open Scalar

section
variable {K : Type} [Field K] [LinearOrder K] [IsStrictOrderedRing K] [FloorRing K] {F : Fmt K} {u η hi L ε r : K}

/-- the nearest height between the caps -/
theorem clamp_height {z h E : K} (hh : 0 ≤ h) (E0 : 0 ≤ E) (hz : |z| ≤ h / 2 + E) : ∃ k, |k| ≤ h / 2 ∧ |z - k| ≤ E := by
  obtain ⟨h1, h2⟩ := abs_le.1 hz
  rcases le_total z (h / 2) with k1 | k1
  · rcases le_total (-(h / 2)) z with k2 | k2
    · exact ⟨z, abs_le.2 ⟨k2, k1⟩, by rw [sub_self, abs_zero]; exact E0⟩
    · exact ⟨-(h / 2), by rw [abs_neg, abs_of_nonneg (by linarith)], abs_le.2 ⟨by linarith, by linarith⟩⟩
  · exact ⟨h / 2, by rw [abs_of_nonneg (by linarith)], abs_le.2 ⟨by linarith, by linarith⟩⟩

/-- the error that a height may have is negligible when squared -/
theorem clamp_sq {z k : K} (u0 : 0 ≤ u) (ε0 : 0 ≤ ε) (L0 : 0 < L) (hk : |z - k| ≤ 7 * (u * L) + 4 * (ε * L))
    (hE : 7 * (u * L) + 4 * (ε * L) ≤ 1 / 100 * L) : (z - k) ^ 2 ≤ u * L ^ 2 + ε * L ^ 2 := by
  have h1 := abs_mul_le hk (hk.trans hE)
  rw [show (z - k) * (z - k) = (z - k) ^ 2 by ring, abs_of_nonneg (pow_two_nonneg _)] at h1
  refine h1.trans ?_
  have e : (7 * (u * L) + 4 * (ε * L)) * (1 / 100 * L) = 7 / 100 * (u * L ^ 2) + 4 / 100 * (ε * L ^ 2) := by ring
  rw [e]
  have n1 : 0 ≤ u * L ^ 2 := by positivity
  have n2 : 0 ≤ ε * L ^ 2 := by positivity
  linarith

theorem cap_far {v w E : K} (u0 : 0 ≤ u) (ε0 : 0 ≤ ε) (L0 : 0 < L) (hE : E = 6 * (u * L) + 4 * (ε * L) + 3 * (u * L)) (hEL : E ≤ 1 / 100 * L)
    (hw : |w| ≤ 2 * L) (hv : |v - (|w|)| ≤ E) : |v ^ 2 - w ^ 2| ≤ 37 * (u * L ^ 2) + 17 * (ε * L ^ 2) := by
  have h1 : |v + (|w|)| ≤ 401 / 100 * L := by
    rw [show v + |w| = (v - |w|) + 2 * |w| by ring]
    refine (abs_add_le' hv (le_refl |2 * (|w|)|)).trans ?_
    rw [abs_mul, abs_two, abs_abs]
    linarith
  have h2 := abs_mul_le hv h1
  rw [show (v - |w|) * (v + |w|) = v ^ 2 - |w| ^ 2 by ring, sq_abs] at h2
  refine h2.trans ?_
  rw [hE]
  have e : (6 * (u * L) + 4 * (ε * L) + 3 * (u * L)) * (401 / 100 * L) = 3609 / 100 * (u * L ^ 2) + 1604 / 100 * (ε * L ^ 2) := by ring
  rw [e]
  have n1 : 0 ≤ u * L ^ 2 := by positivity
  have n2 : 0 ≤ ε * L ^ 2 := by positivity
  linarith

/-- the root of the sum of the squares of the distances from the tube and from a cap -/
theorem rim_dist (hF : F.Rounds u η hi) (hs : Scale u η hi L) {s t : XF F} {δ d v : K} (hs' : s.Is δ) (ht : t.Is d)
    (hδ : δ ^ 2 ≤ 83 / 10 * L ^ 2) (hd : d ^ 2 ≤ 41 / 10 * L ^ 2) (hv : (sqrt (s * s + t * t)).Is v) :
    0 ≤ v ∧ |v ^ 2 - (δ ^ 2 + d ^ 2)| ≤ 76 * (u * L ^ 2) := by
  obtain ⟨u0, u1, η0, ηu, ηL, ηLL, ηuLL, ηuL, L0, uL0, uLL0, uL1, uLL1, hi1, hiL, hiLL⟩ := hs.sizes
  have hhi := hs.sq_le
  have LL : 0 < L ^ 2 := by positivity
  obtain ⟨P, p1, p2, p3⟩ := rnd_mul hF.toGradual u0.le hs' hs' (A := 83 / 10 * L ^ 2) (by rw [abs_mul_self, ← pow_two]; exact hδ) (by linarith)
  obtain ⟨Q, q1, q2, q3⟩ := rnd_mul hF.toGradual u0.le ht ht (A := 41 / 10 * L ^ 2) (by rw [abs_mul_self, ← pow_two]; exact hd) (by linarith)
  have p0 := p3 (mul_self_nonneg δ)
  have q0 := q3 (mul_self_nonneg d)
  rw [← pow_two, show u * (83 / 10 * L ^ 2) = 83 / 10 * (u * L ^ 2) by ring] at p2
  rw [← pow_two, show u * (41 / 10 * L ^ 2) = 41 / 10 * (u * L ^ 2) by ring] at q2
  have hPQ : |P + Q| ≤ 125 / 10 * L ^ 2 := by
    rw [abs_of_nonneg (by linarith)]
    have h1 := (abs_le.1 p2).2
    have h2 := (abs_le.1 q2).2
    linarith
  obtain ⟨S, s1, s2, s3⟩ := rnd_add hF.toGradual u0.le p1 q1 hPQ (by linarith)
  rw [show u * (125 / 10 * L ^ 2) = 125 / 10 * (u * L ^ 2) by ring] at s2
  have hS : S ≤ 126 / 10 * L ^ 2 := by
    have h1 := (abs_le.1 s2).2
    rw [abs_of_nonneg (by linarith)] at hPQ
    linarith
  obtain ⟨v', v1, v2, v3⟩ := rnd_sqrt hF u0.le η0 s1 (s3 (by linarith)) (by linarith)
  obtain rfl := v1.unique hv
  refine ⟨v2, ?_⟩
  have h1 : |(P + Q) - (δ ^ 2 + d ^ 2)| ≤ (83 / 10 * (u * L ^ 2) + η) + (41 / 10 * (u * L ^ 2) + η) := by
    rw [show (P + Q) - (δ ^ 2 + d ^ 2) = (P - δ ^ 2) + (Q - d ^ 2) by ring]
    exact abs_add_le' p2 q2
  have h2 := abs_near_trans (abs_near_trans v3 s2) h1
  have h3 := mul_le_mul_of_nonneg_left hS u0.le
  rw [show u * (126 / 10 * L ^ 2) = 126 / 10 * (u * L ^ 2) by ring] at h3
  rw [show 4 * u * S = 4 * (u * S) by ring] at h2
  linarith

/-- a finite root of such a sum is one of finite distances -/
theorem rim_inv {s t : XF F} {v : K} (hv : (sqrt (s * s + t * t)).Is v) : ∃ δ, s.Is δ := by
  obtain ⟨w, w1, -⟩ := Is.sqrt_inv hv
  obtain ⟨w2, w3, w4, -, -⟩ := Is.add_inv w1
  obtain ⟨w6, -, w7, -⟩ := Is.mul_inv w4
  exact ⟨w6, w7⟩

theorem reach_side {a b h μ x y z X Y m n k v M : K} (u0 : 0 ≤ u) (ε0 : 0 ≤ ε) (L0 : 0 < L) (hM : M = 6 * (u * L) + 4 * (ε * L))
    (hML : M + 3 * (u * L) ≤ 1 / 100 * L) (hX : |X - x| ≤ M) (hY : |Y - y| ≤ M) (gx : |X - m| ≤ 203 / 100 * L) (gy : |Y - n| ≤ 203 / 100 * L)
    (v0 : 0 ≤ v) (hv : |v ^ 2 - ((X - m) ^ 2 + (Y - n) ^ 2)| ≤ 70 * (u * L ^ 2)) (hT : |m ^ 2 / a ^ 2 + n ^ 2 / b ^ 2 - 1| ≤ μ)
    (hk : |k| ≤ h / 2) (hzk : |z - k| ≤ 7 * (u * L) + 4 * (ε * L)) :
    ReachesSurface a b h μ x y z v (121 * (u * L ^ 2) + 35 * (ε * L ^ 2)) := by
  have uL0 : 0 ≤ u * L := mul_nonneg u0 L0.le
  refine ⟨v0, ⟨m, n, k⟩, .inl ⟨hT, hk⟩, ?_⟩
  have h1 := side_given u0 ε0 L0 hM (by linarith) hX hY gx gy hv
  have h2 := clamp_sq u0 ε0 L0 hzk (by linarith)
  have h3 := pow_two_nonneg (z - k)
  obtain ⟨h4, h5⟩ := abs_le.1 h1
  dsimp only
  have n1 : 0 ≤ u * L ^ 2 := by positivity
  have n2 : 0 ≤ ε * L ^ 2 := by positivity
  exact abs_le.2 ⟨by linarith, by linarith⟩

theorem reach_cap {a b h μ x y z t v E : K} (u0 : 0 ≤ u) (ε0 : 0 ≤ ε) (L0 : 0 < L) (hE : E = 6 * (u * L) + 4 * (ε * L) + 3 * (u * L))
    (hEL : E ≤ 1 / 100 * L) (ht : |t| = h / 2) (v0 : 0 ≤ v) (hzt : |z - t| ≤ 2 * L) (hv : |v - (|z - t|)| ≤ E)
    (hT : x ^ 2 / a ^ 2 + y ^ 2 / b ^ 2 ≤ 1 + μ) : ReachesSurface a b h μ x y z v (37 * (u * L ^ 2) + 17 * (ε * L ^ 2)) := by
  refine ⟨v0, ⟨x, y, t⟩, .inr ⟨ht, hT⟩, ?_⟩
  have := cap_far u0 ε0 L0 hE hEL hzt hv
  dsimp only
  rwa [sub_self, sub_self, zero_pow two_ne_zero, zero_add, zero_add]

theorem reach_rim (hF : F.Rounds u η hi) (hs : Scale u η hi L) {s' t' : XF F} {a b h μ x y z X Y m n t v δ d M : K} (ε0 : 0 ≤ ε)
    (hM : M = 6 * (u * L) + 4 * (ε * L)) (hML : M + 3 * (u * L) ≤ 1 / 100 * L) (hX : |X - x| ≤ M) (hY : |Y - y| ≤ M)
    (gx : |X - m| ≤ 203 / 100 * L) (gy : |Y - n| ≤ 203 / 100 * L) (hδ : |δ ^ 2 - ((X - m) ^ 2 + (Y - n) ^ 2)| ≤ 70 * (u * L ^ 2))
    (hT : |m ^ 2 / a ^ 2 + n ^ 2 / b ^ 2 - 1| ≤ μ) (ht : |t| = h / 2) (hzt : |z - t| ≤ 2 * L) (hd : |d - (|z - t|)| ≤ M + 3 * (u * L))
    (i1 : s'.Is δ) (i2 : t'.Is d) (hv : (sqrt (s' * s' + t' * t')).Is v) :
    ReachesSurface a b h μ x y z v (240 * (u * L ^ 2) + 52 * (ε * L ^ 2)) := by
  have hz := hs.sizes
  have u0 := hz.u0
  have L0 := hz.L0
  have uL0 := hz.uL0
  have uLL1 := hz.uLL1
  have LL : 0 < L ^ 2 := by positivity
  have sq : ∀ w : K, |w| ≤ 203 / 100 * L → w ^ 2 ≤ 41209 / 10000 * L ^ 2 := by
    intro w hw
    have := abs_mul_le hw hw
    rw [show w * w = w ^ 2 by ring, abs_of_nonneg (pow_two_nonneg _)] at this
    exact this.trans_eq (by ring)
  have hδ2 : δ ^ 2 ≤ 83 / 10 * L ^ 2 := by
    have h1 := (abs_le.1 hδ).2
    have h2 := sq _ gx
    have h3 := sq _ gy
    linarith
  have hd1 : |d| ≤ 201 / 100 * L := by
    have := abs_le_of_near hd (A := 2 * L) (by rw [abs_abs]; exact hzt)
    linarith
  have hd2 : d ^ 2 ≤ 41 / 10 * L ^ 2 := by
    have := abs_mul_le hd1 hd1
    rw [show d * d = d ^ 2 by ring, abs_of_nonneg (pow_two_nonneg _), show 201 / 100 * L * (201 / 100 * L) = 40401 / 10000 * L ^ 2 by ring] at this
    linarith
  obtain ⟨v0, v1⟩ := rim_dist hF hs i1 i2 hδ2 hd2 hv
  have h1 := side_given u0.le ε0 L0 hM (by linarith) hX hY gx gy hδ
  have h2 := cap_far u0.le ε0 L0 (by rw [hM]) hML hzt hd
  refine ⟨v0, ⟨m, n, t⟩, .inr ⟨ht, by have := (abs_le.1 hT).2; dsimp only; linarith⟩, ?_⟩
  have h3 : |(δ ^ 2 + d ^ 2) - ((x - m) ^ 2 + (y - n) ^ 2 + (z - t) ^ 2)| ≤
      (120 * (u * L ^ 2) + 34 * (ε * L ^ 2)) + (37 * (u * L ^ 2) + 17 * (ε * L ^ 2)) := by
    rw [show (δ ^ 2 + d ^ 2) - ((x - m) ^ 2 + (y - n) ^ 2 + (z - t) ^ 2) =
      (δ ^ 2 - ((x - m) ^ 2 + (y - n) ^ 2)) + (d ^ 2 - (z - t) ^ 2) by ring]
    exact abs_add_le' h1 h2
  have h4 := abs_near_trans v1 h3
  dsimp only
  have n1 : 0 ≤ u * L ^ 2 := by positivity
  have n2 : 0 ≤ ε * L ^ 2 := by positivity
  linarith

/-- near the axis, a half axis is nearly the distance from the tube -/
theorem reach_axis {a b h μ x y z k δ : K} (u0 : 0 ≤ u) (ε0 : 0 ≤ ε) (L0 : 0 < L) (a0 : 0 < a) (μ0 : 0 ≤ μ) (δ0 : 0 ≤ δ) (hx : |x| ≤ δ)
    (hy : |y| ≤ δ) (hδ : δ ≤ a / 2) (haL : a ≤ L) (hk : |k| ≤ h / 2) (hzk : |z - k| ≤ 7 * (u * L) + 4 * (ε * L))
    (hE : 7 * (u * L) + 4 * (ε * L) ≤ 1 / 100 * L) :
    ReachesSurface a b h μ x y z a (u * L ^ 2 + ε * L ^ 2 + 3 * (δ * L)) := by
  refine ⟨a0.le, ⟨a, 0, k⟩, .inl ⟨?_, hk⟩, ?_⟩
  · dsimp only
    rw [div_self (by positivity), zero_pow two_ne_zero, zero_div, add_zero, sub_self, abs_zero]
    exact μ0
  dsimp only
  have h1 := clamp_sq u0 ε0 L0 hzk hE
  have h2 := pow_two_nonneg (z - k)
  have sq : ∀ w : K, |w| ≤ δ → w ^ 2 ≤ δ * (a / 2) := by
    intro w hw
    have := abs_mul_le hw (hw.trans hδ)
    rwa [show w * w = w ^ 2 by ring, abs_of_nonneg (pow_two_nonneg _)] at this
  have h3 := sq x hx
  have h4 := sq y hy
  have h5 := pow_two_nonneg x
  have h6 := pow_two_nonneg y
  have h7 := abs_mul_le hx (le_refl |2 * a|)
  rw [abs_of_pos (by linarith : 0 < 2 * a)] at h7
  obtain ⟨h8, h9⟩ := abs_le.1 h7
  have h10 : δ * a ≤ δ * L := mul_le_mul_of_nonneg_left haL δ0
  have e : a ^ 2 - ((x - a) ^ 2 + (y - 0) ^ 2 + (z - k) ^ 2) = x * (2 * a) - x ^ 2 - y ^ 2 - (z - k) ^ 2 := by ring
  rw [e]
  have e2 : δ * (2 * a) = 2 * (δ * a) := by ring
  have e3 : δ * (a / 2) = δ * a / 2 := by ring
  have n3 : 0 ≤ δ * a := mul_nonneg δ0 a0.le
  have n1 : 0 ≤ u * L ^ 2 := by positivity
  have n2 : 0 ≤ ε * L ^ 2 := by positivity
  rw [e2] at h8 h9
  rw [e3] at h3 h4
  exact abs_le.2 ⟨by linarith, by linarith⟩

theorem ReachesSurface.mono {a b h μ x y z v e e' : K} (H : ReachesSurface a b h μ x y z v e) (he : e ≤ e') :
    ReachesSurface a b h μ x y z v e' := ⟨H.1, H.2.imp fun _ k => ⟨k.1, k.2.trans he⟩⟩

theorem reach_axis' {a b h μ x y z k δ : K} (u0 : 0 ≤ u) (ε0 : 0 ≤ ε) (L0 : 0 < L) (b0 : 0 < b) (μ0 : 0 ≤ μ) (δ0 : 0 ≤ δ) (hx : |x| ≤ δ)
    (hy : |y| ≤ δ) (hδ : δ ≤ b / 2) (hbL : b ≤ L) (hk : |k| ≤ h / 2) (hzk : |z - k| ≤ 7 * (u * L) + 4 * (ε * L))
    (hE : 7 * (u * L) + 4 * (ε * L) ≤ 1 / 100 * L) :
    ReachesSurface a b h μ x y z b (u * L ^ 2 + ε * L ^ 2 + 3 * (δ * L)) := by
  obtain ⟨h1, q, h2, h3⟩ := reach_axis (a := b) (b := a) (μ := μ) u0 ε0 L0 b0 μ0 δ0 hy hx hδ hbL hk hzk hE
  refine ⟨h1, ⟨q.y, q.x, q.z⟩, ?_, ?_⟩
  · unfold NearSurface at h2 ⊢
    dsimp only
    rwa [add_comm (q.y ^ 2 / a ^ 2)]
  · dsimp only
    rwa [add_comm ((x - q.y) ^ 2)]

theorem axis_inside {a b x y δ : K} (r0 : 0 < r) (hra : r ≤ a) (hrb : r ≤ b) (hδ : δ ≤ r / 2) (hx : |x| ≤ δ) (hy : |y| ≤ δ) :
    x ^ 2 / a ^ 2 + y ^ 2 / b ^ 2 ≤ 1 := by
  have term : ∀ {a x : K}, r ≤ a → |x| ≤ δ → x ^ 2 / a ^ 2 ≤ 1 / 4 := by
    intro a x hra hx
    have a0 : 0 < a := r0.trans_le hra
    rw [div_le_iff₀ (by positivity)]
    have h1 : |x| ≤ a / 2 := by linarith
    have h2 := abs_mul_le h1 h1
    rw [abs_mul_self] at h2
    calc x ^ 2 = x * x := pow_two x
      _ ≤ a / 2 * (a / 2) := h2
      _ = 1 / 4 * a ^ 2 := by ring
  have h1 := term hra hx
  have h2 := term hrb hy
  linarith

/-- what is known about the point in the coordinates of the cylinder -/
structure LocalPoint (F : Fmt K) (u η hi L ε r M a b h x y z : K) (lp : Vec3 (XF F)) (xa xb xh : XF F) (q : Vec3 K) : Prop where
  hF : F.Rounds u η hi
  hfa : F.Faithful u η
  hm : F.Monotone
  hs : Scale u η hi L
  hr : Scale u η hi r
  tiny : η * L ≤ u ^ 2 * r
  ε0 : 0 ≤ ε
  hM : M = 6 * (u * L) + 4 * (ε * L)
  hML : M + 3 * (u * L) ≤ 1 / 100 * L
  is : IsV lp q
  ia : xa.Is a
  ib : xb.Is b
  ih : xh.Is h
  qx : |q.x - x| ≤ M
  qy : |q.y - y| ≤ M
  qz : |q.z - z| ≤ M
  qX : |q.x| ≤ 101 / 100 * L
  qY : |q.y| ≤ 101 / 100 * L
  qZ : |q.z| ≤ 101 / 100 * L
  hra : r ≤ a
  hrb : r ≤ b
  haL : a ≤ L
  hbL : b ≤ L
  h0 : 0 ≤ h
  hL : h ≤ L

namespace LocalPoint
variable {M a b h x y z μ : K} {lp : Vec3 (XF F)} {xa xb xh : XF F} {q : Vec3 K}

theorem ell (P : LocalPoint F u η hi L ε r M a b h x y z lp xa xb xh q) (hθ : 10 * (M / r) ≤ μ) (hμu : 60 * u ≤ μ) (hμ1 : μ ≤ 1) {e : K}
    (he : (ellipseEquation xa xb lp.x lp.y).Is e) (h2 : e ≤ 2 * u) :
    x ^ 2 / a ^ 2 + y ^ 2 / b ^ 2 ≤ 1 + μ ∧ (-(2 * u) ≤ e → 1 - μ ≤ x ^ 2 / a ^ 2 + y ^ 2 / b ^ 2) := by
  have hz := P.hs.sizes
  have u0 := hz.u0
  have r0 := P.hr.pos
  have M0 : 0 ≤ M := by rw [P.hM]; have := hz.uL0; have := mul_nonneg P.ε0 hz.L0.le; linarith
  have e2 : M / r * r = M := div_mul_cancel₀ _ r0.ne'
  have T0 : 0 ≤ q.x ^ 2 / a ^ 2 + q.y ^ 2 / b ^ 2 := by positivity
  have k := ell_value P.hF P.hfa P.hs P.hr P.is.1 P.is.2.1 P.ia P.ib P.qX P.qY P.hra P.haL P.hrb P.hbL he
  obtain ⟨k1, k2, k3⟩ := ell_small u0 hz.u1 T0 k h2
  obtain ⟨k4, k5⟩ := abs_le.1 (ell_given (θ := M / r) (div_nonneg M0 r0.le) (by rw [e2]; exact P.qx) (by rw [e2]; exact P.qy) r0 P.hra P.hrb
    rfl k1 (by linarith))
  exact ⟨by linarith, fun k6 => by linarith [k3 k6]⟩

theorem side (P : LocalPoint F u η hi L ε r M a b h x y z lp xa xb xh q) (hμu : 60 * u ≤ μ) {tol : XF F} {k w : K} (hk : |k| ≤ h / 2)
    (hzk : |z - k| ≤ 7 * (u * L) + 4 * (ε * L)) (hw : (minDistEllipse tol xa xb lp.x lp.y).2.Is w) :
    ReachesSurface a b h μ x y z w (121 * (u * L ^ 2) + 35 * (ε * L ^ 2)) := by
  have hz := P.hs.sizes
  have u0 := hz.u0
  obtain ⟨k0, m, n, k1, k2, k3, k4⟩ := ellipse_dist P.hF P.hfa P.hs P.hr P.tiny tol P.ia P.ib P.hra P.haL P.hrb P.hbL P.is.1 P.is.2.1
    P.qX P.qY hw
  exact reach_side u0.le P.ε0 hz.L0 P.hM P.hML P.qx P.qy k2 k3 k0 k4 (k1.trans (by linarith)) hk hzk

theorem far (P : LocalPoint F u η hi L ε r M a b h x y z lp xa xb xh q) {t : K} (ht : |t| = h / 2) : |z - t| ≤ 2 * L := by
  have hz := P.hs.sizes
  have zb := abs_le_of_near (abs_sub_comm q.z z ▸ P.qz) P.qZ
  have := P.hML
  have := P.hL
  have := hz.uL0
  have := hz.L0
  exact (abs_sub_le' zb ht.le).trans (by linarith)

theorem cap (P : LocalPoint F u η hi L ε r M a b h x y z lp xa xb xh q) {t' : XF F} {t d w : K} (ht : |t| = h / 2) (id : (abs t').Is d)
    (hd : |d - (|z - t|)| ≤ M + 3 * (u * L)) (hT : x ^ 2 / a ^ 2 + y ^ 2 / b ^ 2 ≤ 1 + μ) (hw : (abs t').Is w) :
    ReachesSurface a b h μ x y z w (37 * (u * L ^ 2) + 17 * (ε * L ^ 2)) := by
  have hz := P.hs.sizes
  obtain rfl := hw.unique id
  exact reach_cap hz.u0.le P.ε0 hz.L0 (by rw [P.hM]) P.hML ht hw.abs_nonneg' (P.far ht) hd hT

theorem rim (P : LocalPoint F u η hi L ε r M a b h x y z lp xa xb xh q) (hμu : 60 * u ≤ μ) {tol t' : XF F} {t d w : K} (ht : |t| = h / 2)
    (id : t'.Is d) (hd : |d - (|z - t|)| ≤ M + 3 * (u * L))
    (hw : (sqrt ((minDistEllipse tol xa xb lp.x lp.y).2 * (minDistEllipse tol xa xb lp.x lp.y).2 + t' * t')).Is w) :
    ReachesSurface a b h μ x y z w (240 * (u * L ^ 2) + 52 * (ε * L ^ 2)) := by
  have hz := P.hs.sizes
  have u0 := hz.u0
  obtain ⟨e, he⟩ := rim_inv hw
  obtain ⟨k0, m, n, k1, k2, k3, k4⟩ := ellipse_dist P.hF P.hfa P.hs P.hr P.tiny tol P.ia P.ib P.hra P.haL P.hrb P.hbL P.is.1 P.is.2.1
    P.qX P.qY he
  exact reach_rim P.hF P.hs P.ε0 P.hM P.hML P.qx P.qy k2 k3 k4 (k1.trans (by linarith)) ht (P.far ht) hd he id hw

end LocalPoint

/-- the branches of `distance_to_surface` -/
theorem cylDistance_branches {T : Type} [Scalar T] (isZ : T → T → Bool) (tol : T) (cy : Cylinder T) (point : Vec3 T) (lp : Vec3 T)
    (hlp : cy.rotation.trans.mulVec (point - cy.center) = lp) (P : T → Prop)
    (hA : isZ lp.x lp.y = true → P (abs (lp.z - cy.height / nat 2)) ∧ P (abs (lp.z + cy.height / nat 2)) ∧
      (¬ (gt lp.z (cy.height / nat 2) || lt lp.z (-cy.height / nat 2)) = true → P cy.a ∧ P cy.b))
    (hC : lt (abs (ellipseEquation cy.a cy.b lp.x lp.y)) eps = true →
      P (abs (lp.z - cy.height / nat 2)) ∧ P (abs (lp.z + cy.height / nat 2)) ∧
      (¬ (gt lp.z (cy.height / nat 2) || lt lp.z (-cy.height / nat 2)) = true → P (nat 0)))
    (hD : lt (ellipseEquation cy.a cy.b lp.x lp.y) (nat 0) = true →
      P (abs (lp.z - cy.height / nat 2)) ∧ P (abs (lp.z + cy.height / nat 2)) ∧
      (¬ ge lp.z (cy.height / nat 2) = true → ¬ le lp.z (-cy.height / nat 2) = true → P (minDistEllipse tol cy.a cy.b lp.x lp.y).2))
    (hE : ¬ lt (abs (ellipseEquation cy.a cy.b lp.x lp.y)) eps = true → ¬ lt (ellipseEquation cy.a cy.b lp.x lp.y) (nat 0) = true →
      gt (ellipseEquation cy.a cy.b lp.x lp.y) (nat 0) = true ∧
      ((lt lp.z (cy.height / nat 2) && gt lp.z (-cy.height / nat 2)) = true → P (minDistEllipse tol cy.a cy.b lp.x lp.y).2) ∧
      P (sqrt ((minDistEllipse tol cy.a cy.b lp.x lp.y).2 * (minDistEllipse tol cy.a cy.b lp.x lp.y).2 +
        abs (lp.z - cy.height / nat 2) * abs (lp.z - cy.height / nat 2))) ∧
      P (sqrt ((minDistEllipse tol cy.a cy.b lp.x lp.y).2 * (minDistEllipse tol cy.a cy.b lp.x lp.y).2 +
        abs (lp.z + cy.height / nat 2) * abs (lp.z + cy.height / nat 2)))) :
    P (cylDistance isZ tol cy point) := by
  have hmin : ∀ (w : T) (l : List T), P w → (∀ w' ∈ l, P w') → P (minOf w l) := by
    intro w l h1 h2
    rcases List.mem_cons.1 (minOf_mem w l) with k | k
    · rw [k]; exact h1
    · exact h2 _ k
  unfold cylDistance
  dsimp only
  rw [hlp]
  by_cases c1 : isZ lp.x lp.y = true
  · rw [if_pos c1]
    obtain ⟨h1, h2, h3⟩ := hA c1
    by_cases c2 : (gt lp.z (cy.height / nat 2) || lt lp.z (-cy.height / nat 2)) = true
    · rw [if_pos c2]
      exact hmin _ _ h1 (by simpa using h2)
    · rw [if_neg c2]
      exact hmin _ _ (h3 c2).1 (by simpa using ⟨(h3 c2).2, h1, h2⟩)
  rw [if_neg c1]
  by_cases c2 : lt (abs (ellipseEquation cy.a cy.b lp.x lp.y)) eps = true
  · rw [if_pos c2]
    obtain ⟨h1, h2, h3⟩ := hC c2
    by_cases c3 : (gt lp.z (cy.height / nat 2) || lt lp.z (-cy.height / nat 2)) = true
    · rw [if_pos c3]
      unfold Scalar.min
      split
      · exact h2
      · exact h1
    · rw [if_neg c3]
      exact h3 c3
  rw [if_neg c2]
  by_cases c3 : lt (ellipseEquation cy.a cy.b lp.x lp.y) (nat 0) = true
  · rw [if_pos c3]
    obtain ⟨h1, h2, h3⟩ := hD c3
    by_cases c4 : ge lp.z (cy.height / nat 2) = true
    · rw [if_pos c4]; exact h1
    rw [if_neg c4]
    by_cases c5 : le lp.z (-cy.height / nat 2) = true
    · rw [if_pos c5]; exact h2
    rw [if_neg c5]
    exact hmin _ _ (h3 c4 c5) (by simpa using ⟨h2, h1⟩)
  rw [if_neg c3]
  obtain ⟨h1, h2, h3, h4⟩ := hE c2 c3
  rw [if_pos h1]
  by_cases c4 : (lt lp.z (cy.height / nat 2) && gt lp.z (-cy.height / nat 2)) = true
  · rw [if_pos c4]; exact h2 c4
  · rw [if_neg c4]
    exact hmin _ _ h3 (by simpa using h4)

/-- all branches together -/
theorem LocalPoint.reach {M a b h x y z μ δ v : K} {lp : Vec3 (XF F)} {xa xb xh : XF F} {q : Vec3 K}
    (P : LocalPoint F u η hi L ε r M a b h x y z lp xa xb xh q) (isZ : XF F → XF F → Bool) (tol : XF F) (cy : Cylinder (XF F))
    (point : Vec3 (XF F)) (hlp : cy.rotation.trans.mulVec (point - cy.center) = lp) (hxa : cy.a = xa) (hxb : cy.b = xb)
    (hxh : cy.height = xh) (heps0 : 0 < F.eps) (heps : F.eps ≤ 2 * u) (hθ : 10 * (M / r) ≤ μ) (hμu : 60 * u ≤ μ) (hμ1 : μ ≤ 1)
    (hδ0 : 0 ≤ δ) (hδ : δ ≤ r / 2) (hZ : isZ lp.x lp.y = true → |x| ≤ δ ∧ |y| ≤ δ) (hv : (cylDistance isZ tol cy point).Is v) :
    ReachesSurface a b h μ x y z v (240 * (u * L ^ 2) + 52 * (ε * L ^ 2) + 3 * (δ * L)) := by
  have hz := P.hs.sizes
  have u0 := hz.u0
  have L0 := hz.L0
  have uL0 := hz.uL0
  have ε0 := P.ε0
  have εL0 : 0 ≤ ε * L := mul_nonneg ε0 L0.le
  have n1 : 0 ≤ u * L ^ 2 := by positivity
  have n2 : 0 ≤ ε * L ^ 2 := by positivity
  have n3 : 0 ≤ δ * L := mul_nonneg hδ0 L0.le
  have r0 := P.hr.pos
  have h0 := P.h0
  have hM := P.hM
  have hML := P.hML
  have hh2 : |h / 2| = h / 2 := abs_of_nonneg (by linarith)
  have hht : |-(h / 2)| = h / 2 := by rw [abs_neg, hh2]
  obtain ⟨⟨H, i1, i2⟩, ⟨H', j1, j2⟩, ⟨d, d1, d2⟩, ⟨f, f1, f2⟩⟩ := cap_dists P.hF P.hs P.is.2.2 P.ih P.qz P.qZ
    (by rw [abs_of_nonneg h0]; exact P.hL)
  have f2' : |f - (|z - -(h / 2)|)| ≤ M + 3 * (u * L) := by rw [sub_neg_eq_add]; exact f2
  have clamp : H' ≤ q.z → q.z ≤ H → ∃ k, |k| ≤ h / 2 ∧ |z - k| ≤ 7 * (u * L) + 4 * (ε * L) := by
    intro k1 k2
    have h3 := abs_le.1 i2
    have h4 := abs_le.1 j2
    have h5 := abs_le.1 P.qz
    exact clamp_height h0 (by linarith) (abs_le.2 ⟨by linarith [h3.1, h4.1, h5.2], by linarith [h3.2, h5.1]⟩)
  subst hxa hxb hxh
  have top : x ^ 2 / a ^ 2 + y ^ 2 / b ^ 2 ≤ 1 + μ → ∀ v, (abs (lp.z - cy.height / nat 2)).Is v →
      ReachesSurface a b h μ x y z v (240 * (u * L ^ 2) + 52 * (ε * L ^ 2) + 3 * (δ * L)) := fun k v hv =>
    (P.cap hh2 d1 d2 k hv).mono (by linarith)
  have bottom : x ^ 2 / a ^ 2 + y ^ 2 / b ^ 2 ≤ 1 + μ → ∀ v, (abs (lp.z + cy.height / nat 2)).Is v →
      ReachesSurface a b h μ x y z v (240 * (u * L ^ 2) + 52 * (ε * L ^ 2) + 3 * (δ * L)) := fun k v hv =>
    (P.cap hht f1 f2' k hv).mono (by linarith)
  have mid : ¬ (gt lp.z (cy.height / nat 2) || lt lp.z (-cy.height / nat 2)) = true →
      ∃ k, |k| ≤ h / 2 ∧ |z - k| ≤ 7 * (u * L) + 4 * (ε * L) := by
    intro c
    rw [Bool.or_eq_true, P.is.2.2.gt i1, P.is.2.2.lt j1, not_or, not_lt, not_lt] at c
    exact clamp c.2 c.1
  refine cylDistance_branches isZ tol cy point lp hlp
    (fun w => ∀ v, w.Is v → ReachesSurface a b h μ x y z v (240 * (u * L ^ 2) + 52 * (ε * L ^ 2) + 3 * (δ * L))) ?_ ?_ ?_ ?_ v hv
  · intro c1
    obtain ⟨zx, zy⟩ := hZ c1
    have hT := axis_inside r0 P.hra P.hrb hδ zx zy
    refine ⟨top (by linarith), bottom (by linarith), fun c2 => ?_⟩
    obtain ⟨k, k5, k6⟩ := mid c2
    have hra := P.hra
    have hrb := P.hrb
    constructor
    · intro v hv
      obtain rfl := hv.unique P.ia
      exact (reach_axis u0.le ε0 L0 (by linarith) (by linarith) hδ0 zx zy (by linarith) P.haL k5 k6 (by linarith)).mono (by linarith)
    · intro v hv
      obtain rfl := hv.unique P.ib
      exact (reach_axis' u0.le ε0 L0 (by linarith) (by linarith) hδ0 zx zy (by linarith) P.hbL k5 k6 (by linarith)).mono (by linarith)
  · intro c2
    obtain ⟨e, k1, k2⟩ := lt_abs_fin (b := F.eps) ⟨false, rfl⟩ c2
    obtain ⟨k3, k4⟩ := abs_lt.1 k2
    obtain ⟨k5, k6⟩ := P.ell hθ hμu hμ1 k1 (by linarith)
    have k7 := k6 (by linarith)
    refine ⟨top k5, bottom k5, fun c3 v hv => ?_⟩
    obtain ⟨k, k8, k9⟩ := mid c3
    obtain rfl := hv.unique P.hF.nat0
    have k10 := clamp_sq u0.le ε0 L0 k9 (by linarith)
    refine ⟨le_refl _, ⟨x, y, k⟩, .inl ⟨abs_le.2 ⟨?_, ?_⟩, k8⟩, ?_⟩
    · dsimp only; linarith
    · dsimp only; linarith
    · dsimp only
      rw [sub_self, sub_self, zero_pow two_ne_zero, zero_add, zero_add, zero_sub, abs_neg, abs_of_nonneg (pow_two_nonneg _)]
      linarith
  · intro c3
    obtain ⟨e, k1, k2⟩ := lt_fin P.hF.nat0 (ell_not_inf P.hF P.hm P.hs P.hr P.is.1 P.is.2.1 P.ia P.ib P.qX P.qY P.hra P.haL P.hrb P.hbL) c3
    obtain ⟨k5, -⟩ := P.ell hθ hμu hμ1 k1 (by linarith)
    refine ⟨top k5, bottom k5, fun c4 c5 v hv => ?_⟩
    rw [P.is.2.2.ge i1, not_le] at c4
    rw [P.is.2.2.le j1, not_le] at c5
    obtain ⟨k, k8, k9⟩ := clamp c5.le c4.le
    exact (P.side hμu k8 k9 hv).mono (by linarith)
  · intro c2 c3
    refine ⟨not_nan_cases (ell_not_nan P.hF P.hm P.hs P.hr P.is.1 P.is.2.1 P.ia P.ib P.qX P.qY P.hra P.haL P.hrb P.hbL) P.hF.zero heps0 c2 c3,
      fun c4 v hv => ?_, fun v hv => ?_, fun v hv => ?_⟩
    · rw [Bool.and_eq_true, P.is.2.2.lt i1, P.is.2.2.gt j1] at c4
      obtain ⟨k, k8, k9⟩ := clamp c4.2.le c4.1.le
      exact (P.side hμu k8 k9 hv).mono (by linarith)
    · exact (P.rim hμu hh2 d1 d2 hv).mono (by linarith)
    · exact (P.rim hμu hht f1 f2' hv).mono (by linarith)

end
end Blazert
