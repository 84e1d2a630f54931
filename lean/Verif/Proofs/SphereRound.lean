/- Rounding errors of the sphere test. -/
import Verif.Proofs.RoundOps
import Verif.Model.Sphere

set_option autoImplicit false
set_option linter.unusedSectionVars false

namespace Blazert
open Scalar

variable {K : Type} [Field K] [LinearOrder K] [IsStrictOrderedRing K] [FloorRing K] {F : Fmt K} {u η hi L : K}

/-- the facts about the sizes of errors that linear arithmetic needs -/
structure Sizes (u η hi L : K) : Prop where
  u0 : 0 < u
  u1 : u ≤ 1 / 2 ^ 20
  η0 : 0 ≤ η
  ηu : η ≤ u / 2 ^ 20
  ηL : η ≤ u * L / 2 ^ 20
  ηLL : η ≤ u * L ^ 2 / 2 ^ 20
  ηuLL : η ≤ u ^ 2 * L ^ 2
  ηuL : η ≤ u ^ 2 * L
  L0 : 0 < L
  uL0 : 0 < u * L
  uLL0 : 0 < u * L ^ 2
  uL1 : u * L ≤ L / 2 ^ 20
  uLL1 : u * L ^ 2 ≤ L ^ 2 / 2 ^ 20
  hi1 : 64 ≤ hi
  hiL : 64 * L ≤ hi
  hiLL : 64 * L ^ 2 ≤ hi

theorem Scale.sizes (h : Scale u η hi L) : Sizes u η hi L := by
  obtain ⟨h1, h2, h3, h4, h5, h6, h7, h8⟩ := h
  have hu1 : u ≤ 1 / 2 ^ 20 := by rw [le_div_iff₀ (by positivity)]; linarith
  have huL : 0 < u * L := mul_pos h1 h6
  have huLL : 0 < u * L ^ 2 := by positivity
  have hηuL : η ≤ u ^ 2 * L := by
    rcases le_total L 1 with h | h
    · refine h5.trans (mul_le_mul_of_nonneg_left ?_ (by positivity))
      rw [pow_two]; nlinarith
    · refine h4.trans ?_
      nlinarith [pow_two_nonneg u]
  refine ⟨h1, hu1, h3, ?_, ?_, ?_, h5, hηuL, h6, huL, huLL, ?_, ?_, h8, ?_, h7⟩
  · have : u ^ 2 ≤ u * (1 / 2 ^ 20) := by rw [pow_two]; exact mul_le_mul_of_nonneg_left hu1 h1.le
    linarith
  · have : u ^ 2 * L ≤ (u * L) * (1 / 2 ^ 20) := by
      rw [show u ^ 2 * L = (u * L) * u by ring]; exact mul_le_mul_of_nonneg_left hu1 huL.le
    linarith
  · have : u ^ 2 * L ^ 2 ≤ (u * L ^ 2) * (1 / 2 ^ 20) := by
      rw [show u ^ 2 * L ^ 2 = (u * L ^ 2) * u by ring]; exact mul_le_mul_of_nonneg_left hu1 huLL.le
    linarith
  · have := mul_le_mul_of_nonneg_right hu1 h6.le; linarith
  · have := mul_le_mul_of_nonneg_right hu1 (pow_two_nonneg L); linarith
  · nlinarith [mul_self_nonneg (L - 1)]

theorem abs_le_of_near {a b A e : K} (h : |a - b| ≤ e) (hb : |b| ≤ A) : |a| ≤ A + e := by
  have := abs_add_le b (a - b)
  rw [add_sub_cancel] at this
  linarith

theorem abs_near_trans {a b c e f : K} (h : |a - b| ≤ e) (h' : |b - c| ≤ f) : |a - c| ≤ e + f := by
  rw [show a - c = (a - b) + (b - c) by ring]
  exact abs_add_le' h h'

theorem comp_le {d : Vec3 K} (h : Vec3.dot d d ≤ 5 / 4) : |d.x| ≤ 9 / 8 ∧ |d.y| ≤ 9 / 8 ∧ |d.z| ≤ 9 / 8 := by
  unfold Vec3.dot at h
  refine ⟨abs_le_of_sq_le_sq ?_ (by norm_num), abs_le_of_sq_le_sq ?_ (by norm_num), abs_le_of_sq_le_sq ?_ (by norm_num)⟩ <;>
    nlinarith [mul_self_nonneg d.x, mul_self_nonneg d.y, mul_self_nonneg d.z]

theorem sum_sq_le (p q s t : K) : p * p + q * q + s * s + t * t ≤ (|p| + |q| + |s| + |t|) ^ 2 := by
  rw [← abs_mul_abs_self p, ← abs_mul_abs_self q, ← abs_mul_abs_self s, ← abs_mul_abs_self t]
  have hp := abs_nonneg p
  have hq := abs_nonneg q
  have hs := abs_nonneg s
  have ht := abs_nonneg t
  nlinarith [mul_nonneg hp hq, mul_nonneg hp hs, mul_nonneg hq hs, mul_nonneg hp ht, mul_nonneg hq ht, mul_nonneg hs ht]

/-- a difference of points of size at most `L`, and what `w` are close to it -/
structure NearV (u η L : K) (w v : Vec3 K) : Prop where
  x : |w.x - v.x| ≤ u * |v.x| + η
  y : |w.y - v.y| ≤ u * |v.y| + η
  z : |w.z - v.z| ≤ u * |v.z| + η
  size : |v.x| + |v.y| + |v.z| ≤ L

theorem rnd_subv (hF : F.Rounds u η hi) (hs : Scale u η hi L) {x y : Vec3 (XF F)} {a b : Vec3 K} (hx : IsV x a)
    (hy : IsV y b) (hL : |a.x - b.x| + |a.y - b.y| + |a.z - b.z| ≤ L) :
    ∃ w, IsV (x - y) w ∧ NearV u η L w (a - b) := by
  have hG := hF.toGradual
  have u0 := hs.u_pos.le
  have hiL : L ≤ hi := by linarith [hs.sizes.hiL, hs.pos]
  have x0 := abs_nonneg (a.x - b.x)
  have y0 := abs_nonneg (a.y - b.y)
  have z0 := abs_nonneg (a.z - b.z)
  obtain ⟨p, x1, x2, -⟩ := rnd_sub hG u0 hx.1 hy.1 le_rfl (by linarith)
  obtain ⟨q, y1, y2, -⟩ := rnd_sub hG u0 hx.2.1 hy.2.1 le_rfl (by linarith)
  obtain ⟨r, z1, z2, -⟩ := rnd_sub hG u0 hx.2.2 hy.2.2 le_rfl (by linarith)
  exact ⟨⟨p, q, r⟩, ⟨x1, y1, z1⟩, x2, y2, z2, hL⟩

theorem NearV.sums (hs : Scale u η hi L) {w v : Vec3 K} (h : NearV u η L w v) :
    |w.x| + |w.y| + |w.z| ≤ 1001 / 1000 * L ∧ |w.x - v.x| + |w.y - v.y| + |w.z - v.z| ≤ 1001 / 1000 * (u * L) := by
  obtain ⟨u0, u1, η0, ηu, ηL, ηLL, -, -, L0, uL0, uLL0, uL1, uLL1, hi1, hiL, hiLL⟩ := hs.sizes
  obtain ⟨h1, h2, h3, h4⟩ := h
  have h5 := mul_le_mul_of_nonneg_left h4 u0.le
  have hx := abs_le_of_near h1 le_rfl
  have hy := abs_le_of_near h2 le_rfl
  have hz := abs_le_of_near h3 le_rfl
  constructor <;> linarith

theorem NearV.dot_unit (hs : Scale u η hi L) {w v d : Vec3 K} (h : NearV u η L w v) (hN : Vec3.dot d d ≤ 5 / 4) :
    |w.x * d.x| + |w.y * d.y| + |w.z * d.z| ≤ 113 / 100 * L ∧ |Vec3.dot w d - Vec3.dot v d| ≤ 113 / 100 * (u * L) ∧
      |Vec3.dot v d| ≤ 9 / 8 * L := by
  obtain ⟨dx, dy, dz⟩ := comp_le hN
  obtain ⟨s1, s2⟩ := h.sums hs
  have L0 := hs.pos
  have uL0 := hs.sizes.uL0
  refine ⟨?_, ?_, ?_⟩
  · have h1 := abs_mul_le (le_refl |w.x|) dx
    have h2 := abs_mul_le (le_refl |w.y|) dy
    have h3 := abs_mul_le (le_refl |w.z|) dz
    linarith
  · rw [show Vec3.dot w d - Vec3.dot v d = (w.x - v.x) * d.x + (w.y - v.y) * d.y + (w.z - v.z) * d.z by
      unfold Vec3.dot; ring]
    refine (abs_add_le' (abs_add_le' (abs_mul_le le_rfl dx) (abs_mul_le le_rfl dy)) (abs_mul_le le_rfl dz)).trans ?_
    linarith
  · unfold Vec3.dot
    have h4 := h.size
    refine (abs_add_le' (abs_add_le' (abs_mul_le le_rfl dx) (abs_mul_le le_rfl dy)) (abs_mul_le le_rfl dz)).trans ?_
    linarith

theorem NearV.dot_self (hs : Scale u η hi L) {w v : Vec3 K} (h : NearV u η L w v) :
    |w.x * w.x| + |w.y * w.y| + |w.z * w.z| ≤ 1003 / 1000 * L ^ 2 ∧
      |Vec3.dot w w - Vec3.dot v v| ≤ 201 / 100 * (u * L ^ 2) := by
  obtain ⟨s1, s2⟩ := h.sums hs
  have L0 := hs.pos
  have uLL0 := hs.sizes.uLL0
  have h4 := h.size
  have x0 := abs_nonneg v.x
  have y0 := abs_nonneg v.y
  have z0 := abs_nonneg v.z
  have x1 := abs_nonneg w.x
  have y1 := abs_nonneg w.y
  have z1 := abs_nonneg w.z
  refine ⟨?_, ?_⟩
  · rw [abs_mul_self, abs_mul_self, abs_mul_self]
    have h1 := sum_sq_le w.x w.y w.z 0
    have h2 : (|w.x| + |w.y| + |w.z| + |0|) ^ 2 ≤ (1001 / 1000 * L) ^ 2 :=
      pow_le_pow_left₀ (by positivity) (by rw [abs_zero]; linarith) 2
    have h3 : (1001 / 1000 * L) ^ 2 = 1002001 / 1000000 * L ^ 2 := by ring
    have h4 := pow_two_nonneg L
    have h5 := h1.trans h2
    rw [h3, mul_zero, add_zero] at h5
    linarith
  · rw [show Vec3.dot w w - Vec3.dot v v = (w.x - v.x) * (w.x + v.x) + (w.y - v.y) * (w.y + v.y) +
      (w.z - v.z) * (w.z + v.z) by unfold Vec3.dot; ring]
    have ax : |w.x + v.x| ≤ 2001 / 1000 * L := (abs_add_le _ _).trans (by linarith)
    have ay : |w.y + v.y| ≤ 2001 / 1000 * L := (abs_add_le _ _).trans (by linarith)
    have az : |w.z + v.z| ≤ 2001 / 1000 * L := (abs_add_le _ _).trans (by linarith)
    refine (abs_add_le' (abs_add_le' (abs_mul_le le_rfl ax) (abs_mul_le le_rfl ay)) (abs_mul_le le_rfl az)).trans ?_
    rw [← add_mul, ← add_mul]
    refine (mul_le_mul_of_nonneg_right s2 (by positivity)).trans ?_
    rw [show 1001 / 1000 * (u * L) * (2001 / 1000 * L) = 1001 * 2001 / 1000000 * (u * L ^ 2) by ring]
    exact mul_le_mul_of_nonneg_right (by norm_num) uLL0.le

/-- the coefficients of the quadratic equation -/
theorem sphere_coeffs (hF : F.Rounds u η hi) (hs : Scale u η hi L) {org dir cen : Vec3 (XF F)} {rad : XF F}
    {o d c : Vec3 K} {r : K} (ho : IsV org o) (hd : IsV dir d) (hc : IsV cen c) (hr : rad.Is r)
    (hN : Vec3.dot d d ≤ 5 / 4) (hL : |o.x - c.x| + |o.y - c.y| + |o.z - c.z| + |r| ≤ L) :
    ∃ A B C, (Vec3.dot dir dir).Is A ∧ (nat 2 * Vec3.dot (org - cen) dir).Is B ∧
      (Vec3.dot (org - cen) (org - cen) - rad * rad).Is C ∧ |A - Vec3.dot d d| ≤ 6 * u ∧
      |B - 2 * Vec3.dot (o - c) d| ≤ 14 * (u * L) ∧ |C - (Vec3.dot (o - c) (o - c) - r * r)| ≤ 9 * (u * L ^ 2) ∧
      |2 * Vec3.dot (o - c) d| ≤ 9 / 4 * L ∧ |Vec3.dot (o - c) (o - c) - r * r| ≤ L ^ 2 := by
  obtain ⟨w, hw, hnear⟩ := rnd_subv hF hs ho hc (by linarith [abs_nonneg r])
  obtain ⟨hP1, hbv, hvd⟩ := hnear.dot_unit hs hN
  obtain ⟨hP2, hev⟩ := hnear.dot_self hs
  have hvv0 : Vec3.dot (o - c) (o - c) + r * r ≤ L ^ 2 ∧ 0 ≤ Vec3.dot (o - c) (o - c) := by
    have h1 := sum_sq_le (o.x - c.x) (o.y - c.y) (o.z - c.z) r
    have h2 := pow_le_pow_left₀ (by positivity) hL 2
    refine ⟨h1.trans h2, ?_⟩
    unfold Vec3.dot
    exact add_nonneg (add_nonneg (mul_self_nonneg _) (mul_self_nonneg _)) (mul_self_nonneg _)
  clear hL hnear
  generalize hv : o - c = v at *
  obtain ⟨hV2, hvv0⟩ := hvv0
  obtain ⟨u0, u1, η0, ηu, ηL, ηLL, -, -, L0, uL0, uLL0, uL1, uLL1, hi1, hiL, hiLL⟩ := hs.sizes
  have hG := hF.toGradual
  have hu8 : 8 * u ≤ 1 := by linarith
  have hA : ∃ A, (Vec3.dot dir dir).Is A ∧ |A - Vec3.dot d d| ≤ 6 * u := by
    have hN0 : |d.x * d.x| + |d.y * d.y| + |d.z * d.z| ≤ 5 / 4 := by
      rw [abs_mul_self, abs_mul_self, abs_mul_self]; exact hN
    obtain ⟨A, a1, a2, -⟩ := rnd_dot hG u0.le hu8 η0 hd hd hN0 (by linarith)
    exact ⟨A, a1, by linarith⟩
  have hB : ∃ B, (nat 2 * Vec3.dot (org - cen) dir).Is B ∧ |B - 2 * Vec3.dot v d| ≤ 14 * (u * L) := by
    obtain ⟨b, b1, b2, -⟩ := rnd_dot hG u0.le hu8 η0 hw hd hP1 (by linarith)
    have hb := abs_near_trans b2 hbv
    have hb' := abs_le_of_near hb hvd
    obtain ⟨B, B1, B2, -⟩ := rnd_mul hG u0.le (A := 227 / 100 * L) hF.nat2 b1
      (by rw [abs_mul, abs_two]; linarith) (by linarith)
    refine ⟨B, B1, ?_⟩
    have h1 : |2 * b - 2 * Vec3.dot v d| ≤ 2 * (4 * u * (113 / 100 * L) + 6 * η + 113 / 100 * (u * L)) := by
      rw [← mul_sub, abs_mul, abs_two]; exact mul_le_mul_of_nonneg_left hb (by norm_num)
    have := abs_near_trans B2 h1
    linarith
  have hC0 : |Vec3.dot v v - r * r| ≤ L ^ 2 := abs_le.2 ⟨by linarith [mul_self_nonneg r], by linarith [mul_self_nonneg r]⟩
  have hC : ∃ C, (Vec3.dot (org - cen) (org - cen) - rad * rad).Is C ∧
      |C - (Vec3.dot v v - r * r)| ≤ 9 * (u * L ^ 2) := by
    obtain ⟨e, e1, e2, -⟩ := rnd_dot hG u0.le hu8 η0 hw hw hP2 (by linarith)
    have he := abs_near_trans e2 hev
    obtain ⟨s, s1, s2, -⟩ := rnd_mul hG u0.le (A := L ^ 2) hr hr (by rw [abs_mul_self]; linarith) (by linarith)
    have hes : |(e - s) - (Vec3.dot v v - r * r)| ≤ 72 / 10 * (u * L ^ 2) := by
      rw [show (e - s) - (Vec3.dot v v - r * r) = (e - Vec3.dot v v) - (s - r * r) by ring]
      have := abs_sub_le' he s2
      linarith
    have hes' := abs_le_of_near hes hC0
    obtain ⟨C, C1, C2, -⟩ := rnd_sub hG u0.le (A := 101 / 100 * L ^ 2) e1 s1 (by linarith) (by linarith)
    have hC := abs_near_trans C2 hes
    exact ⟨C, C1, by linarith⟩
  obtain ⟨A, hA1, hA2⟩ := hA
  obtain ⟨B, hB1, hB2⟩ := hB
  obtain ⟨C, hC1, hC2⟩ := hC
  refine ⟨A, B, C, hA1, hB1, hC1, hA2, hB2, hC2, ?_, hC0⟩
  rw [abs_mul, abs_two]
  linarith

/-- bounds of the computed coefficients -/
structure CoefBounds (A B C L : K) : Prop where
  A0 : 74 / 100 ≤ A
  A1 : A ≤ 126 / 100
  B : |B| ≤ 226 / 100 * L
  C : |C| ≤ 101 / 100 * L ^ 2

theorem CoefBounds.of (hs : Scale u η hi L) {A B C N b c : K} (hA : |A - N| ≤ 6 * u) (hB : |B - b| ≤ 14 * (u * L))
    (hC : |C - c| ≤ 9 * (u * L ^ 2)) (hN0 : 3 / 4 ≤ N) (hN1 : N ≤ 5 / 4) (hb : |b| ≤ 9 / 4 * L) (hc : |c| ≤ L ^ 2) :
    CoefBounds A B C L := by
  obtain ⟨u0, u1, η0, ηu, ηL, ηLL, -, -, L0, uL0, uLL0, uL1, uLL1, hi1, hiL, hiLL⟩ := hs.sizes
  obtain ⟨a1, a2⟩ := abs_le.1 hA
  have h1 := abs_le_of_near hB hb
  have h2 := abs_le_of_near hC hc
  exact ⟨by linarith, by linarith, by linarith, by linarith⟩

theorem sphere_disc (hF : F.Rounds u η hi) (hs : Scale u η hi L) {a b c : XF F} {A B C : K} (ha : a.Is A) (hb : b.Is B)
    (hc : c.Is C) (h : CoefBounds A B C L) :
    ∃ D, (b * b - nat 4 * a * c).Is D ∧ |D - (B * B - 4 * A * C)| ≤ 26 * (u * L ^ 2) ∧ D ≤ 103 / 10 * L ^ 2 := by
  obtain ⟨u0, u1, η0, ηu, ηL, ηLL, -, -, L0, uL0, uLL0, uL1, uLL1, hi1, hiL, hiLL⟩ := hs.sizes
  have hG := hF.toGradual
  obtain ⟨A0, A1, hB, hC⟩ := h
  have hLL : 0 < L ^ 2 := by positivity
  have hBB : |B * B| ≤ 511 / 100 * L ^ 2 := (abs_mul_le hB hB).trans (by nlinarith)
  obtain ⟨p, p1, p2, -⟩ := rnd_mul hG u0.le hb hb hBB (by linarith)
  obtain ⟨q, q1, q2, -⟩ := rnd_mul hG u0.le (A := 504 / 100) hF.nat4 ha (by rw [abs_of_nonneg (by linarith)]; linarith)
    (by linarith)
  have hq : |q| ≤ 505 / 100 := by
    have := abs_le_of_near q2 (A := 504 / 100) (by rw [abs_of_nonneg (by linarith)]; linarith)
    linarith
  have hqC : |q * C| ≤ 511 / 100 * L ^ 2 := (abs_mul_le hq hC).trans (by nlinarith)
  obtain ⟨s, s1, s2, -⟩ := rnd_mul hG u0.le q1 hc hqC (by linarith)
  have hs4 : |s - 4 * A * C| ≤ 1022 / 100 * (u * L ^ 2) := by
    rw [show s - 4 * A * C = (s - q * C) + (q - 4 * A) * C by ring]
    refine (abs_add_le' s2 (abs_mul_le q2 hC)).trans ?_
    have e : (u * (504 / 100) + η) * (101 / 100 * L ^ 2) = 504 * 101 / 10000 * (u * L ^ 2) + 101 / 100 * (η * L ^ 2) := by
      ring
    have hη2 : η * L ^ 2 ≤ u * L ^ 2 / 2 ^ 20 := by
      have := mul_le_mul_of_nonneg_right ηu hLL.le
      linarith
    rw [e]
    linarith
  have h4 : |4 * A * C| ≤ 51 / 10 * L ^ 2 := by
    have h4A : |4 * A| ≤ 504 / 100 := by rw [abs_of_nonneg (by linarith)]; linarith
    exact (abs_mul_le h4A hC).trans (by nlinarith)
  have hps : |(p - s) - (B * B - 4 * A * C)| ≤ 1534 / 100 * (u * L ^ 2) := by
    rw [show (p - s) - (B * B - 4 * A * C) = (p - B * B) - (s - 4 * A * C) by ring]
    have := abs_sub_le' p2 hs4
    linarith
  have hbb := abs_le_of_near hps (abs_sub_le' hBB h4)
  obtain ⟨D, D1, D2, -⟩ := rnd_sub hG u0.le (A := 103 / 10 * L ^ 2) p1 s1 (by linarith) (by linarith)
  have hD := abs_near_trans D2 hps
  have hD' := abs_le_of_near hD (abs_sub_le' hBB h4)
  have := le_abs_self D
  exact ⟨D, D1, by linarith, by linarith⟩

theorem sphere_sqrt (hF : F.Rounds u η hi) (hs : Scale u η hi L) {x : XF F} {D E : K} (hx : x.Is D) (h0 : 0 ≤ D)
    (h1 : D ≤ 103 / 10 * L ^ 2) (hE : |D - E| ≤ 26 * (u * L ^ 2)) :
    ∃ Q, (sqrt x).Is Q ∧ 0 ≤ Q ∧ Q ≤ 33 / 10 * L ∧ |Q ^ 2 - E| ≤ 68 * (u * L ^ 2) := by
  obtain ⟨u0, u1, η0, ηu, ηL, ηLL, -, -, L0, uL0, uLL0, uL1, uLL1, hi1, hiL, hiLL⟩ := hs.sizes
  have hLL : 0 < L ^ 2 := by positivity
  obtain ⟨Q, q1, q2, q3⟩ := rnd_sqrt hF u0.le η0 hx h0 (by linarith)
  have h2 : u * D ≤ 103 / 10 * (u * L ^ 2) := by
    have := mul_le_mul_of_nonneg_left h1 u0.le
    linarith
  have h3 := abs_near_trans q3 hE
  refine ⟨Q, q1, q2, ?_, by linarith⟩
  refine le_of_sq_le_sq ?_ (by positivity)
  have := (abs_le.1 q3).2
  rw [mul_pow]
  linarith

/-- one of the two roots: `n` is the computed `-B ∓ Q` -/
theorem sphere_root (hF : F.Rounds u η hi) (hs : Scale u η hi L) {a n : XF F} {A s N : K} (ha : a.Is A) (hn : n.Is N)
    (A0 : 74 / 100 ≤ A) (hs1 : |s| ≤ 556 / 100 * L) (hN : |N - s| ≤ 557 / 100 * (u * L)) :
    ∃ t, (ofRat (1 / 2) * (nat 1 / a) * n).Is t ∧ |t - s / (2 * A)| ≤ 16 * (u * L) ∧ |t| ≤ 38 / 10 * L := by
  obtain ⟨u0, u1, η0, ηu, ηL, ηLL, -, -, L0, uL0, uLL0, uL1, uLL1, hi1, hiL, hiLL⟩ := hs.sizes
  have hG := hF.toGradual
  have hA : 0 < A := by linarith
  have hR : |1 / A| ≤ 1352 / 1000 := by
    rw [abs_of_nonneg (by positivity), div_le_iff₀ hA]; linarith
  obtain ⟨R, r1, r2, -⟩ := rnd_div hG u0.le hF.nat1 ha hA.ne' hR (by linarith)
  have hR' := abs_le_of_near r2 hR
  have hh : |1 / 2 * R| ≤ 677 / 1000 := by
    rw [abs_mul, abs_of_nonneg (by norm_num : (0 : K) ≤ 1 / 2)]; linarith
  obtain ⟨H, H1, H2, -⟩ := rnd_mul hG u0.le hF.half' r1 hh (by linarith)
  have hHA : |H - 1 / (2 * A)| ≤ 136 / 100 * u := by
    have e : 1 / 2 * R - 1 / (2 * A) = 1 / 2 * (R - 1 / A) := by field_simp
    have h1 : |1 / 2 * R - 1 / (2 * A)| ≤ 1 / 2 * (u * (1352 / 1000) + η) := by
      rw [e, abs_mul, abs_of_nonneg (by norm_num : (0 : K) ≤ 1 / 2)]
      exact mul_le_mul_of_nonneg_left r2 (by norm_num)
    have := abs_near_trans H2 h1
    linarith
  have hH : |H| ≤ 678 / 1000 := by
    have := abs_le_of_near H2 hh
    linarith
  have hN' : |N| ≤ 557 / 100 * L := by
    have := abs_le_of_near hN hs1
    linarith
  have hHN : |H * N| ≤ 378 / 100 * L := (abs_mul_le hH hN').trans (by linarith)
  obtain ⟨t, t1, t2, -⟩ := rnd_mul hG u0.le H1 hn hHN (by linarith)
  have h2A : |1 / (2 * A)| ≤ 676 / 1000 := by
    rw [abs_of_nonneg (by positivity), div_le_iff₀ (by positivity)]; linarith
  have ht : |H * N - s / (2 * A)| ≤ 1135 / 100 * (u * L) := by
    rw [show H * N - s / (2 * A) = (H - 1 / (2 * A)) * N + 1 / (2 * A) * (N - s) by field_simp; ring]
    refine (abs_add_le' (abs_mul_le hHA hN') (abs_mul_le h2A hN)).trans ?_
    have e : 136 / 100 * u * (557 / 100 * L) = 136 * 557 / 10000 * (u * L) := by ring
    rw [e]
    linarith
  have h1 := abs_near_trans t2 ht
  have h2 := abs_le_of_near t2 hHN
  exact ⟨t, t1, by linarith, by linarith⟩

/-- What the sphere test computes: coefficients `A`, `B`, `C` close to the exact ones, and unless it fails at once, the
square root `Q` of the discriminant and two roots. -/
theorem sphere_run (hF : F.Rounds u η hi) (hs : Scale u η hi L) {i : SphereI (XF F)} {s : Sphere (XF F)} (ray : Ray (XF F))
    {o d c : Vec3 K} {r : K} (ho : IsV i.rayOrg o) (hd : IsV i.rayDir d) (hc : IsV s.center c) (hr : s.radius.Is r)
    (hN0 : 3 / 4 ≤ Vec3.dot d d) (hN1 : Vec3.dot d d ≤ 5 / 4)
    (hL : |o.x - c.x| + |o.y - c.y| + |o.z - c.z| + |r| ≤ L) :
    ∃ A B C D, CoefBounds A B C L ∧ |A - Vec3.dot d d| ≤ 6 * u ∧ |B - 2 * Vec3.dot (o - c) d| ≤ 14 * (u * L) ∧
      |C - (Vec3.dot (o - c) (o - c) - r * r)| ≤ 9 * (u * L ^ 2) ∧ |D - (B * B - 4 * A * C)| ≤ 26 * (u * L ^ 2) ∧
      (D < 0 → sphereIntersect i s ray = (i, false)) ∧
      (0 ≤ D → ∃ Q x0 x1 t0 t1, 0 ≤ Q ∧ Q ≤ 33 / 10 * L ∧ |Q ^ 2 - (B * B - 4 * A * C)| ≤ 68 * (u * L ^ 2) ∧
        x0.Is t0 ∧ x1.Is t1 ∧ |t0 - (-B - Q) / (2 * A)| ≤ 16 * (u * L) ∧ |t1 - (-B + Q) / (2 * A)| ≤ 16 * (u * L) ∧
        |t0| ≤ 38 / 10 * L ∧ |t1| ≤ 38 / 10 * L ∧
        sphereIntersect i s ray = if gt x0 i.minHit && lt x0 i.hd then
            ({ i with hd := Vec3.norm (Vec3.smul x0 i.rayDir), primId := s.primId }, true)
          else if gt x1 i.minHit && lt x1 i.hd then
            ({ i with hd := Vec3.norm (Vec3.smul x1 i.rayDir), primId := s.primId }, true)
          else (i, false)) := by
  obtain ⟨A, B, C, a1, b1, c1, hA, hB, hC, hb, hc'⟩ := sphere_coeffs hF hs ho hd hc hr hN1 hL
  have hcb := CoefBounds.of hs hA hB hC hN0 hN1 hb hc'
  obtain ⟨D, d1, hD, hD'⟩ := sphere_disc hF hs a1 b1 c1 hcb
  refine ⟨A, B, C, D, hcb, hA, hB, hC, hD, fun h0 => ?_, fun h0 => ?_⟩
  · unfold sphereIntersect
    simp only
    rw [if_pos ((XF.Is.lt d1 hF.nat0).2 h0)]
  · obtain ⟨Q, q1, q2, q3, q4⟩ := sphere_sqrt hF hs d1 h0 hD' hD
    obtain ⟨u0, u1, η0, ηu, ηL, ηLL, -, -, L0, uL0, uLL0, uL1, uLL1, hi1, hiL, hiLL⟩ := hs.sizes
    have hQ : |Q| ≤ 33 / 10 * L := by rw [abs_of_nonneg q2]; exact q3
    have hBn : |-B| ≤ 226 / 100 * L := by rw [abs_neg]; exact hcb.B
    have h1 : |-B - Q| ≤ 556 / 100 * L := (abs_sub_le' hBn hQ).trans_eq (by ring)
    have h2 : |-B + Q| ≤ 556 / 100 * L := (abs_add_le' hBn hQ).trans_eq (by ring)
    obtain ⟨m0, m1, m2, -⟩ := rnd_sub hF.toGradual u0.le b1.neg q1 h1 (by linarith)
    obtain ⟨n0, n1, n2, -⟩ := rnd_add hF.toGradual u0.le b1.neg q1 h2 (by linarith)
    obtain ⟨t0, t01, t02, t03⟩ := sphere_root hF hs a1 m1 hcb.A0 h1 (by linarith)
    obtain ⟨t1, t11, t12, t13⟩ := sphere_root hF hs a1 n1 hcb.A0 h2 (by linarith)
    refine ⟨Q, _, _, t0, t1, q2, q3, q4, t01, t11, t02, t12, t03, t13, ?_⟩
    have hlt : lt (nat 2 * Vec3.dot (i.rayOrg - s.center) i.rayDir * (nat 2 * Vec3.dot (i.rayOrg - s.center) i.rayDir) -
        nat 4 * Vec3.dot i.rayDir i.rayDir * (Vec3.dot (i.rayOrg - s.center) (i.rayOrg - s.center) -
          s.radius * s.radius)) (nat 0) = false := by
      rw [Bool.eq_false_iff, ne_eq, XF.Is.lt d1 hF.nat0]
      exact not_lt.2 h0
    unfold sphereIntersect
    simp only
    rw [hlt]
    simp only [Bool.false_eq_true, if_false]

/-- how well the computed root solves the exact equation -/
theorem root_residual (hs : Scale u η hi L) {A B C N b c s E t : K} (hb : CoefBounds A B C L) (hA : |A - N| ≤ 6 * u)
    (hB : |B - b| ≤ 14 * (u * L)) (hC : |C - c| ≤ 9 * (u * L ^ 2)) (hE : E = B * B - 4 * A * C)
    (hsq : |(s + B) ^ 2 - E| ≤ 68 * (u * L ^ 2)) (ht : |t - s / (2 * A)| ≤ 16 * (u * L)) (ht' : |t| ≤ 38 / 10 * L) :
    |N * t ^ 2 + b * t + c| ≤ 400 * (u * L ^ 2) := by
  obtain ⟨u0, u1, η0, ηu, ηL, ηLL, -, -, L0, uL0, uLL0, uL1, uLL1, hi1, hiL, hiLL⟩ := hs.sizes
  obtain ⟨A0, A1, hB', hC'⟩ := hb
  have hA0 : 0 < A := by linarith
  set w := s / (2 * A) with hw
  have hws : 2 * A * w = s := by rw [hw]; field_simp
  have h1 : |A * w ^ 2 + B * w + C| ≤ 23 * (u * L ^ 2) := by
    have e : 4 * A * (A * w ^ 2 + B * w + C) = (s + B) ^ 2 - E := by rw [← hws, hE]; ring
    rw [← e, abs_mul, abs_of_pos (by linarith : 0 < 4 * A)] at hsq
    by_contra hc
    have hc := not_le.1 hc
    have : 4 * A * (23 * (u * L ^ 2)) ≤ 4 * A * |A * w ^ 2 + B * w + C| := mul_le_mul_of_nonneg_left hc.le (by linarith)
    nlinarith
  have hw' : |w| ≤ 381 / 100 * L := by
    have : |w - t| ≤ 16 * (u * L) := by rw [abs_sub_comm]; exact ht
    have := abs_le_of_near this ht'
    linarith
  have h2 : |A * (t + w) + B| ≤ 119 / 10 * L := by
    have hA' : |A| ≤ 126 / 100 := by rw [abs_of_pos hA0]; exact A1
    refine (abs_add_le' (abs_mul_le hA' (abs_add_le' ht' hw')) hB').trans ?_
    linarith
  have h3 := abs_mul_le ht h2
  have hA2 : |N - A| ≤ 6 * u := by rw [abs_sub_comm]; exact hA
  have hB2 : |b - B| ≤ 14 * (u * L) := by rw [abs_sub_comm]; exact hB
  have hC2 : |c - C| ≤ 9 * (u * L ^ 2) := by rw [abs_sub_comm]; exact hC
  have htt : |t ^ 2| ≤ 1444 / 100 * L ^ 2 := by
    rw [pow_two]
    refine (abs_mul_le ht' ht').trans (le_of_eq (by ring))
  have h4 := abs_mul_le hA2 htt
  have h5 := abs_mul_le hB2 ht'
  rw [show N * t ^ 2 + b * t + c = (A * w ^ 2 + B * w + C) + (t - w) * (A * (t + w) + B) + (N - A) * t ^ 2 +
    (b - B) * t + (c - C) by ring]
  refine (abs_add_le' (abs_add_le' (abs_add_le' (abs_add_le' h1 h3) h4) h5) hC2).trans ?_
  rw [show 16 * (u * L) * (119 / 10 * L) = 1904 / 10 * (u * L ^ 2) by ring,
    show 6 * u * (1444 / 100 * L ^ 2) = 8664 / 100 * (u * L ^ 2) by ring,
    show 14 * (u * L) * (38 / 10 * L) = 532 / 10 * (u * L ^ 2) by ring]
  linarith

theorem sq_near {u η w p : K} (h : |w - p| ≤ u * |p| + η) : |w * w - p * p| ≤ (u * |p| + η) * (2 * |p| + (u * |p| + η)) := by
  rw [show w * w - p * p = (w - p) * (w + p) by ring]
  refine abs_mul_le h ?_
  have h1 := abs_le_of_near h (le_refl |p|)
  have h2 := abs_add_le w p
  linarith

theorem scaled_comp (hF : F.Rounds u η hi) (hs : Scale u η hi L) {x y : XF F} {t e : K} (hx : x.Is t)
    (ht : |t| ≤ 38 / 10 * L) (hy : y.Is e) (he : |e| ≤ 9 / 8) : ∃ w, (x * y).Is w ∧
      |w * w - (t * e) * (t * e)| ≤ 202 / 100 * (u * ((t * e) * (t * e))) + 101 / 100 * (u ^ 2 * L ^ 2) := by
  obtain ⟨u0, u1, η0, ηu, ηL, ηLL, ηuLL, ηuL, L0, uL0, uLL0, uL1, uLL1, hi1, hiL, hiLL⟩ := hs.sizes
  have hte : |t * e| ≤ 428 / 100 * L := (abs_mul_le ht he).trans (by linarith)
  obtain ⟨w, w1, w2, -⟩ := rnd_mul hF.toGradual u0.le hx hy le_rfl (by linarith : |t * e| ≤ hi)
  refine ⟨w, w1, (sq_near w2).trans ?_⟩
  set a := |t * e| with ha
  have ha0 : 0 ≤ a := abs_nonneg _
  have haa : (t * e) * (t * e) = a * a := by rw [ha, abs_mul_abs_self]
  rw [haa]
  have e1 : (u * a + η) * (2 * a + (u * a + η)) = 2 * (u * (a * a)) + u * (u * (a * a)) + 2 * (η * a) +
    2 * (u * (η * a)) + η * η := by ring
  rw [e1]
  have haa0 : 0 ≤ u * (a * a) := by positivity
  have i1 : u * (u * (a * a)) ≤ 1 / 2 ^ 20 * (u * (a * a)) := mul_le_mul_of_nonneg_right u1 haa0
  have i2 : η * a ≤ u ^ 2 * L * a := mul_le_mul_of_nonneg_right ηuL ha0
  have i3 : 2 * (u ^ 2 * L * a) ≤ u * (u * (a * a)) + u ^ 2 * L ^ 2 := by
    have := mul_nonneg (pow_two_nonneg u) (mul_self_nonneg (a - L))
    linarith
  have i4 : u * (η * a) ≤ 1 / 2 ^ 20 * (η * a) := mul_le_mul_of_nonneg_right u1 (by positivity)
  have i5 : η * η ≤ 1 / 2 ^ 20 * (u ^ 2 * L ^ 2) := mul_le_mul (by linarith) ηuLL η0 (by norm_num)
  have i6 : 0 < u ^ 2 * L ^ 2 := by positivity
  linarith

/-- the length of `t · d` -/
theorem norm_scaled (hF : F.Rounds u η hi) (hs : Scale u η hi L) {x : XF F} {dir : Vec3 (XF F)} {t : K} {d : Vec3 K}
    (hx : x.Is t) (hd : IsV dir d) (hN1 : Vec3.dot d d ≤ 5 / 4) (ht : |t| ≤ 38 / 10 * L) :
    ∃ h, (Vec3.norm (Vec3.smul x dir)).Is h ∧ 0 ≤ h ∧
      |h ^ 2 - Vec3.dot d d * t ^ 2| ≤ 13 * (u * t ^ 2) + 14 * (u ^ 2 * L ^ 2) := by
  obtain ⟨u0, u1, η0, ηu, ηL, ηLL, ηuLL, ηuL, L0, uL0, uLL0, uL1, uLL1, hi1, hiL, hiLL⟩ := hs.sizes
  have hG := hF.toGradual
  have hu8 : 8 * u ≤ 1 := by linarith
  obtain ⟨dx, dy, dz⟩ := comp_le hN1
  have hLL : 0 < L ^ 2 := by positivity
  obtain ⟨p, p1, p2⟩ := scaled_comp hF hs hx ht hd.1 dx
  obtain ⟨q, q1, q2⟩ := scaled_comp hF hs hx ht hd.2.1 dy
  obtain ⟨r, r1, r2⟩ := scaled_comp hF hs hx ht hd.2.2 dz
  have hw : IsV (Vec3.smul x dir) ⟨p, q, r⟩ := ⟨p1, q1, r1⟩
  set S := Vec3.dot d d * t ^ 2 with hS
  have hSe : (t * d.x) * (t * d.x) + (t * d.y) * (t * d.y) + (t * d.z) * (t * d.z) = S := by
    rw [hS]; unfold Vec3.dot; ring
  have hSe' : u * ((t * d.x) * (t * d.x)) + u * ((t * d.y) * (t * d.y)) + u * ((t * d.z) * (t * d.z)) = u * S := by
    rw [← hSe]; ring
  have hS0 : 0 ≤ S := by
    rw [← hSe]; exact add_nonneg (add_nonneg (mul_self_nonneg _) (mul_self_nonneg _)) (mul_self_nonneg _)
  have hS1 : S ≤ 5 / 4 * t ^ 2 := mul_le_mul_of_nonneg_right hN1 (pow_two_nonneg _)
  have ht2 : t ^ 2 ≤ 1444 / 100 * L ^ 2 := by
    rw [← sq_abs]
    refine (pow_le_pow_left₀ (abs_nonneg _) ht 2).trans (le_of_eq (by ring))
  set U := u ^ 2 * L ^ 2 with hU
  have hU0 : 0 < U := by rw [hU]; positivity
  have hU1 : U ≤ L ^ 2 / 2 ^ 20 := by
    rw [hU, show u ^ 2 * L ^ 2 = u * (u * L ^ 2) by ring]
    have h1 := mul_le_mul_of_nonneg_right u1 uLL0.le
    linarith
  have huS : u * S ≤ S / 2 ^ 20 := (mul_le_mul_of_nonneg_right u1 hS0).trans_eq (by ring)
  have huS0 : 0 ≤ u * S := mul_nonneg u0.le hS0
  have huU : u * U ≤ U / 2 ^ 20 := (mul_le_mul_of_nonneg_right u1 hU0.le).trans_eq (by ring)
  have huS2 : u * (u * S) ≤ u * S / 2 ^ 20 := (mul_le_mul_of_nonneg_right u1 huS0).trans_eq (by ring)
  have hww : |p * p + q * q + r * r - S| ≤ 202 / 100 * (u * S) + 303 / 100 * U := by
    rw [← hSe, show p * p + q * q + r * r - (t * d.x * (t * d.x) + t * d.y * (t * d.y) + t * d.z * (t * d.z)) =
      (p * p - t * d.x * (t * d.x)) + (q * q - t * d.y * (t * d.y)) + (r * r - t * d.z * (t * d.z)) by ring]
    have := abs_add_le' (abs_add_le' p2 q2) r2
    linarith
  have hP : |p * p| + |q * q| + |r * r| ≤ 1001 / 1000 * S + 303 / 100 * U := by
    rw [abs_mul_self, abs_mul_self, abs_mul_self]
    have := (abs_le.1 hww).2
    linarith
  obtain ⟨g, g1, g2, g3⟩ := rnd_dot hG u0.le hu8 η0 hw hw hP (by linarith)
  have g0 := g3 (mul_self_nonneg _) (mul_self_nonneg _) (mul_self_nonneg _)
  have hg : |g - S| ≤ 604 / 100 * (u * S) + 91 / 10 * U := by
    have h1 := abs_near_trans g2 hww
    have e1 : 4 * u * (1001 / 1000 * S + 303 / 100 * U) = 4004 / 1000 * (u * S) + 1212 / 100 * (u * U) := by ring
    rw [e1] at h1
    linarith
  have hgS := (abs_le.1 hg).2
  obtain ⟨h, h1, h2, h3⟩ := rnd_sqrt hF u0.le η0 g1 g0 (by linarith)
  refine ⟨h, h1, h2, ?_⟩
  have h4 := abs_near_trans h3 hg
  have hug : u * g ≤ u * (S + (604 / 100 * (u * S) + 91 / 10 * U)) := mul_le_mul_of_nonneg_left (by linarith) u0.le
  have e2 : u * (S + (604 / 100 * (u * S) + 91 / 10 * U)) = u * S + 604 / 100 * (u * (u * S)) + 91 / 10 * (u * U) := by ring
  rw [e2] at hug
  have huS3 : u * S ≤ 5 / 4 * (u * t ^ 2) := by
    have := mul_le_mul_of_nonneg_left hS1 u0.le
    linarith
  linarith

/-- the reported distance is close to the parameter -/
theorem dist_near (hs : Scale u η hi L) {h t N δ : K} (h0 : 0 ≤ h) (t0 : 0 ≤ t) (hN : |N - 1| ≤ δ) (hδ : δ ≤ 1 / 4)
    (hh : |h ^ 2 - N * t ^ 2| ≤ 13 * (u * t ^ 2) + 14 * (u ^ 2 * L ^ 2)) :
    |h - t| ≤ (δ + 13 * u) * t + 14 * (u * L) := by
  obtain ⟨u0, u1, η0, ηu, ηL, ηLL, ηuLL, ηuL, L0, uL0, uLL0, uL1, uLL1, hi1, hiL, hiLL⟩ := hs.sizes
  have hδ0 : 0 ≤ δ := (abs_nonneg _).trans hN
  have h1 : |h ^ 2 - t ^ 2| ≤ (δ + 13 * u) * t ^ 2 + 14 * (u ^ 2 * L ^ 2) := by
    have h2 : |N * t ^ 2 - t ^ 2| ≤ δ * t ^ 2 := by
      rw [show N * t ^ 2 - t ^ 2 = (N - 1) * t ^ 2 by ring, abs_mul, abs_of_nonneg (pow_two_nonneg t)]
      exact mul_le_mul_of_nonneg_right hN (pow_two_nonneg t)
    have := abs_near_trans hh h2
    linarith
  rcases le_or_gt (u * L) t with hc | hc
  · by_contra hcon
    have hcon := not_le.1 hcon
    have hd0 : 0 < |h - t| := lt_of_le_of_lt (by positivity) hcon
    have ht : 0 < t := lt_of_lt_of_le uL0 hc
    have h2 : |h ^ 2 - t ^ 2| = |h - t| * (h + t) := by
      rw [show h ^ 2 - t ^ 2 = (h - t) * (h + t) by ring, abs_mul, abs_of_nonneg (by linarith : 0 ≤ h + t)]
    have h3 : |h - t| * t ≤ |h - t| * (h + t) := mul_le_mul_of_nonneg_left (by linarith) hd0.le
    have h4 := mul_lt_mul_of_pos_right hcon ht
    have h5 : (u * L) * (u * L) ≤ (u * L) * t := mul_le_mul_of_nonneg_left hc uL0.le
    nlinarith
  · have hh16 : h ≤ 4 * (u * L) := by
      refine le_of_sq_le_sq ?_ (by positivity)
      have h2 := (abs_le.1 h1).2
      have h3 : t ^ 2 ≤ (u * L) ^ 2 := pow_le_pow_left₀ t0 hc.le 2
      have h4 : (δ + 13 * u) * t ^ 2 ≤ 1 / 2 * (u * L) ^ 2 := mul_le_mul (by linarith) h3 (by positivity) (by norm_num)
      rw [mul_pow] at *
      have : 0 < u ^ 2 * L ^ 2 := by positivity
      linarith
    have h5 : 0 ≤ (δ + 13 * u) * t := by positivity
    rw [abs_le]
    constructor <;> linarith

theorem comp_sq_le (p : Vec3 K) : p.x * p.x ≤ Vec3.dot p p ∧ p.y * p.y ≤ Vec3.dot p p ∧ p.z * p.z ≤ Vec3.dot p p := by
  have h1 := mul_self_nonneg p.x
  have h2 := mul_self_nonneg p.y
  have h3 := mul_self_nonneg p.z
  unfold Vec3.dot
  refine ⟨?_, ?_, ?_⟩ <;> linarith

theorem normalized_comp (hF : F.Rounds u η hi) (u0 : 0 < u) (u1 : u ≤ 1 / 2 ^ 20) (η0 : 0 ≤ η) (ηu : η ≤ u / 2 ^ 20)
    (hi1 : 64 ≤ hi) {x y : XF F} {a n S : K} (hn : y.Is n) (hn0 : 0 < n) (hS : S ≤ 101 / 100 * n ^ 2) (hx : x.Is a)
    (ha : a * a ≤ S) : ∃ e, (x / y).Is e ∧ |e - a / n| ≤ u * |a / n| + η ∧
      |e * e - (a / n) * (a / n)| ≤ 201 / 100 * (u * ((a / n) * (a / n))) + 1 / 1000 * u := by
  have haa : (a / n) * (a / n) ≤ 101 / 100 := by
    rw [div_mul_div_comm, div_le_iff₀ (by positivity), ← pow_two n]
    exact ha.trans hS
  have hq : |a / n| ≤ 102 / 100 := abs_le_of_sq_le_sq (by rw [pow_two]; linarith) (by norm_num)
  obtain ⟨e, e1, e2, -⟩ := rnd_div hF.toGradual u0.le hx hn hn0.ne' le_rfl (by linarith : |a / n| ≤ hi)
  refine ⟨e, e1, e2, (sq_near e2).trans ?_⟩
  set b := |a / n| with hb
  have hb0 : 0 ≤ b := abs_nonneg _
  have hbb : (a / n) * (a / n) = b * b := by rw [hb, abs_mul_abs_self]
  rw [hbb]
  have e1 : (u * b + η) * (2 * b + (u * b + η)) = 2 * (u * (b * b)) + u * (u * (b * b)) + 2 * (η * b) +
    2 * (u * (η * b)) + η * η := by ring
  rw [e1]
  have haa0 : 0 ≤ u * (b * b) := by positivity
  have i1 : u * (u * (b * b)) ≤ 1 / 2 ^ 20 * (u * (b * b)) := mul_le_mul_of_nonneg_right u1 haa0
  have i2 : η * b ≤ u / 2 ^ 20 * (102 / 100) := mul_le_mul ηu hq hb0 (by positivity)
  have i4 : u * (η * b) ≤ 1 / 2 ^ 20 * (η * b) := mul_le_mul_of_nonneg_right u1 (by positivity)
  have i5 : η * η ≤ 1 / 2 ^ 20 * (u / 2 ^ 20) := mul_le_mul (by linarith) ηu η0 (by norm_num)
  linarith

/-- blaze's `normalize` -/
theorem normalize_near (hF : F.Rounds u η hi) {dir : Vec3 (XF F)} {p : Vec3 K} (hp : IsV dir p)
    (hs : Scale u η hi (|p.x| + |p.y| + |p.z|)) :
    ∃ d n, IsV (Vec3.normalize dir) d ∧ |Vec3.dot d d - 1| ≤ 11 * u ∧ 0 < n ∧
      |n ^ 2 - Vec3.dot p p| ≤ 9 * u * Vec3.dot p p ∧ |d.x - p.x / n| ≤ u * |p.x / n| + η ∧
      |d.y - p.y / n| ≤ u * |p.y / n| + η ∧ |d.z - p.z / n| ≤ u * |p.z / n| + η := by
  obtain ⟨u0, u1, η0, ηu, ηL, ηLL, ηuLL, ηuL, L0, uL0, uLL0, uL1, uLL1, hi1, hiL, hiLL⟩ := hs.sizes
  have hG := hF.toGradual
  have hu8 : 8 * u ≤ 1 := by linarith
  have hL1 := sum_sq_le p.x p.y p.z 0
  rw [mul_zero, add_zero, abs_zero, add_zero] at hL1
  set L := |p.x| + |p.y| + |p.z| with hL
  set S := Vec3.dot p p with hS
  have hL1 : S ≤ L ^ 2 := hL1
  have hL3 : L ^ 2 ≤ 3 * S := by
    rw [hL, hS]
    unfold Vec3.dot
    rw [← abs_mul_abs_self p.x, ← abs_mul_abs_self p.y, ← abs_mul_abs_self p.z]
    nlinarith [mul_self_nonneg (|p.x| - |p.y|), mul_self_nonneg (|p.y| - |p.z|), mul_self_nonneg (|p.x| - |p.z|)]
  have hLL : 0 < L ^ 2 := by positivity
  have hS0 : 0 < S := by linarith
  have huS0 : 0 < u * S := mul_pos u0 hS0
  have huS1 : u * S ≤ S / 2 ^ 20 := (mul_le_mul_of_nonneg_right u1 hS0.le).trans_eq (by ring)
  have hηS : η ≤ 3 / 2 ^ 20 * (u * S) := by
    have := mul_le_mul_of_nonneg_left hL3 u0.le
    linarith
  have hP : |p.x * p.x| + |p.y * p.y| + |p.z * p.z| ≤ S := by
    rw [abs_mul_self, abs_mul_self, abs_mul_self]; exact le_rfl
  obtain ⟨g, g1, g2, g3⟩ := rnd_dot hG u0.le hu8 η0 hp hp hP (by linarith)
  have g0 := g3 (mul_self_nonneg _) (mul_self_nonneg _) (mul_self_nonneg _)
  have hgS := (abs_le.1 g2).2
  obtain ⟨n, n1, n2, n3⟩ := rnd_sqrt hF u0.le η0 g1 g0 (by linarith)
  have hug : u * g ≤ u * S * (1001 / 1000) := by
    rw [mul_assoc]
    exact mul_le_mul_of_nonneg_left (by linarith) u0.le
  have hn := abs_near_trans n3 g2
  have hn' : |n ^ 2 - S| ≤ 802 / 100 * (u * S) := by linarith
  have hnS : |n ^ 2 - S| ≤ 9 * u * S := by linarith
  obtain ⟨hn1, hn2⟩ := abs_le.1 hnS
  have hn0 : 0 < n := by
    rcases n2.lt_or_eq with h | h
    · exact h
    · rw [← h] at hn1; linarith
  have hnn : 0 < n ^ 2 := by positivity
  have hSn : S ≤ 101 / 100 * n ^ 2 := by linarith
  obtain ⟨hx2, hy2, hz2⟩ := comp_sq_le p
  obtain ⟨a, a1, a2, a3⟩ := normalized_comp hF u0 u1 η0 ηu hi1 n1 hn0 hSn hp.1 hx2
  obtain ⟨b, b1, b2, b3⟩ := normalized_comp hF u0 u1 η0 ηu hi1 n1 hn0 hSn hp.2.1 hy2
  obtain ⟨c, c1, c2, c3⟩ := normalized_comp hF u0 u1 η0 ηu hi1 n1 hn0 hSn hp.2.2 hz2
  refine ⟨⟨a, b, c⟩, n, ⟨a1, b1, c1⟩, ?_, hn0, hnS, a2, b2, c2⟩
  set X := p.x / n * (p.x / n) with hX
  set Y := p.y / n * (p.y / n) with hY
  set Z := p.z / n * (p.z / n) with hZ
  have hXYZ : X + Y + Z = S / n ^ 2 := by rw [hX, hY, hZ, hS]; unfold Vec3.dot; field_simp
  have hq : |S / n ^ 2 - 1| ≤ 82 / 10 * u := by
    rw [show S / n ^ 2 - 1 = (S - n ^ 2) / n ^ 2 by field_simp, abs_div, abs_of_pos hnn, div_le_iff₀ hnn, abs_sub_comm]
    refine hn'.trans ?_
    have h1 : u * S ≤ 101 / 100 * (u * n ^ 2) := by
      have := mul_le_mul_of_nonneg_left hSn u0.le
      linarith
    linarith
  obtain ⟨q1, q2⟩ := abs_le.1 hq
  have hu1 : u * X + u * Y + u * Z ≤ 1001 / 1000 * u := by
    rw [← mul_add, ← mul_add, hXYZ, mul_comm]
    exact mul_le_mul_of_nonneg_right (by linarith) u0.le
  have h1 := abs_add_le' (abs_add_le' a3 b3) c3
  have e : Vec3.dot (⟨a, b, c⟩ : Vec3 K) ⟨a, b, c⟩ - 1 = (a * a - X + (b * b - Y) + (c * c - Z)) + (S / n ^ 2 - 1) := by
    rw [← hXYZ]; unfold Vec3.dot; ring
  rw [e]
  have := abs_add_le' h1 hq
  linarith

theorem along_sq (o d c : Vec3 K) (r t : K) : Vec3.dot (along o d t - c) (along o d t - c) - r * r =
    Vec3.dot d d * t ^ 2 + 2 * Vec3.dot (o - c) d * t + (Vec3.dot (o - c) (o - c) - r * r) := by
  show (o.x + t * d.x - c.x) * (o.x + t * d.x - c.x) + (o.y + t * d.y - c.y) * (o.y + t * d.y - c.y) +
    (o.z + t * d.z - c.z) * (o.z + t * d.z - c.z) - r * r = (d.x * d.x + d.y * d.y + d.z * d.z) * t ^ 2 +
    2 * ((o.x - c.x) * d.x + (o.y - c.y) * d.y + (o.z - c.z) * d.z) * t +
    ((o.x - c.x) * (o.x - c.x) + (o.y - c.y) * (o.y - c.y) + (o.z - c.z) * (o.z - c.z) - r * r)
  ring

/-- from a parameter to the reported distance: the point moves by little -/
theorem residual_at_distance (hs : Scale u η hi L) {h t N b c δ : K} (t0 : 0 ≤ t) (hN : |N - 1| ≤ δ) (hδ : δ ≤ 1 / 4)
    (ht : t ≤ 38 / 10 * L) (hb : |b| ≤ 9 / 4 * L) (hh : |h - t| ≤ (δ + 13 * u) * t + 14 * (u * L))
    (hres : |N * t ^ 2 + b * t + c| ≤ 400 * (u * L ^ 2)) :
    |N * h ^ 2 + b * h + c| ≤ (1300 * u + 50 * δ) * L ^ 2 := by
  obtain ⟨u0, u1, η0, ηu, ηL, ηLL, ηuLL, ηuL, L0, uL0, uLL0, uL1, uLL1, hi1, hiL, hiLL⟩ := hs.sizes
  have hδ0 : 0 ≤ δ := (abs_nonneg _).trans hN
  have h1 : |h - t| ≤ 38 / 10 * (δ * L) + 64 * (u * L) := by
    have := mul_le_mul_of_nonneg_left ht (by linarith : 0 ≤ δ + 13 * u)
    linarith
  have hδL : δ * L ≤ 1 / 4 * L := mul_le_mul_of_nonneg_right hδ L0.le
  have hht : |h + t| ≤ 86 / 10 * L := by
    rw [show h + t = (h - t) + 2 * t by ring]
    have h2 : |2 * t| ≤ 76 / 10 * L := by rw [abs_of_nonneg (by linarith)]; linarith
    have := abs_add_le' h1 h2
    linarith
  have hN' : |N| ≤ 5 / 4 := by
    have := abs_le_of_near hN (A := 1) (by rw [abs_one])
    linarith
  have h3 : |N * (h + t) + b| ≤ 13 * L := by
    have := abs_add_le' (abs_mul_le hN' hht) hb
    linarith
  rw [show N * h ^ 2 + b * h + c = (h - t) * (N * (h + t) + b) + (N * t ^ 2 + b * t + c) by ring]
  refine (abs_add_le' (abs_mul_le h1 h3) hres).trans ?_
  have hδLL : 0 ≤ δ * L ^ 2 := by positivity
  nlinarith

/-- **soundness**: a hit reported by the sphere test -/
theorem sphere_hit_near (hF : F.Rounds u η hi) (hs : Scale u η hi L) {i i' : SphereI (XF F)} {s : Sphere (XF F)}
    (ray : Ray (XF F)) {o d c : Vec3 K} {r m δ : K} (ho : IsV i.rayOrg o) (hd : IsV i.rayDir d) (hc : IsV s.center c)
    (hr : s.radius.Is r) (hm : i.minHit.Is m) (hm0 : 0 ≤ m) (hN : |Vec3.dot d d - 1| ≤ δ) (hδ : δ ≤ 1 / 4)
    (hL : |o.x - c.x| + |o.y - c.y| + |o.z - c.z| + |r| ≤ L) (h : sphereIntersect i s ray = (i', true)) :
    ∃ h t, i'.hd.Is h ∧ 0 ≤ h ∧ m < t ∧ t ≤ 38 / 10 * L ∧ (∀ k, i.hd.Is k → t < k) ∧
      |h - t| ≤ (δ + 13 * u) * t + 14 * (u * L) ∧
      |Vec3.dot (along o d h - c) (along o d h - c) - r * r| ≤ (1300 * u + 50 * δ) * L ^ 2 := by
  obtain ⟨n1, n2⟩ := abs_le.1 hN
  have hN1 : Vec3.dot d d ≤ 5 / 4 := by linarith
  obtain ⟨A, B, C, D, hcb, hA, hB, hC, hD, hneg, hpos⟩ := sphere_run hF hs ray ho hd hc hr (by linarith) hN1 hL
  obtain ⟨A', B', C', -, -, -, -, -, -, hb, -⟩ := sphere_coeffs hF hs ho hd hc hr hN1 hL
  rcases lt_or_ge D 0 with hlt | hge
  · rw [hneg hlt] at h; simp at h
  obtain ⟨Q, x0, x1, t0, t1, q1, q2, q3, e0, e1, f0, f1, g0, g1, heq⟩ := hpos hge
  have key : ∀ x t q, x.Is t → q ^ 2 = Q ^ 2 → |t - (-B + q) / (2 * A)| ≤ 16 * (u * L) → |t| ≤ 38 / 10 * L →
      gt x i.minHit && lt x i.hd → i'.hd = Vec3.norm (Vec3.smul x i.rayDir) →
      ∃ h t, i'.hd.Is h ∧ 0 ≤ h ∧ m < t ∧ t ≤ 38 / 10 * L ∧ (∀ k, i.hd.Is k → t < k) ∧
      |h - t| ≤ (δ + 13 * u) * t + 14 * (u * L) ∧
      |Vec3.dot (along o d h - c) (along o d h - c) - r * r| ≤ (1300 * u + 50 * δ) * L ^ 2 := by
    intro x t q hx hq ht ht' hcond hi'
    rw [Bool.and_eq_true] at hcond
    have hmt : m < t := (XF.Is.gt hx hm).1 hcond.1
    obtain ⟨h, h1, h2, h3⟩ := norm_scaled hF hs hx hd hN1 ht'
    have h4 := dist_near hs h2 (by linarith : 0 ≤ t) hN hδ h3
    have htL : t ≤ 38 / 10 * L := (le_abs_self _).trans ht'
    refine ⟨h, t, hi' ▸ h1, h2, hmt, htL, fun k hk => (XF.Is.lt hx hk).1 hcond.2, h4, ?_⟩
    rw [along_sq]
    refine residual_at_distance hs (by linarith) hN hδ htL hb h4 ?_
    refine root_residual hs hcb hA hB hC rfl ?_ ht ht'
    rw [show -B + q + B = q by ring, hq]
    exact q3
  rw [heq] at h
  by_cases hc0 : (gt x0 i.minHit && lt x0 i.hd) = true
  · rw [if_pos hc0] at h
    injection h with h _
    exact key x0 t0 (-Q) e0 (by ring) (by rw [← sub_eq_add_neg]; exact f0) g0 hc0 (by rw [← h])
  · rw [if_neg hc0] at h
    by_cases hc1 : (gt x1 i.minHit && lt x1 i.hd) = true
    · rw [if_pos hc1] at h
      injection h with h _
      exact key x1 t1 Q e1 rfl f1 g1 hc1 (by rw [← h])
    · rw [if_neg hc1] at h
      simp at h

theorem inside_bound {N b c t L : K} (L0 : 0 < L) (hN0 : 3 / 4 ≤ N) (hb : |b| ≤ 9 / 4 * L) (hc : |c| ≤ L ^ 2) (t0 : 0 ≤ t)
    (h : N * t ^ 2 + b * t + c ≤ 0) : t ≤ 34 / 10 * L := by
  by_contra hcon
  have hcon := not_le.1 hcon
  have h1 := (abs_le.1 hb).1
  have h2 := (abs_le.1 hc).1
  have h3 : 3 / 4 * t ^ 2 ≤ N * t ^ 2 := mul_le_mul_of_nonneg_right hN0 (pow_two_nonneg t)
  have h4 : -(9 / 4 * L) * t ≤ b * t := mul_le_mul_of_nonneg_right h1 t0
  nlinarith

/-- the computed polynomial is close to the exact one -/
theorem poly_near (hs : Scale u η hi L) {A B C N b c t : K} (hA : |A - N| ≤ 6 * u)
    (hB : |B - b| ≤ 14 * (u * L)) (hC : |C - c| ≤ 9 * (u * L ^ 2)) (ht0 : 0 ≤ t) (ht : t ≤ 34 / 10 * L) :
    |(A * t ^ 2 + B * t + C) - (N * t ^ 2 + b * t + c)| ≤ 126 * (u * L ^ 2) := by
  have uLL0 := hs.sizes.uLL0
  have ht' : |t| ≤ 34 / 10 * L := by rw [abs_of_nonneg ht0]; exact ht
  have htt : |t ^ 2| ≤ 1156 / 100 * L ^ 2 := by
    rw [pow_two]
    exact (abs_mul_le ht' ht').trans (le_of_eq (by ring))
  rw [show (A * t ^ 2 + B * t + C) - (N * t ^ 2 + b * t + c) = (A - N) * t ^ 2 + (B - b) * t + (C - c) by ring]
  refine (abs_add_le' (abs_add_le' (abs_mul_le hA htt) (abs_mul_le hB ht')) hC).trans ?_
  rw [show 6 * u * (1156 / 100 * L ^ 2) = 6936 / 100 * (u * L ^ 2) by ring,
    show 14 * (u * L) * (34 / 10 * L) = 476 / 10 * (u * L ^ 2) by ring]
  linarith

/-- the near root lies between a parameter outside the computed sphere and one inside it -/
theorem root_between_aux (u0 : 0 < u) (L0 : 0 < L) {A B E Q m t0 τ f g : K} (A0 : 74 / 100 ≤ A) (A1 : A ≤ 126 / 100)
    (b1 : -(226 / 100 * L) ≤ B) (q0 : 0 ≤ Q) (q1 : Q ≤ 33 / 10 * L)
    (q2 : |Q ^ 2 - E| ≤ 68 * (u * L ^ 2)) (ht : |t0 - (-B - Q) / (2 * A)| ≤ 16 * (u * L)) (hm0 : 0 ≤ m) (hmτ : m < τ)
    (hf : (2 * A * τ + B) ^ 2 = E + 4 * A * f) (hg : (2 * A * m + B) ^ 2 = E + 4 * A * g)
    (hin : f ≤ -(274 * (u * L ^ 2))) (hout : 274 * (u * L ^ 2) ≤ g) : m < t0 ∧ t0 < τ := by
  obtain ⟨q3, q4⟩ := abs_le.1 q2
  obtain ⟨t1, t2⟩ := abs_le.1 ht
  have uL0 : 0 < u * L := mul_pos u0 L0
  have hA0 : 0 < A := by linarith
  set G := u * L ^ 2 with hG
  have G0 : 0 < G := by rw [hG]; positivity
  have i0 : 811 * G ≤ 4 * A * (274 * G) := by
    have := mul_le_mul_of_nonneg_right A0 G0.le
    linarith
  have i1 : 4 * A * f ≤ 4 * A * -(274 * G) := mul_le_mul_of_nonneg_left hin (by linarith)
  have i2 : 4 * A * (274 * G) ≤ 4 * A * g := mul_le_mul_of_nonneg_left hout (by linarith)
  have hAm : A * m ≤ A * τ := mul_le_mul_of_nonneg_left hmτ.le hA0.le
  have hAm0 : 0 ≤ A * m := mul_nonneg hA0.le hm0
  have hy : ∃ y, y = 2 * A * τ + B := ⟨_, rfl⟩
  have hz : ∃ z, z = 2 * A * m + B := ⟨_, rfl⟩
  obtain ⟨y, hy⟩ := hy
  obtain ⟨z, hz⟩ := hz
  rw [← hy] at hf
  rw [← hz] at hg
  have hyQ : y ^ 2 + 743 * G ≤ Q ^ 2 := by linarith
  have hzQ : Q ^ 2 + 743 * G ≤ z ^ 2 := by linarith
  have hyq : |y| ≤ Q := abs_le_of_sq_le_sq (by linarith) q0
  obtain ⟨y1, y2⟩ := abs_le.1 hyq
  have hzy : z ≤ y := by rw [hz, hy]; linarith
  have hzneg : z < -Q := by
    by_contra hc
    have hc := not_lt.1 hc
    have : z ^ 2 ≤ Q ^ 2 := sq_le_sq' hc (by linarith)
    linarith
  -- margins
  have m1 : 112 * (u * L) ≤ Q + y := by
    by_contra hc
    have hc := not_le.1 hc
    have h1 : (Q + y) * (Q - y) ≤ (112 * (u * L)) * (66 / 10 * L) :=
      mul_le_mul hc.le (by linarith) (by linarith) (by positivity)
    have h2 : (Q + y) * (Q - y) = Q ^ 2 - y ^ 2 := by ring
    have h3 : (112 * (u * L)) * (66 / 10 * L) = 7392 / 10 * G := by rw [hG]; ring
    linarith
  have hzL : -z ≤ 226 / 100 * L := by rw [hz]; linarith
  have m2 : 52 * (u * L) ≤ -z - Q := by
    by_contra hc
    have hc := not_le.1 hc
    have h1 : (-z - Q) * (-z + Q) ≤ (52 * (u * L)) * (142 / 10 * L) :=
      mul_le_mul hc.le (by linarith) (by linarith) (by positivity)
    have h2 : (-z - Q) * (-z + Q) = z ^ 2 - Q ^ 2 := by ring
    have h3 : (52 * (u * L)) * (142 / 10 * L) = 7384 / 10 * G := by rw [hG]; ring
    linarith
  set w := (-B - Q) / (2 * A) with hw
  have hwA : 2 * A * w = -B - Q := by
    have : A ≠ 0 := hA0.ne'
    rw [hw]; field_simp
  have hAu : A * (u * L) ≤ 126 / 100 * (u * L) := mul_le_mul_of_nonneg_right A1 uL0.le
  have w1 : 44 * (u * L) ≤ τ - w := by
    by_contra hc
    have hc := not_le.1 hc
    have h1 : 2 * A * (τ - w) = Q + y := by rw [mul_sub, hwA, hy]; ring
    have h2 : 2 * A * (τ - w) ≤ 2 * A * (44 * (u * L)) := mul_le_mul_of_nonneg_left hc.le (by linarith)
    linarith
  have w2 : 20 * (u * L) ≤ w - m := by
    by_contra hc
    have hc := not_le.1 hc
    have h1 : 2 * A * (w - m) = -z - Q := by rw [mul_sub, hwA, hz]; ring
    have h2 : 2 * A * (w - m) ≤ 2 * A * (20 * (u * L)) := mul_le_mul_of_nonneg_left hc.le (by linarith)
    linarith
  constructor <;> linarith

theorem root_between (hs : Scale u η hi L) {A B C N b c Q m t0 τ : K} (hcb : CoefBounds A B C L) (hA : |A - N| ≤ 6 * u)
    (hB : |B - b| ≤ 14 * (u * L)) (hC : |C - c| ≤ 9 * (u * L ^ 2)) (hN0 : 3 / 4 ≤ N) (hb : |b| ≤ 9 / 4 * L)
    (hc : |c| ≤ L ^ 2) (q0 : 0 ≤ Q) (q1 : Q ≤ 33 / 10 * L) (q2 : |Q ^ 2 - (B * B - 4 * A * C)| ≤ 68 * (u * L ^ 2))
    (ht : |t0 - (-B - Q) / (2 * A)| ≤ 16 * (u * L)) (hm0 : 0 ≤ m) (hmτ : m < τ)
    (hin : N * τ ^ 2 + b * τ + c ≤ -(400 * (u * L ^ 2))) (hout : 400 * (u * L ^ 2) ≤ N * m ^ 2 + b * m + c) :
    m < t0 ∧ t0 < τ := by
  have L0 := hs.pos
  have uLL0 := hs.sizes.uLL0
  have hτ := inside_bound L0 hN0 hb hc (by linarith) (by linarith : N * τ ^ 2 + b * τ + c ≤ 0)
  have p1 := (abs_le.1 (poly_near hs hA hB hC (by linarith) hτ)).2
  have p2 := (abs_le.1 (poly_near hs hA hB hC hm0 (by linarith))).1
  exact root_between_aux hs.u_pos L0 hcb.A0 hcb.A1 (abs_le.1 hcb.B).1 q0 q1 q2 ht hm0 hmτ
    (f := A * τ ^ 2 + B * τ + C) (g := A * m ^ 2 + B * m + C) (by ring) (by ring) (by linarith) (by linarith)

/-- **completeness**: a ray that goes from outside the sphere well into it -/
theorem sphere_hit_found (hF : F.Rounds u η hi) (hs : Scale u η hi L) {i : SphereI (XF F)} {s : Sphere (XF F)}
    (ray : Ray (XF F)) {o d c : Vec3 K} {r m δ τ : K} (ho : IsV i.rayOrg o) (hd : IsV i.rayDir d) (hc : IsV s.center c)
    (hr : s.radius.Is r) (hm : i.minHit.Is m) (hm0 : 0 ≤ m) (hN : |Vec3.dot d d - 1| ≤ δ) (hδ : δ ≤ 1 / 4)
    (hL : |o.x - c.x| + |o.y - c.y| + |o.z - c.z| + |r| ≤ L) (hmτ : m < τ)
    (hin : Vec3.dot (along o d τ - c) (along o d τ - c) - r * r ≤ -(400 * (u * L ^ 2)))
    (hout : 400 * (u * L ^ 2) ≤ Vec3.dot (along o d m - c) (along o d m - c) - r * r)
    (hhd : i.hd = .inf false ∨ ∃ k, i.hd.Is k) :
    (∃ k, (sphereIntersect i s ray).1.hd.Is k ∧ k ≤ τ + ((δ + 13 * u) * τ + 14 * (u * L))) ∧
      ((∀ k, i.hd.Is k → τ ≤ k) → (sphereIntersect i s ray).2 = true) := by
  obtain ⟨u0, u1, η0, ηu, ηL, ηLL, ηuLL, ηuL, L0, uL0, uLL0, uL1, uLL1, hi1, hiL, hiLL⟩ := hs.sizes
  obtain ⟨n1, n2⟩ := abs_le.1 hN
  have hδ0 : 0 ≤ δ := (abs_nonneg _).trans hN
  have hN0 : 3 / 4 ≤ Vec3.dot d d := by linarith
  have hN1 : Vec3.dot d d ≤ 5 / 4 := by linarith
  rw [along_sq] at hin hout
  obtain ⟨A, B, C, D, hcb, hA, hB, hC, hD, hneg, hpos⟩ := sphere_run hF hs ray ho hd hc hr hN0 hN1 hL
  obtain ⟨A', B', C', -, -, -, -, -, -, hb, hc'⟩ := sphere_coeffs hF hs ho hd hc hr hN1 hL
  have hD0 : 0 ≤ D := by
    have hτ := inside_bound L0 hN0 hb hc' (by linarith) (le_trans hin (by linarith))
    have p1 := (abs_le.1 (poly_near hs hA hB hC (by linarith : 0 ≤ τ) hτ)).2
    have h1 : (2 * A * τ + B) ^ 2 = (B * B - 4 * A * C) + 4 * A * (A * τ ^ 2 + B * τ + C) := by ring
    have h2 : A * τ ^ 2 + B * τ + C ≤ -(274 * (u * L ^ 2)) := by linarith
    have h3 : 4 * A * (A * τ ^ 2 + B * τ + C) ≤ 4 * (74 / 100) * -(274 * (u * L ^ 2)) := by
      have := mul_le_mul_of_nonneg_left h2 (by linarith [hcb.A0] : 0 ≤ 4 * A)
      have h4 := mul_le_mul_of_nonneg_right hcb.A0 uLL0.le
      linarith
    have h5 := (abs_le.1 hD).1
    have h6 := pow_two_nonneg (2 * A * τ + B)
    linarith
  obtain ⟨Q, x0, x1, t0, t1, q1, q2, q3, e0, e1, f0, f1, g0, g1, heq⟩ := hpos hD0
  obtain ⟨r1, r2⟩ := root_between hs hcb hA hB hC hN0 hb hc' q1 q2 q3 f0 hm0 hmτ hin hout
  have hgt : gt x0 i.minHit = true := (XF.Is.gt e0 hm).2 r1
  have bound : ∀ h t, |h - t| ≤ (δ + 13 * u) * t + 14 * (u * L) → t < τ →
      h ≤ τ + ((δ + 13 * u) * τ + 14 * (u * L)) := by
    intro h t h1 h2
    have h3 := (abs_le.1 h1).2
    have h4 := mul_le_mul_of_nonneg_left h2.le (by linarith : 0 ≤ δ + 13 * u)
    linarith
  have hstep : ∀ j, sphereIntersect i s ray = (j, true) → (∀ k, i.hd.Is k → k ≤ t0) ∨ j.hd = Vec3.norm (Vec3.smul x0 i.rayDir) →
      i.hd ≠ .inf false ∨ j.hd = Vec3.norm (Vec3.smul x0 i.rayDir) →
      ∃ k, j.hd.Is k ∧ k ≤ τ + ((δ + 13 * u) * τ + 14 * (u * L)) := by
    intro j hj h1 h2
    by_cases hn : j.hd = Vec3.norm (Vec3.smul x0 i.rayDir)
    · obtain ⟨h, a1, a2, a3⟩ := norm_scaled hF hs e0 hd hN1 g0
      exact ⟨h, hn ▸ a1, bound h t0 (dist_near hs a2 (by linarith) hN hδ a3) r2⟩
    · have h1 := h1.resolve_right hn
      obtain ⟨k, hk⟩ := hhd.resolve_left (h2.resolve_right hn)
      obtain ⟨h, t, b1, b2, b3, b4, b5, b6, -⟩ := sphere_hit_near hF hs ray ho hd hc hr hm hm0 hN hδ hL hj
      exact ⟨h, b1, bound h t b6 (by linarith [b5 k hk, h1 k hk])⟩
  by_cases hlt : lt x0 i.hd = true
  · have hacc : sphereIntersect i s ray = ({ i with hd := Vec3.norm (Vec3.smul x0 i.rayDir), primId := s.primId }, true) := by
      rw [heq, if_pos (by rw [hgt, hlt]; rfl)]
    refine ⟨?_, fun _ => by rw [hacc]⟩
    rw [hacc]
    exact hstep _ hacc (.inr rfl) (.inr rfl)
  · have hk0 : ∃ k, i.hd.Is k ∧ k ≤ t0 := by
      rcases hhd with h | ⟨k, hk⟩
      · exact absurd ((XF.Is.lt_iff e0).2 (.inl h)) hlt
      · exact ⟨k, hk, not_lt.1 fun h => hlt ((XF.Is.lt e0 hk).2 h)⟩
    obtain ⟨k, hk, hkt⟩ := hk0
    refine ⟨?_, fun h => absurd (h k hk) (by linarith)⟩
    rcases hres : sphereIntersect i s ray with ⟨j, b⟩
    cases b with
    | true =>
      refine hstep j hres (.inl fun k' hk' => ?_) (.inl fun h => ?_)
      · rw [hk'.unique hk]; exact hkt
      · rw [h] at hk; obtain ⟨_, hk⟩ := hk; cases hk
    | false =>
      rw [heq] at hres
      have : j = i := by
        by_cases h0 : (gt x0 i.minHit && lt x0 i.hd) = true
        · rw [if_pos h0] at hres; simp at hres
        · rw [if_neg h0] at hres
          by_cases h1 : (gt x1 i.minHit && lt x1 i.hd) = true
          · rw [if_pos h1] at hres; simp at hres
          · rw [if_neg h1] at hres
            injection hres with h _
            exact h.symm
      subst this
      have : 0 ≤ (δ + 13 * u) * τ := mul_nonneg (by linarith) (by linarith)
      exact ⟨k, hk, by linarith⟩

end Blazert
