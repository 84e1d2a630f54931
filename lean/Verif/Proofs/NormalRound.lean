/- Rounding errors of the reported normals and of the distance to a sphere. -/
import Verif.Proofs.PlaneRound
import Verif.Spec.Hits
import Verif.Spec.NormalRound
import Verif.Proofs.SphereScan
import Verif.Proofs.Vector

set_option autoImplicit false
set_option linter.unusedSectionVars false

namespace Blazert
open Scalar

variable {K : Type} [Field K] [LinearOrder K] [IsStrictOrderedRing K] [FloorRing K] {F : Fmt K} {u η hi L : K}

theorem Scale.between {a b x : K} (h1 : Scale u η hi a) (h2 : Scale u η hi b) (ha : a ≤ x) (hb : x ≤ b) : Scale u η hi x := by
  have hx : 0 < x := lt_of_lt_of_le h1.pos ha
  have e1 : a ^ 2 ≤ x ^ 2 := pow_le_pow_left₀ h1.pos.le ha 2
  have e2 : x ^ 2 ≤ b ^ 2 := pow_le_pow_left₀ hx.le hb 2
  refine ⟨h1.u_pos, h1.u_le, h1.η_nonneg, h1.η_le, ?_, hx, ?_, h1.hi_large⟩
  · exact h1.η_le_sq.trans (mul_le_mul_of_nonneg_left e1 (by positivity))
  · exact (mul_le_mul_of_nonneg_left e2 (by norm_num)).trans h2.sq_le

theorem sq_near_scaled {a b e r : K} (h : |a - b| ≤ e * r) (hb : |b| ≤ 6 / 5 * r) (r0 : 0 < r) (e0 : 0 ≤ e) (he : e ≤ 1 / 100) :
    |a * a - b * b| ≤ 243 / 100 * (e * r ^ 2) := by
  rw [show a * a - b * b = (a - b) * ((a - b) + 2 * b) by ring]
  have h2 : |2 * b| ≤ 12 / 5 * r := by rw [abs_mul, abs_two]; linarith
  have her : e * r ≤ 1 / 100 * r := mul_le_mul_of_nonneg_right he r0.le
  have h3 : |a - b + 2 * b| ≤ 243 / 100 * r := (abs_add_le' h h2).trans (by linarith)
  exact (abs_mul_le h h3).trans_eq (by ring)

theorem quotient_near {p w n r e κ : K} (r0 : 0 < r) (hn : 72 / 100 * r ≤ n) (hp : |p - w| ≤ e * r) (hw : |w| ≤ 6 / 5 * r)
    (hκ : |n ^ 2 - r ^ 2| ≤ κ * r ^ 2) (e0 : 0 ≤ e) (κ0 : 0 ≤ κ) : |p / n - w / r| ≤ 14 / 10 * e + 97 / 100 * κ := by
  have n0 : 0 < n := by linarith
  have h1 : |n - r| ≤ 582 / 1000 * (κ * r) := by
    rw [show n ^ 2 - r ^ 2 = (n - r) * (n + r) by ring, abs_mul, abs_of_pos (by linarith : 0 < n + r)] at hκ
    have h2 : |n - r| * (172 / 100 * r) ≤ |n - r| * (n + r) := mul_le_mul_of_nonneg_left (by linarith) (abs_nonneg _)
    have h3 : |n - r| * (172 / 100) ≤ κ * r := by
      have h4 : (|n - r| * (172 / 100)) * r ≤ (κ * r) * r := by nlinarith
      exact le_of_mul_le_mul_right h4 r0
    have : 0 ≤ κ * r := by positivity
    linarith
  rw [show p / n - w / r = (p - w) / n + w * (r - n) / (n * r) by field_simp; ring]
  have h2 : |(p - w) / n| ≤ 14 / 10 * e := by
    rw [abs_div, abs_of_pos n0, div_le_iff₀ n0]
    nlinarith
  have h3 : |w * (r - n) / (n * r)| ≤ 97 / 100 * κ := by
    rw [abs_div, abs_of_pos (by positivity : 0 < n * r), div_le_iff₀ (by positivity)]
    rw [abs_sub_comm] at h1
    refine (abs_mul_le hw h1).trans ?_
    have h4 : κ * r * (72 / 100 * r) ≤ κ * r * n := mul_le_mul_of_nonneg_left hn (by positivity)
    have h5 : 0 ≤ κ * r * r := by positivity
    nlinarith
  exact abs_add_le' h2 h3

/-- the normalised vector, of a vector close to one of length about `r` -/
theorem normalize_dir_near (hF : F.Rounds u η hi) {v : Vec3 (XF F)} {p w : Vec3 K} {r e δ : K} (hv : IsV v p)
    (h1 : Scale u η hi (r / 2)) (h2 : Scale u η hi (4 * r)) (hx : |p.x - w.x| ≤ e * r) (hy : |p.y - w.y| ≤ e * r)
    (hz : |p.z - w.z| ≤ e * r) (he : e ≤ 1 / 100) (hw : |Vec3.dot w w - r * r| ≤ δ * r ^ 2) (hδ : δ ≤ 2 / 5) :
    ∃ n, IsV (Vec3.normalize v) n ∧ |Vec3.dot n n - 1| ≤ 11 * u ∧ ∀ k, |n.get k - w.get k / r| ≤ 9 * e + δ + 16 * u := by
  have r0 : 0 < r := by linarith [h1.pos]
  have u0 := h1.u_pos
  have u1 := h1.sizes.u1
  have ηu := h1.sizes.ηu
  have rr : 0 < r ^ 2 := by positivity
  have e0 : 0 ≤ e := by
    have := (abs_nonneg _).trans hx
    by_contra hneg
    have := mul_neg_of_neg_of_pos (not_le.1 hneg) r0
    linarith
  have δ0 : 0 ≤ δ := by
    have := (abs_nonneg _).trans hw
    by_contra hneg
    have := mul_neg_of_neg_of_pos (not_le.1 hneg) rr
    linarith
  have her : e * r ^ 2 ≤ 1 / 100 * r ^ 2 := mul_le_mul_of_nonneg_right he rr.le
  have hδr : δ * r ^ 2 ≤ 2 / 5 * r ^ 2 := mul_le_mul_of_nonneg_right hδ rr.le
  have hur : u * r ^ 2 ≤ 1 / 2 ^ 20 * r ^ 2 := mul_le_mul_of_nonneg_right u1 rr.le
  have hur0 : 0 < u * r ^ 2 := by positivity
  obtain ⟨hw1, hw2⟩ := abs_le.1 hw
  obtain ⟨sx, sy, sz⟩ := comp_sq_le w
  have hww : Vec3.dot w w ≤ 7 / 5 * r ^ 2 := by rw [pow_two] at hδr ⊢; rw [pow_two] at hw2; linarith
  have wx : |w.x| ≤ 6 / 5 * r := abs_le_of_sq_le_sq (by nlinarith) (by positivity)
  have wy : |w.y| ≤ 6 / 5 * r := abs_le_of_sq_le_sq (by nlinarith) (by positivity)
  have wz : |w.z| ≤ 6 / 5 * r := abs_le_of_sq_le_sq (by nlinarith) (by positivity)
  have qx := sq_near_scaled hx wx r0 e0 he
  have qy := sq_near_scaled hy wy r0 e0 he
  have qz := sq_near_scaled hz wz r0 e0 he
  have hpp : |Vec3.dot p p - r ^ 2| ≤ (δ + 73 / 10 * e) * r ^ 2 := by
    have e1 : Vec3.dot p p - r ^ 2 = ((p.x * p.x - w.x * w.x) + (p.y * p.y - w.y * w.y) + (p.z * p.z - w.z * w.z)) +
      (Vec3.dot w w - r * r) := by unfold Vec3.dot; ring
    rw [e1]
    refine (abs_add_le' (abs_add_le' (abs_add_le' qx qy) qz) hw).trans ?_
    have : 0 ≤ e * r ^ 2 := by positivity
    linarith
  obtain ⟨p1, p2⟩ := abs_le.1 hpp
  have hsum := sum_sq_le p.x p.y p.z 0
  rw [mul_zero, add_zero, abs_zero, add_zero] at hsum
  have hsum : Vec3.dot p p ≤ (|p.x| + |p.y| + |p.z|) ^ 2 := hsum
  have hone := oneNorm_sq_le p
  have hone0 := oneNorm_nonneg' p
  unfold oneNorm at hone hone0
  have hlow : r / 2 ≤ |p.x| + |p.y| + |p.z| := by
    refine le_of_sq_le_sq ?_ hone0
    linarith
  have hup : |p.x| + |p.y| + |p.z| ≤ 4 * r := by
    refine le_of_sq_le_sq ?_ (by positivity)
    linarith
  obtain ⟨n, N, n1, n2, n3, n4, n5, n6, n7⟩ := normalize_near hF hv (h1.between h2 hlow hup)
  have hN : |N ^ 2 - r ^ 2| ≤ (δ + 73 / 10 * e + 14 * u) * r ^ 2 := by
    have h3 : u * Vec3.dot p p ≤ u * (15 / 10 * r ^ 2) := mul_le_mul_of_nonneg_left (by linarith) u0.le
    have := abs_near_trans n4 hpp
    linarith
  have hN72 : 72 / 100 * r ≤ N := by
    refine le_of_sq_le_sq ?_ n3.le
    have := (abs_le.1 hN).1
    linarith
  have κ0 : 0 ≤ δ + 73 / 10 * e + 14 * u := by positivity
  have fin : ∀ a b c : K, |a - b| ≤ e * r → |b| ≤ 6 / 5 * r → |c - a / N| ≤ u * |a / N| + η →
      |c - b / r| ≤ 9 * e + δ + 16 * u := by
    intro a b c ha hb hc
    have h3 := quotient_near r0 hN72 ha hb hN e0 κ0
    have h4 : |a / N| ≤ 17 / 10 := by
      rw [abs_div, abs_of_pos n3, div_le_iff₀ n3]
      have h5 := abs_le_of_near ha hb
      have h6 : e * r ≤ 1 / 100 * r := mul_le_mul_of_nonneg_right he r0.le
      linarith
    have h5 := mul_le_mul_of_nonneg_left h4 u0.le
    have := abs_near_trans hc h3
    linarith
  refine ⟨n, n1, n2, fun k => ?_⟩
  match k with
  | 0 => exact fin _ _ _ hx wx n5
  | 1 => exact fin _ _ _ hy wy n6
  | 2 => exact fin _ _ _ hz wz n7

/-! ### spheres -/

theorem normal_comp (hF : F.Rounds u η hi) (hs : Scale u η hi L) {o' d' c' h' : XF F} {o d c h : K} (ho : o'.Is o) (hd : d'.Is d)
    (hc : c'.Is c) (hh : h'.Is h) (hL : |o| + |c| ≤ L) (hw : |o + h * d - c| ≤ 6 / 5 * L) :
    ∃ p, (o' + h' * d' - c').Is p ∧ |p - (o + h * d - c)| ≤ 7 * (u * L) := by
  obtain ⟨u0, u1, η0, ηu, ηL, ηLL, ηuLL, ηuL, L0, uL0, uLL0, uL1, uLL1, hi1, hiL, hiLL⟩ := hs.sizes
  have hG := hF.toGradual
  have o0 := abs_nonneg o
  have c0 := abs_nonneg c
  have h1 : |h * d| ≤ 22 / 10 * L := by
    rw [show h * d = (o + h * d - c) - (o - c) by ring]
    have := abs_sub_le' hw (abs_sub_le' (le_refl |o|) (le_refl |c|))
    linarith
  obtain ⟨a, a1, a2, -⟩ := rnd_mul hG u0.le hh hd h1 (by linarith)
  have h2 : |o + a| ≤ 33 / 10 * L := by
    have h3 : |a - h * d| ≤ 23 / 10 * (u * L) := by linarith
    have := abs_add_le' (le_refl |o|) (abs_le_of_near h3 h1)
    linarith
  obtain ⟨b, b1, b2, -⟩ := rnd_add hG u0.le ho a1 h2 (by linarith)
  have h3 : |b - (o + h * d)| ≤ 56 / 10 * (u * L) := by
    have h4 : |o + a - (o + h * d)| ≤ u * (22 / 10 * L) + η := by rw [show o + a - (o + h * d) = a - h * d by ring]; exact a2
    have := abs_near_trans b2 h4
    linarith
  have h4 : |(b - c) - (o + h * d - c)| ≤ 56 / 10 * (u * L) := by rw [show (b - c) - (o + h * d - c) = b - (o + h * d) by ring]; exact h3
  obtain ⟨p, p1, p2, -⟩ := rnd_sub hG u0.le b1 hc (abs_le_of_near h4 hw) (by linarith)
  refine ⟨p, p1, (abs_near_trans p2 h4).trans ?_⟩
  have : u * (u * L) ≤ 1 / 2 ^ 20 * (u * L) := mul_le_mul_of_nonneg_right u1 uL0.le
  linarith

/-- the normal reported for a sphere -/
theorem sphere_normal_near (hF : F.Rounds u η hi) {org dir cen : Vec3 (XF F)} {hd : XF F} {o d c : Vec3 K} {h r : K}
    (hs : Scale u η hi (4 * L)) (hr : Scale u η hi (r / 2)) (ho : IsV org o) (hdir : IsV dir d) (hc : IsV cen c) (hh : hd.Is h)
    (hL : |o.x| + |o.y| + |o.z| + |c.x| + |c.y| + |c.z| + r ≤ L) (hsmall : 5000 * u * L ^ 2 ≤ r ^ 2)
    (hpow : |power c r (along o d h)| ≤ 2000 * u * L ^ 2) :
    ∃ n, IsV (Vec3.normalize (org + Vec3.smul hd dir - cen)) n ∧ |Vec3.dot n n - 1| ≤ 11 * u ∧
      ∀ k, |n.get k - ((along o d h).get k - c.get k) / r| ≤ 2100 * u * (L / r) ^ 2 := by
  have r0 : 0 < r := by linarith [hr.pos]
  have ox := abs_nonneg o.x
  have oy := abs_nonneg o.y
  have oz := abs_nonneg o.z
  have cx := abs_nonneg c.x
  have cy := abs_nonneg c.y
  have cz := abs_nonneg c.z
  have hrL : r ≤ L := by linarith
  have L0 : 0 < L := by linarith
  have u0 := hr.u_pos
  have rr : 0 < r ^ 2 := by positivity
  have hsL : Scale u η hi L := hr.between hs (by linarith) (by linarith)
  have hs4 : Scale u η hi (4 * r) := hr.between hs (by linarith) (by linarith)
  set w := along o d h - c with hw
  have hwx : w.x = o.x + h * d.x - c.x := rfl
  have hwy : w.y = o.y + h * d.y - c.y := rfl
  have hwz : w.z = o.z + h * d.z - c.z := rfl
  have hpow' : |Vec3.dot w w - r * r| ≤ 2000 * u * L ^ 2 := hpow
  obtain ⟨q1, q2⟩ := abs_le.1 hpow'
  obtain ⟨sx, sy, sz⟩ := comp_sq_le w
  have wx : |w.x| ≤ 6 / 5 * r := abs_le_of_sq_le_sq (by nlinarith) (by positivity)
  have wy : |w.y| ≤ 6 / 5 * r := abs_le_of_sq_le_sq (by nlinarith) (by positivity)
  have wz : |w.z| ≤ 6 / 5 * r := abs_le_of_sq_le_sq (by nlinarith) (by positivity)
  obtain ⟨a, a1, a2⟩ := normal_comp hF hsL ho.1 hdir.1 hc.1 hh (by linarith) (by rw [← hwx]; linarith)
  obtain ⟨b, b1, b2⟩ := normal_comp hF hsL ho.2.1 hdir.2.1 hc.2.1 hh (by linarith) (by rw [← hwy]; linarith)
  obtain ⟨e, e1, e2⟩ := normal_comp hF hsL ho.2.2 hdir.2.2 hc.2.2 hh (by linarith) (by rw [← hwz]; linarith)
  have hq : 0 < L / r := by positivity
  have hq1 : 1 ≤ L / r := by rw [le_div_iff₀ r0]; linarith
  have hqq : L / r ≤ (L / r) ^ 2 := by rw [pow_two]; exact le_mul_of_one_le_left hq.le hq1
  have hLr : L = L / r * r := by field_simp
  have hLr2 : L ^ 2 = (L / r) ^ 2 * r ^ 2 := by field_simp
  have huq : 5000 * u * (L / r) ^ 2 ≤ 1 := by
    rw [div_pow, ← mul_div_assoc, div_le_one rr]; exact hsmall
  have huq1 : u * (L / r) ≤ u * (L / r) ^ 2 := mul_le_mul_of_nonneg_left hqq u0.le
  have huq2 : u ≤ u * (L / r) ^ 2 := le_mul_of_one_le_right u0.le (hq1.trans hqq)
  have hE : 7 * (u * L) = 7 * (u * (L / r)) * r := by rw [mul_assoc, mul_assoc, ← hLr]
  rw [hE] at a2 b2 e2
  obtain ⟨n, n1, n2, n3⟩ := normalize_dir_near hF (v := org + Vec3.smul hd dir - cen) (p := ⟨a, b, e⟩) (w := w) (r := r)
    (e := 7 * (u * (L / r))) (δ := 2000 * u * (L / r) ^ 2) ⟨a1, b1, e1⟩ hr hs4 a2 b2 e2 (by linarith)
    (hpow'.trans_eq (by rw [hLr2]; ring)) (by linarith)
  refine ⟨n, n1, n2, fun k => ?_⟩
  have e3 : (along o d h).get k - c.get k = w.get k := by
    match k with
    | 0 => rfl
    | 1 => rfl
    | 2 => rfl
  rw [e3]
  refine (n3 k).trans ?_
  linarith

/-! ### planes -/

theorem sign_near (hF : F.Rounds u η hi) (h1 : Scale u η hi 1) {x : XF F} {a : K} (hx : x.Is a) (ha : a ≠ 0) :
    ∃ s σ, (x / abs x).Is s ∧ (σ = 1 ∨ σ = -1) ∧ 0 < σ * a ∧ |s - σ| ≤ 101 / 100 * u := by
  obtain ⟨u0, u1, η0, ηu, -⟩ := h1.sizes
  have hi1 := h1.sizes.hi1
  have habs : |a / (|a|)| = 1 := by rw [abs_div, abs_abs, div_self (abs_ne_zero.2 ha)]
  obtain ⟨s, s1, s2, -⟩ := rnd_div hF.toGradual u0.le hx hx.abs (abs_ne_zero.2 ha) habs.le (by linarith)
  rcases lt_or_gt_of_ne ha with h | h
  · refine ⟨s, -1, s1, .inr rfl, by linarith, ?_⟩
    rw [abs_of_neg h, div_neg, div_self ha] at s2
    linarith
  · refine ⟨s, 1, s1, .inl rfl, by linarith, ?_⟩
    rw [abs_of_pos h, div_self ha] at s2
    linarith

theorem third_col (hF : F.Rounds u η hi) (h1 : Scale u η hi 1) {row : Vec3 (XF F)} {v : Vec3 K} {s' : XF F} {s σ : K}
    (hrow : IsV row v) (hv : |v.z| ≤ 101 / 100) (hs : s'.Is s) (hσ : σ = 1 ∨ σ = -1) (hsσ : |s - σ| ≤ 101 / 100 * u) :
    ∃ n, (s' * Vec3.dot row ⟨nat 0, nat 0, nat 1⟩).Is n ∧ |n - σ * v.z| ≤ 7 * u := by
  obtain ⟨u0, u1, η0, ηu, -⟩ := h1.sizes
  have hi1 := h1.sizes.hi1
  have hG := hF.toGradual
  have hσ1 : |σ| ≤ 1 := by rcases hσ with rfl | rfl <;> simp
  have hez : IsV (⟨nat 0, nat 0, nat 1⟩ : Vec3 (XF F)) ⟨0, 0, 1⟩ := ⟨hF.nat0, hF.nat0, hF.nat1⟩
  obtain ⟨g, g1, g2, -⟩ := rnd_dot hG u0.le (by linarith) η0 hrow hez (P := 101 / 100)
    (by simp only [mul_zero, mul_one, abs_zero, zero_add]; exact hv) (by linarith)
  have e1 : Vec3.dot v ⟨0, 0, 1⟩ = v.z := by simp [Vec3.dot]
  rw [e1] at g2
  have g3 : |g - v.z| ≤ 405 / 100 * u := by linarith
  have g4 : |g| ≤ 102 / 100 := (abs_le_of_near g3 hv).trans (by linarith)
  have s4 : |s| ≤ 101 / 100 := (abs_le_of_near hsσ hσ1).trans (by linarith)
  obtain ⟨n, n1, n2, -⟩ := rnd_mul hG u0.le hs g1 (abs_mul_le s4 g4) (by linarith)
  refine ⟨n, n1, ?_⟩
  have e2 : s * g - σ * v.z = (s - σ) * g + σ * (g - v.z) := by ring
  have h2 : |s * g - σ * v.z| ≤ 101 / 100 * u * (102 / 100) + 1 * (405 / 100 * u) := by
    rw [e2]; exact abs_add_le' (abs_mul_le hsσ g4) (abs_mul_le hσ1 g3)
  have := abs_near_trans n2 h2
  linarith

variable {ε : K}

/-- the normal reported in the interior of a rectangle -/
theorem plane_normal_near (hF : F.Rounds u η hi) (h1 : Scale u η hi (1 / 2)) (h4 : Scale u η hi 4) {rot : Mat3 (XF F)}
    {R : Mat3 K} {z : XF F} {a : K} (hR : IsM rot R) (hortho : NearOrtho ε R) (hε : ε ≤ 1 / 1000) (hz : z.Is a) (ha : a ≠ 0) :
    ∃ n σ, IsV (Vec3.normalize (Vec3.smul (z / abs z) (rot.mulVec ⟨nat 0, nat 0, nat 1⟩))) n ∧ |Vec3.dot n n - 1| ≤ 11 * u ∧
      (σ = 1 ∨ σ = -1) ∧ 0 < σ * a ∧ ∀ k, |n.get k - σ * (perp R).get k| ≤ 80 * u + ε := by
  have u0 := h1.u_pos
  have u1 := h1.sizes.u1
  have hone : Scale u η hi 1 := h1.between h4 (by norm_num) (by norm_num)
  obtain ⟨s, σ, s1, s2, s3, s4⟩ := sign_near hF hone hz ha
  have hcc : |Vec3.dot (perp R) (perp R) - 1| ≤ ε := hortho.cols.cc
  obtain ⟨wx, wy, wz⟩ := unit_comp hcc hε
  obtain ⟨x, x1, x2⟩ := third_col hF hone hR.1 (wx.trans (by norm_num)) s1 s2 s4
  obtain ⟨y, y1, y2⟩ := third_col hF hone hR.2.1 (wy.trans (by norm_num)) s1 s2 s4
  obtain ⟨w, w1, w2⟩ := third_col hF hone hR.2.2 (wz.trans (by norm_num)) s1 s2 s4
  have hσ : Vec3.dot (Vec3.smul σ (perp R)) (Vec3.smul σ (perp R)) = Vec3.dot (perp R) (perp R) := by
    have : σ * σ = 1 := by rcases s2 with rfl | rfl <;> norm_num
    have e : Vec3.dot (Vec3.smul σ (perp R)) (Vec3.smul σ (perp R)) = (σ * σ) * Vec3.dot (perp R) (perp R) := by
      simp only [Vec3.dot, Vec3.smul]; ring
    rw [e, this, one_mul]
  obtain ⟨n, n1, n2, n3⟩ := normalize_dir_near hF (p := ⟨x, y, w⟩) (w := Vec3.smul σ (perp R)) (r := 1) (e := 7 * u) (δ := ε)
    (v := Vec3.smul (z / abs z) (rot.mulVec ⟨nat 0, nat 0, nat 1⟩)) ⟨x1, y1, w1⟩ h1 (by rw [mul_one]; exact h4)
    (x2.trans_eq (by ring)) (y2.trans_eq (by ring)) (w2.trans_eq (by ring)) (by linarith)
    (by rw [hσ]; exact (by ring_nf at hcc ⊢; exact hcc)) (by linarith)
  refine ⟨n, σ, n1, n2, s2, s3, fun k => ?_⟩
  have h5 := n3 k
  rw [div_one] at h5
  have e : (Vec3.smul σ (perp R)).get k = σ * (perp R).get k := by
    match k with
    | 0 => rfl
    | 1 => rfl
    | 2 => rfl
  rw [e] at h5
  linarith

/-! ### the distance to a sphere -/

theorem dist_comp (u0 : 0 < u) (u1 : u ≤ 1 / 2 ^ 20) (η0 : 0 ≤ η) {a b L : K} (h : |a - b| ≤ u * |b| + η) (hb : |b| ≤ L) (L0 : 0 < L)
    (hη : η ≤ u ^ 2 * L) : |a * a - b * b| ≤ 21 / 10 * (u * (b * b)) + 21 / 10 * (u ^ 2 * L ^ 2) := by
  have b0 := abs_nonneg b
  rw [show a * a - b * b = (a - b) * ((a - b) + 2 * b) by ring]
  have h2 : |2 * b| ≤ 2 * |b| := by rw [abs_mul, abs_two]
  refine (abs_mul_le h (abs_add_le' h h2)).trans ?_
  rw [← abs_mul_abs_self b]
  have i1 : u * (u * (|b| * |b|)) ≤ 1 / 2 ^ 20 * (u * (|b| * |b|)) := mul_le_mul_of_nonneg_right u1 (by positivity)
  have i2 : η * |b| ≤ u ^ 2 * L * L := mul_le_mul hη hb b0 (by positivity)
  have i3 : u * (η * |b|) ≤ 1 / 2 ^ 20 * (u ^ 2 * L * L) := mul_le_mul u1 i2 (by positivity) (by norm_num)
  have i4 : η * η ≤ (u ^ 2 * L) * (u ^ 2 * L) := mul_le_mul hη hη η0 (by positivity)
  have i5 : u * u ≤ 1 / 2 ^ 20 * 1 := by nlinarith
  have i6 : (u ^ 2 * L) * (u ^ 2 * L) ≤ 1 / 2 ^ 20 * (u ^ 2 * L ^ 2) := by
    rw [show (u ^ 2 * L) * (u ^ 2 * L) = (u * u) * (u ^ 2 * L ^ 2) by ring]
    exact mul_le_mul_of_nonneg_right (by linarith) (by positivity)
  have i7 : 0 ≤ u * (|b| * |b|) := by positivity
  have i8 : 0 ≤ u ^ 2 * L ^ 2 := by positivity
  rw [show (u * |b| + η) * (u * |b| + η + 2 * |b|) = 2 * (u * (|b| * |b|)) + u * (u * (|b| * |b|)) + 2 * (η * |b|) +
    2 * (u * (η * |b|)) + η * η by ring]
  rw [show u ^ 2 * L * L = u ^ 2 * L ^ 2 by ring] at i2 i3
  linarith

theorem sphere_distance_near (hF : F.Rounds u η hi) (hs : Scale u η hi L) {s : Sphere (XF F)} {point : Vec3 (XF F)} {c p : Vec3 K}
    {r : K} (hc : IsV s.center c) (hr : s.radius.Is r) (hp : IsV point p)
    (hL : |c.x - p.x| + |c.y - p.y| + |c.z - p.z| + |r| ≤ L) :
    ∃ v n, (sphereDistance s point).Is v ∧ 0 ≤ n ∧
      |n ^ 2 - Vec3.dot (c - p) (c - p)| ≤ 11 * (u * Vec3.dot (c - p) (c - p)) + 20 * (u ^ 2 * L ^ 2) ∧
      |v - (|n - r|)| ≤ u * |n - r| + η := by
  obtain ⟨u0, u1, η0, ηu, ηL, ηLL, ηuLL, ηuL, L0, uL0, uLL0, uL1, uLL1, hi1, hiL, hiLL⟩ := hs.sizes
  have r0 := abs_nonneg r
  have vx := abs_nonneg (c.x - p.x)
  have vy := abs_nonneg (c.y - p.y)
  have vz := abs_nonneg (c.z - p.z)
  obtain ⟨w, w1, wx, wy, wz, -⟩ := rnd_subv hF hs hc hp (by linarith)
  have qx := dist_comp u0 u1 η0 wx (show |c.x - p.x| ≤ L by linarith) L0 ηuL
  have qy := dist_comp u0 u1 η0 wy (show |c.y - p.y| ≤ L by linarith) L0 ηuL
  have qz := dist_comp u0 u1 η0 wz (show |c.z - p.z| ≤ L by linarith) L0 ηuL
  set S := Vec3.dot (c - p) (c - p) with hS
  have S0 : 0 ≤ S := add_nonneg (add_nonneg (mul_self_nonneg _) (mul_self_nonneg _)) (mul_self_nonneg _)
  have uS0 : 0 ≤ u * S := mul_nonneg u0.le S0
  have uuL : 0 ≤ u ^ 2 * L ^ 2 := by positivity
  have hww : |Vec3.dot w w - S| ≤ 21 / 10 * (u * S) + 63 / 10 * (u ^ 2 * L ^ 2) := by
    have e1 : Vec3.dot w w - S = (w.x * w.x - (c - p).x * (c - p).x) + (w.y * w.y - (c - p).y * (c - p).y) +
      (w.z * w.z - (c - p).z * (c - p).z) := by rw [hS]; unfold Vec3.dot; ring
    have e2 : u * S = u * ((c - p).x * (c - p).x) + u * ((c - p).y * (c - p).y) + u * ((c - p).z * (c - p).z) := by
      rw [hS]; unfold Vec3.dot; ring
    rw [e1, e2]
    refine (abs_add_le' (abs_add_le' qx qy) qz).trans ?_
    linarith
  have hSL : S ≤ L ^ 2 := by
    have h1 := sum_sq_le (c.x - p.x) (c.y - p.y) (c.z - p.z) 0
    rw [mul_zero, add_zero, abs_zero, add_zero] at h1
    exact h1.trans (pow_le_pow_left₀ (by linarith) (by linarith) 2)
  have uuL1 : u ^ 2 * L ^ 2 ≤ 1 / 2 ^ 20 * (1 / 2 ^ 20 * L ^ 2) := by
    rw [pow_two u, mul_assoc]
    exact mul_le_mul u1 (by linarith) uLL0.le (by norm_num)
  have LL0 : 0 < L ^ 2 := by positivity
  have uS1 : u * S ≤ 1 / 2 ^ 20 * L ^ 2 := mul_le_mul u1 hSL S0 (by norm_num)
  have W0 : 0 ≤ Vec3.dot w w := add_nonneg (add_nonneg (mul_self_nonneg _) (mul_self_nonneg _)) (mul_self_nonneg _)
  have W1 := (abs_le.1 hww).2
  have hP : |w.x * w.x| + |w.y * w.y| + |w.z * w.z| ≤ Vec3.dot w w := by
    rw [abs_mul_self, abs_mul_self, abs_mul_self]; exact le_rfl
  obtain ⟨g, g1, g2, g3⟩ := rnd_dot hF.toGradual u0.le (by linarith) η0 w1 w1 hP (by linarith)
  have g0 := g3 (mul_self_nonneg _) (mul_self_nonneg _) (mul_self_nonneg _)
  have uW : u * Vec3.dot w w ≤ u * S + 1 / 2 ^ 20 * (21 / 10 * (u * S) + 63 / 10 * (u ^ 2 * L ^ 2)) := by
    have h1 := mul_le_mul_of_nonneg_left W1 u0.le
    have h2 : u * (21 / 10 * (u * S) + 63 / 10 * (u ^ 2 * L ^ 2)) ≤ 1 / 2 ^ 20 * (21 / 10 * (u * S) + 63 / 10 * (u ^ 2 * L ^ 2)) :=
      mul_le_mul_of_nonneg_right u1 (by positivity)
    linarith
  have hg := abs_near_trans g2 hww
  have hgS : |g - S| ≤ 62 / 10 * (u * S) + 13 * (u ^ 2 * L ^ 2) := by linarith
  have hgS2 := (abs_le.1 hgS).2
  obtain ⟨n, n1, n2, n3⟩ := rnd_sqrt hF u0.le η0 g1 g0 (by linarith)
  have ug : u * g ≤ u * S + 1 / 2 ^ 20 * (62 / 10 * (u * S) + 13 * (u ^ 2 * L ^ 2)) := by
    have h1 := mul_le_mul_of_nonneg_left hgS2 u0.le
    have h2 : u * (62 / 10 * (u * S) + 13 * (u ^ 2 * L ^ 2)) ≤ 1 / 2 ^ 20 * (62 / 10 * (u * S) + 13 * (u ^ 2 * L ^ 2)) :=
      mul_le_mul_of_nonneg_right u1 (by positivity)
    linarith
  have hn := abs_near_trans n3 hgS
  have hn4 : |n ^ 2 - S| ≤ 11 * (u * S) + 20 * (u ^ 2 * L ^ 2) := by linarith
  have hnL : n ≤ 2 * L := by
    refine le_of_sq_le_sq ?_ (by linarith)
    have := (abs_le.1 hn4).2
    linarith
  have hnr : |n - r| ≤ 3 * L := by
    have := abs_sub_le' (le_refl |n|) (le_refl |r|)
    rw [abs_of_nonneg n2] at this
    linarith
  obtain ⟨v, v1, v2, -⟩ := rnd_sub hF.toGradual u0.le n1 hr le_rfl (by linarith : |n - r| ≤ hi)
  exact ⟨|v|, n, v1.abs, n2, hn4, (abs_abs_sub_abs_le_abs_sub v (n - r)).trans v2⟩

theorem sphere_post_normal {T : Type} [Scalar T] {coll : SphereColl T} {s : SphereI T} {rayhit out : RayHit T} {center : Vec3 T}
    (h : (sphereIx coll).post s rayhit = .ok out) (hc : coll.centers[s.primId]? = some center) :
    out.primId = s.primId ∧ out.hitDistance = s.hd ∧
      out.normal = Vec3.normalize (s.rayOrg + Vec3.smul s.hd s.rayDir - center) := by
  change spherePost coll _ _ = _ at h
  unfold spherePost at h
  rw [run_bind_eq_ok] at h
  obtain ⟨c, hc', h⟩ := h
  simp only [run_pure, Except.ok.injEq] at h
  have e := lookup_eq_ok.1 hc'
  rw [hc, Option.some.injEq] at e
  subst e
  rw [← h]
  exact ⟨rfl, rfl, rfl⟩

theorem root_near {n A u L : ℝ} (u0 : 0 < u) (L0 : 0 < L) (n0 : 0 ≤ n) (A0 : 0 ≤ A)
    (h : |n ^ 2 - A ^ 2| ≤ 11 * (u * A ^ 2) + 20 * (u ^ 2 * L ^ 2)) : |n - A| ≤ 11 * (u * A) + 5 * (u * L) := by
  by_contra hneg
  have hneg := not_le.1 hneg
  rw [show n ^ 2 - A ^ 2 = (n - A) * (n + A) by ring, abs_mul, abs_of_nonneg (by linarith : 0 ≤ n + A)] at h
  have h1 : |n - A| ≤ n + A := abs_le.2 ⟨by linarith, by linarith⟩
  have hu : 0 < u * L := by positivity
  have huA : 0 ≤ u * A := by positivity
  have h2 : (11 * (u * A) + 5 * (u * L)) * (n + A) ≤ |n - A| * (n + A) := mul_le_mul_of_nonneg_right hneg.le (by linarith)
  have h3 : u * A * A ≤ u * A * (n + A) := mul_le_mul_of_nonneg_left (by linarith) huA
  have h4 : u * L * (5 * (u * L)) < u * L * (n + A) := mul_lt_mul_of_pos_left (by linarith) hu
  nlinarith

theorem sphere_distance_real {u η hi L : ℚ} (hs : Scale u η hi L) {c p : Vec3 ℚ} {r v n : ℚ} (hr0 : 0 ≤ r) (n0 : 0 ≤ n)
    (h1 : |n ^ 2 - Vec3.dot (c - p) (c - p)| ≤ 11 * (u * Vec3.dot (c - p) (c - p)) + 20 * (u ^ 2 * L ^ 2))
    (h2 : |v - (|n - r|)| ≤ u * |n - r| + η) (hL : |c.x - p.x| + |c.y - p.y| + |c.z - p.z| + r ≤ L) :
    |(v : ℝ) - (|dist3 c.toReal p.toReal - r|)| ≤ 25 * u * L := by
  obtain ⟨u0, u1, η0, ηu, ηL, ηLL, ηuLL, ηuL, L0, uL0, uLL0, uL1, uLL1, hi1, hiL, hiLL⟩ := hs.sizes
  set A := dist3 c.toReal p.toReal with hA
  have A0 : 0 ≤ A := len_nonneg _
  have hS : A ^ 2 = ((Vec3.dot (c - p) (c - p) : ℚ) : ℝ) := by
    have h := (dist3_eq_iff A0).1 hA.symm
    rw [pow_two, ← h]
    simp only [sq, Vec3.dot, Vec3.sub_x, Vec3.sub_y, Vec3.sub_z, Vec3.toReal]
    push_cast; ring
  have hAL : A ≤ L := by
    refine le_of_sq_le_sq ?_ (by exact_mod_cast L0.le)
    rw [hS]
    have h := sum_sq_le (c.x - p.x) (c.y - p.y) (c.z - p.z) 0
    rw [mul_zero, add_zero, abs_zero, add_zero] at h
    have h' : Vec3.dot (c - p) (c - p) ≤ L ^ 2 :=
      h.trans (pow_le_pow_left₀ (by positivity) (by linarith) 2)
    exact_mod_cast h'
  have hrL : r ≤ L := by
    have := abs_nonneg (c.x - p.x); have := abs_nonneg (c.y - p.y); have := abs_nonneg (c.z - p.z)
    linarith
  have u0' : (0 : ℝ) < u := by exact_mod_cast u0
  have L0' : (0 : ℝ) < L := by exact_mod_cast L0
  have n0' : (0 : ℝ) ≤ n := by exact_mod_cast n0
  have r0' : (0 : ℝ) ≤ r := by exact_mod_cast hr0
  have rL' : (r : ℝ) ≤ L := by exact_mod_cast hrL
  have u1' : (u : ℝ) ≤ 1 / 2 ^ 20 := by
    have : ((u : ℚ) : ℝ) ≤ ((1 / 2 ^ 20 : ℚ) : ℝ) := by exact_mod_cast u1
    push_cast at this; exact this
  have η1' : (η : ℝ) ≤ u * L / 2 ^ 20 := by
    have : ((η : ℚ) : ℝ) ≤ ((u * L / 2 ^ 20 : ℚ) : ℝ) := by exact_mod_cast ηL
    push_cast at this; exact this
  have h1' : |(n : ℝ) ^ 2 - A ^ 2| ≤ 11 * ((u : ℝ) * A ^ 2) + 20 * ((u : ℝ) ^ 2 * (L : ℝ) ^ 2) := by
    rw [hS]; exact_mod_cast h1
  have h2' : |(v : ℝ) - (|(n : ℝ) - r|)| ≤ u * |(n : ℝ) - r| + η := by exact_mod_cast h2
  have h3 := root_near u0' L0' n0' A0 h1'
  have uA : (u : ℝ) * A ≤ u * L := mul_le_mul_of_nonneg_left hAL u0'.le
  have uL' : (0 : ℝ) < u * L := by positivity
  have uL1' : (u : ℝ) * L ≤ 1 / 2 ^ 20 * L := mul_le_mul_of_nonneg_right u1' L0'.le
  have h4 : |(|(n : ℝ) - r|) - (|A - r|)| ≤ 16 * ((u : ℝ) * L) := by
    refine (abs_abs_sub_abs_le_abs_sub _ _).trans ?_
    rw [show (n : ℝ) - r - (A - r) = n - A by ring]
    linarith
  have h5 : |(n : ℝ) - r| ≤ 3 * L := by
    have h6 := (abs_le.1 h3).2
    rw [abs_le]
    constructor <;> linarith
  have h6 := mul_le_mul_of_nonneg_left h5 u0'.le
  have := abs_near_trans h2' h4
  linarith

end Blazert
