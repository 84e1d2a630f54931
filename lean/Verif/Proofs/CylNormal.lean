/- Rounding errors of the normals of cylinders: the vector operations. -/
import Verif.Proofs.NormalRound
import Verif.Proofs.MeshNormal
import Verif.Proofs.CylHit
import Verif.Proofs.CylFace
import Verif.Spec.CylNormal

set_option autoImplicit false
set_option linter.unusedSectionVars false

namespace Blazert
open Scalar

section
variable {K : Type} [Field K] [LinearOrder K] [IsStrictOrderedRing K] [FloorRing K] {F : Fmt K} {u η hi L ε : K}

theorem Sup.get {v : Vec3 K} {B : K} (h : Sup v B) (k : Fin 3) : |v.get k| ≤ B := by
  match k with
  | 0 => exact h.x
  | 1 => exact h.y
  | 2 => exact h.z

/-- the length of a vector -/
theorem norm_rounded (hF : F.Rounds u η hi) {v : Vec3 (XF F)} {w : Vec3 K} (hv : IsV v w) (hs : Scale u η hi (oneNorm w)) :
    ∃ n, (Vec3.norm v).Is n ∧ 0 < n ∧ |n ^ 2 - Vec3.dot w w| ≤ 9 * u * Vec3.dot w w ∧ oneNorm w ≤ 2 * n ∧ n ≤ 101 / 100 * oneNorm w := by
  obtain ⟨u0, u1, η0, ηu, ηL, ηLL, ηuLL, ηuL, L0, uL0, uLL0, uL1, uLL1, hi1, hiL, hiLL⟩ := hs.sizes
  have hG := hF.toGradual
  have hu8 : 8 * u ≤ 1 := by linarith
  have hL1 : Vec3.dot w w ≤ oneNorm w ^ 2 := by
    have := sum_sq_le w.x w.y w.z 0
    rw [mul_zero, add_zero, abs_zero, add_zero] at this
    exact this
  have hL3 := oneNorm_sq_le w
  set L := oneNorm w with hL
  set S := Vec3.dot w w with hS
  have hLL : 0 < L ^ 2 := by positivity
  have hS0 : 0 < S := by linarith
  have huS0 : 0 < u * S := mul_pos u0 hS0
  have huS1 : u * S ≤ S / 2 ^ 20 := (mul_le_mul_of_nonneg_right u1 hS0.le).trans_eq (by ring)
  have hηS : η ≤ 3 / 2 ^ 20 * (u * S) := by
    have := mul_le_mul_of_nonneg_left hL3 u0.le
    linarith
  have hP : |w.x * w.x| + |w.y * w.y| + |w.z * w.z| ≤ S := by
    rw [abs_mul_self, abs_mul_self, abs_mul_self]; exact le_rfl
  obtain ⟨g, g1, g2, g3⟩ := rnd_dot hG u0.le hu8 η0 hv hv hP (by linarith)
  have g0 := g3 (mul_self_nonneg _) (mul_self_nonneg _) (mul_self_nonneg _)
  have hgS := (abs_le.1 g2).2
  obtain ⟨n, n1, n2, n3⟩ := rnd_sqrt hF u0.le η0 g1 g0 (by linarith)
  have hug : u * g ≤ u * S * (1001 / 1000) := by
    rw [mul_assoc]
    exact mul_le_mul_of_nonneg_left (by linarith) u0.le
  have hn := abs_near_trans n3 g2
  have hnS : |n ^ 2 - S| ≤ 9 * u * S := by linarith
  obtain ⟨hn1, hn2⟩ := abs_le.1 hnS
  have hn0 : 0 < n := by
    rcases n2.lt_or_eq with h | h
    · exact h
    · rw [← h] at hn1; linarith
  refine ⟨n, n1, hn0, hnS, ?_, ?_⟩
  · refine (le_abs_self _).trans (abs_le_of_sq_le_sq ?_ (by positivity))
    rw [mul_pow]
    linarith
  · refine (le_abs_self _).trans (abs_le_of_sq_le_sq ?_ (by positivity))
    rw [mul_pow]
    linarith

theorem ng_comp (hF : F.Rounds u η hi) {row v : Vec3 (XF F)} {r w : Vec3 K} {n' : XF F} {n : K} (hr : IsV row r) (hv : IsV v w)
    (hn : n'.Is n) (n0 : 0 < n) (hu : |Vec3.dot r r - 1| ≤ ε) (hε : ε ≤ 1 / 1000) (hs : Scale u η hi (oneNorm w))
    (h1 : oneNorm w ≤ 2 * n) (h2 : n ≤ 101 / 100 * oneNorm w) :
    ∃ q, (Vec3.dot row v / n').Is q ∧ |n * q - Vec3.dot r w| ≤ 6 * (u * oneNorm w) := by
  obtain ⟨u0, u1, η0, ηu, ηL, ηLL, ηuLL, ηuL, L0, uL0, uLL0, uL1, uLL1, hi1, hiL, hiLL⟩ := hs.sizes
  have hG := hF.toGradual
  obtain ⟨p1, p2⟩ := unit_dot (v := w) hu hε
  set S := oneNorm w with hS
  obtain ⟨g, g1, g2, -⟩ := rnd_dot hG u0.le (by linarith) η0 hr hv p1 (by linarith)
  have hgS : |g| ≤ 1002 / 1000 * S := by
    have := abs_le_of_near g2 p2
    linarith
  have hq : |g / n| ≤ 21 / 10 := by
    rw [abs_div, abs_of_pos n0, div_le_iff₀ n0]
    linarith
  obtain ⟨q, q1, q2, -⟩ := rnd_div hG u0.le g1 hn n0.ne' (le_refl |g / n|) (by linarith)
  refine ⟨q, q1, ?_⟩
  have h3 : |n * q - g| ≤ u * |g| + n * η := by
    have h := mul_le_mul_of_nonneg_left q2 n0.le
    have e1 : n * |q - g / n| = |n * q - g| := by
      conv_lhs => rw [← abs_of_pos n0, ← abs_mul, abs_of_pos n0, mul_sub, mul_div_cancel₀ _ n0.ne']
    have e2 : n * |g / n| = |g| := by
      rw [abs_div, abs_of_pos n0, mul_div_cancel₀ _ n0.ne']
    rwa [e1, mul_add, mul_left_comm, e2] at h
  have h4 := mul_le_mul_of_nonneg_left hgS u0.le
  have h5 := mul_le_mul h2 ηu η0 (by linarith)
  have h6 := abs_near_trans h3 g2
  linarith

theorem smul_sub_x (N : K) (v w : Vec3 K) : (Vec3.smul N v - w).x = N * v.x - w.x := rfl
theorem smul_sub_y (N : K) (v w : Vec3 K) : (Vec3.smul N v - w).y = N * v.y - w.y := rfl
theorem smul_sub_z (N : K) (v w : Vec3 K) : (Vec3.smul N v - w).z = N * v.z - w.z := rfl

/-- `rotation * n / norm(n)` -/
theorem ng_near (hF : F.Rounds u η hi) {rot : Mat3 (XF F)} {R : Mat3 K} {v : Vec3 (XF F)} {w : Vec3 K} (hR : IsM rot R)
    (hortho : NearOrtho ε R) (hε : ε ≤ 1 / 1000) (hv : IsV v w) (hs : Scale u η hi (oneNorm w)) :
    ∃ Q N, IsV (cylNg rot v) Q ∧ 0 < N ∧ |N ^ 2 - Vec3.dot w w| ≤ 9 * u * Vec3.dot w w ∧ oneNorm w ≤ 2 * N ∧ N ≤ 101 / 100 * oneNorm w ∧
      Sup (Vec3.smul N Q - R.mulVec w) (6 * (u * oneNorm w)) := by
  obtain ⟨N, n1, n2, n3, n4, n5⟩ := norm_rounded hF hv hs
  obtain ⟨aa, bb, cc, -⟩ := hortho.rows
  obtain ⟨x, x1, x2⟩ := ng_comp hF hR.1 hv n1 n2 aa hε hs n4 n5
  obtain ⟨y, y1, y2⟩ := ng_comp hF hR.2.1 hv n1 n2 bb hε hs n4 n5
  obtain ⟨z, z1, z2⟩ := ng_comp hF hR.2.2 hv n1 n2 cc hε hs n4 n5
  exact ⟨⟨x, y, z⟩, N, ⟨x1, y1, z1⟩, n2, n3, n4, n5, ⟨x2, y2, z2⟩⟩

theorem NearOrtho.transposed {R : Mat3 K} (h : NearOrtho ε R) : NearOrtho ε R.trans := ⟨h.2, h.1⟩

theorem oneNorm_smul {N : K} (hN : 0 < N) (v : Vec3 K) : oneNorm (Vec3.smul N v) = N * oneNorm v := by
  simp only [oneNorm, Vec3.smul, abs_mul, abs_of_pos hN]; ring

/-- ... has nearly the length 1 -/
theorem ng_unit (hF : F.Rounds u η hi) {rot : Mat3 (XF F)} {R : Mat3 K} {v : Vec3 (XF F)} {w : Vec3 K} (hR : IsM rot R)
    (hortho : NearOrtho ε R) (hε : ε ≤ 1 / 1000) (hv : IsV v w) (hs : Scale u η hi (oneNorm w)) :
    ∃ Q N, IsV (cylNg rot v) Q ∧ 0 < N ∧ |N ^ 2 - Vec3.dot w w| ≤ 9 * u * Vec3.dot w w ∧ oneNorm w ≤ 2 * N ∧
      Sup (Vec3.smul N Q - R.mulVec w) (6 * (u * oneNorm w)) ∧ |Vec3.dot Q Q - 1| ≤ 120 * u + 4 * ε := by
  obtain ⟨u0, u1, η0, ηu, ηL, ηLL, ηuLL, ηuL, L0, uL0, uLL0, uL1, uLL1, hi1, hiL, hiLL⟩ := hs.sizes
  obtain ⟨Q, N, q1, N0, N1, N2, N3, q2⟩ := ng_near hF hR hortho hε hv hs
  refine ⟨Q, N, q1, N0, N1, N2, q2, ?_⟩
  have ε0 := hortho.rows.nonneg
  have hSS := oneNorm_sq_le w
  have hnorm := hortho.transposed.norm w
  have hRR : R.trans.trans = R := rfl
  rw [hRR] at hnorm
  have hsup : Sup (R.mulVec w) (1001 / 1000 * oneNorm w) := by
    obtain ⟨aa, bb, cc, -⟩ := hortho.rows
    exact ⟨(unit_dot aa hε).2, (unit_dot bb hε).2, (unit_dot cc hε).2⟩
  set S := oneNorm w with hS
  set W := Vec3.dot w w with hW
  have W0 : 0 ≤ W := add_nonneg (add_nonneg (mul_self_nonneg _) (mul_self_nonneg _)) (mul_self_nonneg _)
  have key : ∀ {x y : K}, |x - y| ≤ 6 * (u * S) → |y| ≤ 1001 / 1000 * S → |x * x - y * y| ≤ 1205 / 100 * (u * S ^ 2) := by
    intro x y h1 h2
    have h3 : |x + y| ≤ 2003 / 1000 * S := by
      rw [show x + y = (x - y) + (y + y) by ring]
      exact (abs_add_le' h1 (abs_add_le' h2 h2)).trans (by linarith)
    rw [show x * x - y * y = (x - y) * (x + y) by ring]
    refine (abs_mul_le h1 h3).trans ?_
    have h4 : 0 ≤ u * S ^ 2 := by positivity
    have e : 6 * (u * S) * (2003 / 1000 * S) = 12018 / 1000 * (u * S ^ 2) := by ring
    rw [e]; linarith
  have k1 := key q2.x hsup.x
  have k2 := key q2.y hsup.y
  have k3 := key q2.z hsup.z
  have hlen : |N ^ 2 * Vec3.dot Q Q - Vec3.dot (R.mulVec w) (R.mulVec w)| ≤ 3615 / 100 * (u * S ^ 2) := by
    have e : N ^ 2 * Vec3.dot Q Q - Vec3.dot (R.mulVec w) (R.mulVec w) =
        ((Vec3.smul N Q).x * (Vec3.smul N Q).x - (R.mulVec w).x * (R.mulVec w).x) +
        ((Vec3.smul N Q).y * (Vec3.smul N Q).y - (R.mulVec w).y * (R.mulVec w).y) +
        ((Vec3.smul N Q).z * (Vec3.smul N Q).z - (R.mulVec w).z * (R.mulVec w).z) := by
      simp only [Vec3.dot, Vec3.smul]; ring
    rw [e]
    exact (abs_add_le' (abs_add_le' k1 k2) k3).trans (by linarith)
  have hu : u * S ^ 2 ≤ 3 * (u * W) := by
    have := mul_le_mul_of_nonneg_left hSS u0.le
    linarith
  have uW : u * W ≤ 1 / 2 ^ 20 * W := mul_le_mul_of_nonneg_right u1 W0
  have uW0 : 0 ≤ u * W := by positivity
  have εW0 : 0 ≤ ε * W := by positivity
  have h5 : |N ^ 2 * Vec3.dot Q Q - N ^ 2| ≤ 1185 / 10 * (u * W) + 3 * (ε * W) := by
    rw [abs_sub_comm] at N1
    refine (abs_near_trans (abs_near_trans hlen hnorm) N1).trans ?_
    have e : 3 * ε * W = 3 * (ε * W) := by ring
    have e' : 9 * u * W = 9 * (u * W) := by ring
    rw [e, e']
    linarith
  have hNW : 999 / 1000 * W ≤ N ^ 2 := by
    have h6 := (abs_le.1 N1).1
    have e' : 9 * u * W = 9 * (u * W) := by ring
    rw [e'] at h6
    linarith
  have NN : 0 < N ^ 2 := by positivity
  have h7 : N ^ 2 * |Vec3.dot Q Q - 1| ≤ N ^ 2 * (120 * u + 4 * ε) := by
    rw [← abs_of_pos NN, ← abs_mul, abs_of_pos NN, mul_sub, mul_one]
    have h8 := mul_le_mul_of_nonneg_left hNW u0.le
    have h9 := mul_le_mul_of_nonneg_left hNW ε0
    refine h5.trans ?_
    linarith
  exact le_of_mul_le_mul_left h7 NN

/-- ... normalized -/
theorem ng_normalized (hF : F.Rounds u η hi) {rot : Mat3 (XF F)} {R : Mat3 K} {v : Vec3 (XF F)} {w : Vec3 K} (hR : IsM rot R)
    (hortho : NearOrtho ε R) (hε : ε ≤ 1 / 1000) (hv : IsV v w) (hs : Scale u η hi (oneNorm w)) (hs1 : Scale u η hi (1 / 2))
    (hs2 : Scale u η hi 8) :
    ∃ d l, IsV (Vec3.normalize (cylNg rot v)) d ∧ |Vec3.dot d d - 1| ≤ 11 * u ∧ 0 < l ∧ oneNorm w ≤ 42 / 10 * l ∧
      Sup (Vec3.smul l d - R.mulVec w) (10 * (u * oneNorm w)) := by
  obtain ⟨u0, u1, η0, ηu, ηL, ηLL, ηuLL, ηuL, L0, uL0, uLL0, uL1, uLL1, hi1, hiL, hiLL⟩ := hs.sizes
  obtain ⟨Q, N, q1, N0, N1, N2, N3, q2⟩ := ng_near hF hR hortho hε hv hs
  have hSS := oneNorm_sq_le w
  set S := oneNorm w with hS
  have hnorm := hortho.transposed.norm w
  have hRR : R.trans.trans = R := rfl
  rw [hRR] at hnorm
  have D0 : 0 ≤ Vec3.dot w w := add_nonneg (add_nonneg (mul_self_nonneg _) (mul_self_nonneg _)) (mul_self_nonneg _)
  have uD : u * Vec3.dot w w ≤ 1 / 2 ^ 20 * Vec3.dot w w := mul_le_mul_of_nonneg_right u1 D0
  have εD : ε * Vec3.dot w w ≤ 1 / 1000 * Vec3.dot w w := mul_le_mul_of_nonneg_right hε D0
  have hq3 : oneNorm (Vec3.smul N Q - R.mulVec w) ≤ 18 * (u * S) := q2.one.trans_eq (by ring)
  -- the length of the rotated vector
  have hW1 : 99 / 100 * N ≤ oneNorm (R.mulVec w) := by
    refine (le_abs_self _).trans (abs_le_of_sq_le_sq ?_ (oneNorm_nonneg _))
    have h1 := sum_sq_le (R.mulVec w).x (R.mulVec w).y (R.mulVec w).z 0
    rw [mul_zero, add_zero, abs_zero, add_zero] at h1
    have h2 : Vec3.dot (R.mulVec w) (R.mulVec w) ≤ oneNorm (R.mulVec w) ^ 2 := h1
    have h3 := (abs_le.1 hnorm).1
    have h4 := (abs_le.1 N1).2
    rw [mul_pow]
    linarith
  have hW2 : oneNorm (R.mulVec w) ≤ 3 * (1001 / 1000) * S := by
    obtain ⟨aa, bb, cc, -⟩ := hortho.rows
    have h1 := (unit_dot (v := w) aa hε).2
    have h2 := (unit_dot (v := w) bb hε).2
    have h3 := (unit_dot (v := w) cc hε).2
    show |Vec3.dot R.r0 w| + |Vec3.dot R.r1 w| + |Vec3.dot R.r2 w| ≤ _
    linarith
  have hU : N * oneNorm Q ≤ 31 / 10 * S := by
    rw [← oneNorm_smul N0]
    refine (oneNorm_near hq3 hW2).trans ?_
    linarith
  have hLw : 98 / 100 * N ≤ N * oneNorm Q := by
    rw [← oneNorm_smul N0]
    have := oneNorm_near ((oneNorm_sub_comm _ _).trans_le hq3) (le_refl (oneNorm (Vec3.smul N Q)))
    linarith
  have hQ1 : 98 / 100 ≤ oneNorm Q := by
    rw [mul_comm] at hLw
    exact le_of_mul_le_mul_left hLw N0
  have hQ2 : oneNorm Q ≤ 62 / 10 := by
    refine le_of_mul_le_mul_left (hU.trans ?_) N0
    linarith
  obtain ⟨d, l, d1, hd⟩ := normalize_along hF q1 (hs1.between hs2 (by linarith) (by linarith))
  refine ⟨d, N * l, d1, hd.unit, mul_pos N0 hd.pos, ?_, ?_⟩
  · have h1 := mul_le_mul_of_nonneg_left hd.low N0.le
    linarith
  · have hnear : ∀ {a b c : K}, |l * a - b| ≤ 101 / 100 * (u * oneNorm Q) → |N * b - c| ≤ 6 * (u * S) → |N * l * a - c| ≤ 10 * (u * S) := by
      intro a b c g1 g2
      have h1 := mul_le_mul_of_nonneg_left g1 N0.le
      have e1 : N * |l * a - b| = |N * l * a - N * b| := by
        rw [← abs_of_pos N0, ← abs_mul, abs_of_pos N0]; ring_nf
      rw [e1] at h1
      have h2 := mul_le_mul_of_nonneg_left hU u0.le
      refine (abs_near_trans h1 g2).trans ?_
      linarith
    exact ⟨hnear hd.near.x q2.x, hnear hd.near.y q2.y, hnear hd.near.z q2.z⟩

/-- the normal of a cap -/
theorem cap_normal_near (hF : F.Rounds u η hi) {rot : Mat3 (XF F)} {R : Mat3 K} {z : XF F} {σ : K} (hR : IsM rot R)
    (hortho : NearOrtho ε R) (hε : ε ≤ 1 / 1000) (hz : z.Is σ) (hσ : σ = 1 ∨ σ = -1) (hs1 : Scale u η hi (1 / 2)) (hs2 : Scale u η hi 8) :
    ∃ d, IsV (Vec3.normalize (cylNg rot ⟨nat 0, nat 0, z⟩)) d ∧ |Vec3.dot d d - 1| ≤ 11 * u ∧
      ∀ k, |d.get k - σ * (perp R).get k| ≤ 160 * u + ε := by
  have u0 := hs1.u_pos
  have u1 := hs1.sizes.u1
  have hσ2 : σ * σ = 1 := by rcases hσ with rfl | rfl <;> norm_num
  have hσ1 : |σ| = 1 := by rcases hσ with rfl | rfl <;> simp
  have hv : IsV (⟨nat 0, nat 0, z⟩ : Vec3 (XF F)) ⟨0, 0, σ⟩ := ⟨hF.nat0, hF.nat0, hz⟩
  have h1 : oneNorm (⟨0, 0, σ⟩ : Vec3 K) = 1 := by simp [oneNorm, hσ1]
  have hdot : Vec3.dot (⟨0, 0, σ⟩ : Vec3 K) ⟨0, 0, σ⟩ = 1 := by simp [Vec3.dot, hσ2]
  obtain ⟨Q, N, q1, N0, N1, -, -, q2⟩ := ng_near hF hR hortho hε hv (by rw [h1]; exact hs1.between hs2 (by norm_num) (by norm_num))
  rw [h1, mul_one] at q2
  rw [hdot, mul_one] at N1
  have hN : |N - 1| ≤ 9 * u := by
    rw [show N ^ 2 - 1 = (N - 1) * (N + 1) by ring, abs_mul, abs_of_pos (by linarith : 0 < N + 1)] at N1
    refine le_trans (le_mul_of_one_le_right (abs_nonneg _) (by linarith)) N1
  have hcc : |Vec3.dot (perp R) (perp R) - 1| ≤ ε := hortho.cols.cc
  obtain ⟨wx, wy, wz⟩ := unit_comp hcc hε
  have hN' := abs_le.1 hN
  have key : ∀ {q c : K}, |c| ≤ 1001 / 1000 → |N * q - c * σ| ≤ 6 * u → |q - σ * c| ≤ 155 / 10 * u := by
    intro q c hc hq
    have hcσ : |c * σ| ≤ 1001 / 1000 := by rw [abs_mul, hσ1, mul_one]; exact hc
    have h2 : |N * q| ≤ 1002 / 1000 := by
      have := abs_le_of_near hq hcσ
      linarith
    have h3 : |q| ≤ 101 / 100 := by
      rw [abs_mul, abs_of_pos N0] at h2
      have : 999 / 1000 * |q| ≤ N * |q| := mul_le_mul_of_nonneg_right (by linarith) (abs_nonneg q)
      linarith
    have h4 := abs_mul_le hN h3
    rw [show q - σ * c = (N * q - c * σ) - (N - 1) * q by ring]
    exact (abs_sub_le' hq h4).trans (by linarith)
  have rowz : ∀ r : Vec3 K, Vec3.dot r ⟨0, 0, σ⟩ = r.z * σ := by intro r; simp [Vec3.dot]
  obtain ⟨n, n1, n2, n3⟩ := normalize_dir_near hF (p := Q) (w := Vec3.smul σ (perp R)) (r := 1) (e := 155 / 10 * u) (δ := ε) q1 hs1
    (hs1.between hs2 (by norm_num) (by norm_num))
    (by rw [mul_one]; exact key wx (by have := q2.x; rwa [smul_sub_x, show (R.mulVec ⟨0, 0, σ⟩).x = _ from rowz _] at this))
    (by rw [mul_one]; exact key wy (by have := q2.y; rwa [smul_sub_y, show (R.mulVec ⟨0, 0, σ⟩).y = _ from rowz _] at this))
    (by rw [mul_one]; exact key wz (by have := q2.z; rwa [smul_sub_z, show (R.mulVec ⟨0, 0, σ⟩).z = _ from rowz _] at this))
    (by linarith)
    (by
      have e : Vec3.dot (Vec3.smul σ (perp R)) (Vec3.smul σ (perp R)) = (σ * σ) * Vec3.dot (perp R) (perp R) := by
        simp only [Vec3.dot, Vec3.smul]; ring
      rw [e, hσ2, one_mul, mul_one, one_pow, mul_one]; exact hcc)
    (by linarith)
  refine ⟨n, n1, n2, fun k => ?_⟩
  have h5 := n3 k
  have e : (Vec3.smul σ (perp R)).get k = σ * (perp R).get k := by
    match k with
    | 0 => rfl
    | 1 => rfl
    | 2 => rfl
  rw [div_one, e] at h5
  linarith

/-- ... before it is normalized -/
theorem cap_ng_near (hF : F.Rounds u η hi) {rot : Mat3 (XF F)} {R : Mat3 K} {z : XF F} {σ : K} (hR : IsM rot R)
    (hortho : NearOrtho ε R) (hε : ε ≤ 1 / 1000) (hz : z.Is σ) (hσ : σ = 1 ∨ σ = -1) (hs : Scale u η hi 1) :
    ∃ d, IsV (cylNg rot ⟨nat 0, nat 0, z⟩) d ∧ |Vec3.dot d d - 1| ≤ 120 * u + 4 * ε ∧
      ∀ k, |d.get k - σ * (perp R).get k| ≤ 160 * u + ε := by
  have u0 := hs.u_pos
  have u1 := hs.sizes.u1
  have ε0 := hortho.rows.nonneg
  have hσ2 : σ * σ = 1 := by rcases hσ with rfl | rfl <;> norm_num
  have hσ1 : |σ| = 1 := by rcases hσ with rfl | rfl <;> simp
  have hv : IsV (⟨nat 0, nat 0, z⟩ : Vec3 (XF F)) ⟨0, 0, σ⟩ := ⟨hF.nat0, hF.nat0, hz⟩
  have h1 : oneNorm (⟨0, 0, σ⟩ : Vec3 K) = 1 := by simp [oneNorm, hσ1]
  have hdot : Vec3.dot (⟨0, 0, σ⟩ : Vec3 K) ⟨0, 0, σ⟩ = 1 := by simp [Vec3.dot, hσ2]
  obtain ⟨Q, N, q1, N0, N1, -, q2, q3⟩ := ng_unit hF hR hortho hε hv (by rw [h1]; exact hs)
  rw [h1, mul_one] at q2
  rw [hdot, mul_one] at N1
  have hN : |N - 1| ≤ 9 * u := by
    rw [show N ^ 2 - 1 = (N - 1) * (N + 1) by ring, abs_mul, abs_of_pos (by linarith : 0 < N + 1)] at N1
    refine le_trans (le_mul_of_one_le_right (abs_nonneg _) (by linarith)) N1
  have hcc : |Vec3.dot (perp R) (perp R) - 1| ≤ ε := hortho.cols.cc
  obtain ⟨wx, wy, wz⟩ := unit_comp hcc hε
  have hN' := abs_le.1 hN
  have key : ∀ {q c : K}, |c| ≤ 1001 / 1000 → |N * q - c * σ| ≤ 6 * u → |q - σ * c| ≤ 160 * u + ε := by
    intro q c hc hq
    have hcσ : |c * σ| ≤ 1001 / 1000 := by rw [abs_mul, hσ1, mul_one]; exact hc
    have h2 : |N * q| ≤ 1002 / 1000 := by
      have := abs_le_of_near hq hcσ
      linarith
    have h3 : |q| ≤ 101 / 100 := by
      rw [abs_mul, abs_of_pos N0] at h2
      have : 999 / 1000 * |q| ≤ N * |q| := mul_le_mul_of_nonneg_right (by linarith) (abs_nonneg q)
      linarith
    have h4 := abs_mul_le hN h3
    rw [show q - σ * c = (N * q - c * σ) - (N - 1) * q by ring]
    exact (abs_sub_le' hq h4).trans (by linarith)
  have rowz : ∀ r : Vec3 K, Vec3.dot r ⟨0, 0, σ⟩ = r.z * σ := by intro r; simp [Vec3.dot]
  refine ⟨Q, q1, q3, fun k => ?_⟩
  match k with
  | 0 => exact key wx (by have := q2.x; rwa [smul_sub_x, show (R.mulVec ⟨0, 0, σ⟩).x = _ from rowz _] at this)
  | 1 => exact key wy (by have := q2.y; rwa [smul_sub_y, show (R.mulVec ⟨0, 0, σ⟩).y = _ from rowz _] at this)
  | 2 => exact key wz (by have := q2.z; rwa [smul_sub_z, show (R.mulVec ⟨0, 0, σ⟩).z = _ from rowz _] at this)

/-- a component of the gradient, `2 x / a²` -/
theorem grad_comp (hF : F.Rounds u η hi) (u0 : 0 < u) (u1 : u ≤ 1 / 2 ^ 20) (η0 : 0 ≤ η) {x a' : XF F} {X a B : K} (hx : x.Is X)
    (ha : a'.Is a) (a0 : 0 < a) (hX : |X| ≤ B) (h1 : 2 ^ 12 * η ≤ u * a ^ 2) (h2 : 2 ^ 12 * η ≤ u * (B / a ^ 2)) (h3 : 2 ^ 12 * η ≤ u * B)
    (i1 : 4 * B ≤ hi) (i2 : 2 * a ^ 2 ≤ hi) (i3 : 4 * (B / a ^ 2) ≤ hi) :
    ∃ g, (nat 2 * x / (a' * a')).Is g ∧ |g - 2 * (X / a ^ 2)| ≤ 65 / 10 * (u * (B / a ^ 2)) := by
  have hG := hF.toGradual
  have B0 : 0 ≤ B := (abs_nonneg _).trans hX
  have aa : 0 < a ^ 2 := by positivity
  set β := B / a ^ 2 with hβ
  have hB : B = β * a ^ 2 := by rw [hβ, div_mul_cancel₀ _ aa.ne']
  have β0 : 0 ≤ β := by positivity
  have uB : u * B ≤ 1 / 2 ^ 20 * B := mul_le_mul_of_nonneg_right u1 B0
  have ua : u * a ^ 2 ≤ 1 / 2 ^ 20 * a ^ 2 := mul_le_mul_of_nonneg_right u1 aa.le
  have uβ0 : 0 ≤ u * β := by positivity
  have m1 : |2 * X| ≤ 2 * B := by rw [abs_mul, abs_two]; linarith
  obtain ⟨P, P1, P2, -⟩ := rnd_mul hG u0.le hF.nat2 hx m1 (by linarith)
  have m2 : |a * a| ≤ a ^ 2 := by rw [abs_mul_self, pow_two]
  obtain ⟨A, A1, A2, -⟩ := rnd_mul hG u0.le ha ha m2 (by linarith)
  rw [← pow_two] at A2
  have P3 : |P| ≤ 201 / 100 * B := by
    have := abs_le_of_near P2 m1
    linarith
  have hA := abs_le.1 A2
  have A0 : 999 / 1000 * a ^ 2 ≤ A := by linarith
  have Apos : 0 < A := lt_of_lt_of_le (by positivity) A0
  have m3 : |P / A| ≤ 202 / 100 * β := by
    rw [abs_div, abs_of_pos Apos, div_le_iff₀ Apos]
    have : β * (999 / 1000 * a ^ 2) ≤ β * A := mul_le_mul_of_nonneg_left A0 β0
    rw [hB] at P3
    linarith
  obtain ⟨g, g1, g2, -⟩ := rnd_div hG u0.le P1 A1 Apos.ne' m3 (by linarith)
  refine ⟨g, g1, ?_⟩
  have m4 : |P / A - 2 * (X / a ^ 2)| ≤ 41 / 10 * (u * β) := by
    have e1 : (P / A - 2 * (X / a ^ 2)) = ((P - 2 * X) * a ^ 2 + 2 * X * (a ^ 2 - A)) / (A * a ^ 2) := by
      field_simp; ring
    rw [e1, abs_div, abs_of_pos (mul_pos Apos aa), div_le_iff₀ (mul_pos Apos aa)]
    have k1 : |(P - 2 * X) * a ^ 2| ≤ (u * (2 * B) + η) * a ^ 2 := by
      rw [abs_mul, abs_of_pos aa]; exact mul_le_mul_of_nonneg_right P2 aa.le
    have k2 : |2 * X * (a ^ 2 - A)| ≤ 2 * B * (u * a ^ 2 + η) := abs_mul_le m1 (by rw [abs_sub_comm]; exact A2)
    refine (abs_add_le' k1 k2).trans ?_
    have k3 : u * β * (999 / 1000 * a ^ 2 * a ^ 2) ≤ u * β * (A * a ^ 2) :=
      mul_le_mul_of_nonneg_left (mul_le_mul_of_nonneg_right A0 aa.le) uβ0
    have k4 := mul_le_mul_of_nonneg_right h3 aa.le
    have k5 := mul_le_mul_of_nonneg_left h1 B0
    rw [hB] at k4 k5 ⊢
    have e2 : (u * (2 * (β * a ^ 2)) + η) * a ^ 2 + 2 * (β * a ^ 2) * (u * a ^ 2 + η) =
        4 * (u * β * (a ^ 2 * a ^ 2)) + η * a ^ 2 + 2 * (β * a ^ 2 * η) := by ring
    rw [e2]
    have e3 : 2 ^ 12 * η * a ^ 2 ≤ u * β * (a ^ 2 * a ^ 2) := k4.trans_eq (by ring)
    have e4 : 2 ^ 12 * (β * a ^ 2 * η) ≤ u * β * (a ^ 2 * a ^ 2) := le_trans (le_of_eq (by ring)) (k5.trans_eq (by ring))
    have e5 : 0 ≤ u * β * (a ^ 2 * a ^ 2) := by positivity
    linarith
  have := abs_near_trans g2 m4
  linarith

/-- near the tube, its gradient does not vanish -/
theorem grad_large {a b m x y e : K} (a0 : 0 < a) (b0 : 0 < b) (aL : a ≤ L) (bL : b ≤ L) (ma : m ≤ a) (mb : m ≤ b) (m0 : 0 < m)
    (h : |tubeE a b x y| ≤ e * ((a ^ 2 + b ^ 2) * L ^ 2)) (he : e * L ^ 2 ≤ 24 / 100 * m ^ 2) :
    72 / 100 ≤ L * (|x / a ^ 2| + |y / b ^ 2|) := by
  have L0 : 0 < L := a0.trans_le aL
  have ha2 : m ^ 2 ≤ a ^ 2 := pow_le_pow_left₀ m0.le ma 2
  have hb2 : m ^ 2 ≤ b ^ 2 := pow_le_pow_left₀ m0.le mb 2
  have haL : a ^ 2 ≤ L ^ 2 := pow_le_pow_left₀ a0.le aL 2
  have hbL : b ^ 2 ≤ L ^ 2 := pow_le_pow_left₀ b0.le bL 2
  have aa : 0 < a ^ 2 := by positivity
  have bb : 0 < b ^ 2 := by positivity
  have h1 := (abs_le.1 h).1
  have h2 : e * ((a ^ 2 + b ^ 2) * L ^ 2) ≤ 48 / 100 * (a ^ 2 * b ^ 2) := by
    have k1 := mul_le_mul_of_nonneg_left he (add_nonneg aa.le bb.le)
    have k2 := mul_le_mul_of_nonneg_left hb2 aa.le
    have k3 := mul_le_mul_of_nonneg_left ha2 bb.le
    have e1 : e * ((a ^ 2 + b ^ 2) * L ^ 2) = (a ^ 2 + b ^ 2) * (e * L ^ 2) := by ring
    rw [e1]
    linarith
  unfold tubeE at h1
  have hx : x = x / a ^ 2 * a ^ 2 := by rw [div_mul_cancel₀ _ aa.ne']
  have hy : y = y / b ^ 2 * b ^ 2 := by rw [div_mul_cancel₀ _ bb.ne']
  set X := x / a ^ 2
  set Y := y / b ^ 2
  rw [hx, hy] at h1
  have h3 : 52 / 100 ≤ a ^ 2 * X ^ 2 + b ^ 2 * Y ^ 2 := by
    refine le_of_mul_le_mul_left ?_ (mul_pos aa bb)
    have e2 : b ^ 2 * (X * a ^ 2) ^ 2 + a ^ 2 * (Y * b ^ 2) ^ 2 = a ^ 2 * b ^ 2 * (a ^ 2 * X ^ 2 + b ^ 2 * Y ^ 2) := by ring
    rw [e2] at h1
    linarith
  have h4 := mul_le_mul_of_nonneg_right haL (pow_two_nonneg X)
  have h5 := mul_le_mul_of_nonneg_right hbL (pow_two_nonneg Y)
  refine (le_abs_self _).trans (abs_le_of_sq_le_sq ?_ (by positivity))
  have e3 : (L * (|X| + |Y|)) ^ 2 = L ^ 2 * (|X| ^ 2 + |Y| ^ 2) + 2 * (L ^ 2 * (|X| * |Y|)) := by ring
  rw [e3, sq_abs, sq_abs]
  have : 0 ≤ L ^ 2 * (|X| * |Y|) := by positivity
  linarith

theorem oneNorm_eq (v : Vec3 K) : oneNorm v = |v.x| + |v.y| + |v.z| := rfl

theorem mulVec_sup {R : Mat3 K} (hortho : NearOrtho ε R) (hε : ε ≤ 1 / 1000) (v : Vec3 K) : Sup (R.mulVec v) (1001 / 1000 * oneNorm v) := by
  obtain ⟨aa, bb, cc, -⟩ := hortho.rows
  exact ⟨(unit_dot aa hε).2, (unit_dot bb hε).2, (unit_dot cc hε).2⟩

/-- from a scaled approximation to a direction -/
theorem nearDir_of {l l0 e1 e2 : K} {d V g : Vec3 K} (hl : 0 < l) (h1 : Sup (Vec3.smul l d - V) e1) (h2 : Sup (V - Vec3.smul 2 g) e2)
    (h : e1 + e2 ≤ l * l0) : NearDir l0 d g := by
  refine ⟨2 / l, by positivity, fun k => ?_⟩
  have h3 := (h1.trans h2).get k
  have e : (Vec3.smul l d - Vec3.smul 2 g).get k = l * (d.get k - 2 / l * g.get k) := by
    have : l * (2 / l) = 2 := mul_div_cancel₀ _ hl.ne'
    have e' : ∀ x y : K, l * (x - 2 / l * y) = l * x - 2 * y := by intro x y; rw [mul_sub, ← mul_assoc, this]
    rw [e']
    match k with
    | 0 => rfl
    | 1 => rfl
    | 2 => rfl
  rw [e, abs_mul, abs_of_pos hl] at h3
  exact le_of_mul_le_mul_left (h3.trans h) hl

/-- the normal of the tube: rotated, and not rotated -/
theorem side_normal_near (hF : F.Rounds u η hi) {rot : Mat3 (XF F)} {R : Mat3 K} {v : Vec3 (XF F)} {w g : Vec3 K} {m : K}
    (hR : IsM rot R) (hortho : NearOrtho ε R) (hε : ε ≤ 1 / 1000) (hs1 : Scale u η hi (1 / 2)) (hs2 : Scale u η hi 8)
    (m0 : 0 < m) (hm : 2 * m ≤ L) (hl1 : Scale u η hi (1 / L)) (hl2 : Scale u η hi (8 * L / m ^ 2)) (hv : IsV v w)
    (hwz : w.z = 0) (hgz : g.z = 0) (hx : |w.x - 2 * g.x| ≤ (500 * u + 30 * ε) * (L / m ^ 2))
    (hy : |w.y - 2 * g.y| ≤ (500 * u + 30 * ε) * (L / m ^ 2)) (hlow : 72 / 100 ≤ L * (|g.x| + |g.y|))
    (hup : |g.x| + |g.y| ≤ 3 * (L / m ^ 2)) (hsm : (3000 * u + 200 * ε) * L ^ 2 ≤ m ^ 2) :
    (∃ d, IsV (Vec3.normalize (cylNg rot v)) d ∧ |Vec3.dot d d - 1| ≤ 11 * u ∧
      NearDir ((4300 * u + 260 * ε) * (L / m) ^ 2) d (R.mulVec g)) ∧
    (∃ d, IsV (cylNg rot v) d ∧ |Vec3.dot d d - 1| ≤ 120 * u + 4 * ε ∧
      NearDir ((4300 * u + 260 * ε) * (L / m) ^ 2) d (R.mulVec g)) ∧
    (∃ d, IsV (Vec3.normalize v) d ∧ |Vec3.dot d d - 1| ≤ 11 * u ∧ NearDir ((4300 * u + 260 * ε) * (L / m) ^ 2) d g) := by
  have u0 := hs1.u_pos
  have u1 := hs1.sizes.u1
  have ε0 := hortho.rows.nonneg
  have L0 : 0 < L := by linarith
  have mm : 0 < m ^ 2 := by positivity
  set q := L / m ^ 2 with hq
  have q0 : 0 < q := by positivity
  have hLq : L * q = (L / m) ^ 2 := by rw [hq]; field_simp
  have hLq4 : 4 ≤ L * q := by
    rw [hq, mul_div_assoc', le_div_iff₀ mm]
    nlinarith
  have hsmq : (3000 * u + 200 * ε) * (L * q) ≤ 1 := by
    rw [hq, show (3000 * u + 200 * ε) * (L * (L / m ^ 2)) = ((3000 * u + 200 * ε) * L ^ 2) / m ^ 2 by ring, div_le_iff₀ mm, one_mul]
    exact hsm
  have hκ : (500 * u + 30 * ε) * (L * q) ≤ 1 / 6 := by
    have : (500 * u + 30 * ε) * (L * q) ≤ (1 / 6 * (3000 * u + 200 * ε)) * (L * q) := by
      refine mul_le_mul_of_nonneg_right ?_ (by positivity)
      linarith
    linarith
  set κ := (500 * u + 30 * ε) * q with hκd
  have κ0 : 0 ≤ κ := by positivity
  have hLκ : L * κ ≤ 1 / 6 := by rw [hκd]; linarith
  have hwn : oneNorm w = |w.x| + |w.y| := by rw [oneNorm_eq, hwz, abs_zero, add_zero]
  have k1 : 2 * |g.x| - κ ≤ |w.x| := by
    have := abs_sub_abs_le_abs_sub (2 * g.x) w.x
    rw [abs_sub_comm (2 * g.x), abs_mul, abs_two] at this
    linarith
  have k2 : 2 * |g.y| - κ ≤ |w.y| := by
    have := abs_sub_abs_le_abs_sub (2 * g.y) w.y
    rw [abs_sub_comm (2 * g.y), abs_mul, abs_two] at this
    linarith
  have k3 : |w.x| ≤ 2 * |g.x| + κ := by
    have := abs_sub_abs_le_abs_sub w.x (2 * g.x)
    rw [abs_mul, abs_two] at this
    linarith
  have k4 : |w.y| ≤ 2 * |g.y| + κ := by
    have := abs_sub_abs_le_abs_sub w.y (2 * g.y)
    rw [abs_mul, abs_two] at this
    linarith
  have hS1 : 1 ≤ L * oneNorm w := by
    rw [hwn]
    have := mul_le_mul_of_nonneg_left (add_le_add k1 k2) L0.le
    linarith
  have hS1' : 1 / L ≤ oneNorm w := by rw [div_le_iff₀ L0, mul_comm]; exact hS1
  have hS2 : oneNorm w ≤ 8 * L / m ^ 2 := by
    rw [mul_div_assoc, ← hq, hwn]
    have : κ ≤ q / 24 := by
      refine le_of_mul_le_mul_left ?_ L0
      linarith
    linarith
  have hsc := hl1.between hl2 hS1' hS2
  have hdiff : oneNorm (w - Vec3.smul 2 g) ≤ 2 * κ := by
    have e : oneNorm (w - Vec3.smul 2 g) = |w.x - 2 * g.x| + |w.y - 2 * g.y| + |w.z - 2 * g.z| := rfl
    rw [e, hwz, hgz, mul_zero, sub_zero, abs_zero]
    linarith
  have fin : ∀ l, 0 < l → oneNorm w ≤ 42 / 10 * l → 10 * (u * oneNorm w) + 1001 / 1000 * (2 * κ) ≤ l * ((4300 * u + 260 * ε) * (L / m) ^ 2) := by
    intro l hl hSl
    rw [← hLq]
    have h1 : 1 ≤ 42 / 10 * (L * l) := by
      have := mul_le_mul_of_nonneg_left hSl L0.le
      linarith
    have h2 : u * oneNorm w ≤ 42 / 10 * (u * l) := by
      have := mul_le_mul_of_nonneg_left hSl u0.le
      linarith
    have h3 : κ ≤ 42 / 10 * (L * l) * κ := le_mul_of_one_le_left κ0 h1
    have h4 : u * l * 4 ≤ u * l * (L * q) := mul_le_mul_of_nonneg_left hLq4 (by positivity)
    have e1 : 42 / 10 * (L * l) * κ = 2100 * (u * l * (L * q)) + 126 * (ε * l * (L * q)) := by rw [hκd]; ring
    rw [e1] at h3
    have e2 : l * ((4300 * u + 260 * ε) * (L * q)) = 4300 * (u * l * (L * q)) + 260 * (ε * l * (L * q)) := by ring
    rw [e2]
    have h5 : 0 ≤ u * l * (L * q) := by positivity
    have h6 : 0 ≤ ε * l * (L * q) := by positivity
    linarith
  have hturn : Sup (R.mulVec w - Vec3.smul 2 (R.mulVec g)) (1001 / 1000 * (2 * κ)) := by
    have e : R.mulVec w - Vec3.smul 2 (R.mulVec g) = R.mulVec (w - Vec3.smul 2 g) := by
      apply Vec3.ext <;> simp only [Mat3.mulVec, Vec3.dot, Vec3.smul, Vec3.sub_x, Vec3.sub_y, Vec3.sub_z] <;> ring
    rw [e]
    have h1 := mulVec_sup hortho hε (w - Vec3.smul 2 g)
    have h2 : 1001 / 1000 * oneNorm (w - Vec3.smul 2 g) ≤ 1001 / 1000 * (2 * κ) := mul_le_mul_of_nonneg_left hdiff (by norm_num)
    exact ⟨h1.x.trans h2, h1.y.trans h2, h1.z.trans h2⟩
  refine ⟨?_, ?_, ?_⟩
  · obtain ⟨d, l, d1, d2, l0, d3, d4⟩ := ng_normalized hF hR hortho hε hv hsc hs1 hs2
    exact ⟨d, d1, d2, nearDir_of l0 d4 hturn (fin l l0 d3)⟩
  · obtain ⟨Q, N, q1, N0, -, N2, q2, q3⟩ := ng_unit hF hR hortho hε hv hsc
    refine ⟨Q, q1, q3, nearDir_of N0 q2 hturn (le_trans ?_ (fin N N0 (by linarith)))⟩
    have := mul_nonneg u0.le (oneNorm_nonneg w)
    linarith
  · obtain ⟨d, l, d1, hd⟩ := normalize_along hF hv hsc
    refine ⟨d, d1, hd.unit, nearDir_of hd.pos hd.near (e2 := 2 * κ) (Sup.of_one hdiff) (le_trans ?_ (fin l hd.pos ?_))⟩
    · have := mul_nonneg u0.le (oneNorm_nonneg w)
      linarith
    · linarith [hd.low, hd.pos]

end
end Blazert
