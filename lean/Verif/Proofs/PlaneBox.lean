/- The bounding box of a rectangle that is met clearly, with rounding. -/
import Verif.Proofs.PlaneFound
import Verif.Spec.Cylinder

set_option autoImplicit false
set_option linter.unusedSectionVars false

namespace Blazert
open Scalar

section
variable {K : Type} [Field K] [LinearOrder K] [IsStrictOrderedRing K] [FloorRing K] {F : Fmt K} {u η hi L ε M κ : K}

/-! ### shifting a point into a box -/

/-- If a point is in a box up to `E`, with the margin `g k * M` along axis `k`, then it can be shifted along `P` into it, provided
that all but one margin are large. -/
theorem box_param {mn mx w P g : Fin 3 → K} {E Δ : K} (E0 : 0 ≤ E) (Δ0 : 0 ≤ Δ) (M0 : 0 ≤ M) (g0 : ∀ k, 0 ≤ g k)
    (hlow : ∀ k, mn k ≤ w k + E - g k * M) (hhigh : ∀ k, w k - E + g k * M ≤ mx k) (hmm : ∀ k, mn k ≤ mx k)
    (halt : ∀ k, g k * M < E → 0 < |P k| ∧ E ≤ Δ * |P k| ∧ ∀ j, j ≠ k → E + Δ * |P j| ≤ g j * M) :
    ∃ e, |e| ≤ Δ ∧ ∀ k, mn k ≤ w k + e * P k ∧ w k + e * P k ≤ mx k := by
  by_cases h : ∃ k, g k * M < E
  · obtain ⟨k, hk⟩ := h
    obtain ⟨h1, h2, h3⟩ := halt k hk
    have hg := mul_nonneg (g0 k) M0
    have hPk : P k ≠ 0 := abs_pos.1 h1
    obtain ⟨z, z1, z2, z3⟩ : ∃ z, mn k ≤ z ∧ z ≤ mx k ∧ |z - w k| ≤ E := by
      have l := hlow k
      have r := hhigh k
      have m := hmm k
      rcases le_total (w k) (mn k) with a | a
      · exact ⟨mn k, le_rfl, m, abs_le.2 ⟨by linarith, by linarith⟩⟩
      rcases le_total (w k) (mx k) with b | b
      · exact ⟨w k, a, b, by rw [sub_self, abs_zero]; exact E0⟩
      · exact ⟨mx k, m, le_rfl, abs_le.2 ⟨by linarith, by linarith⟩⟩
    have he : |(z - w k) / P k| ≤ Δ := by
      rw [abs_div, div_le_iff₀ h1]; exact z3.trans h2
    refine ⟨(z - w k) / P k, he, fun j => ?_⟩
    by_cases hj : j = k
    · subst hj
      rw [div_mul_cancel₀ _ hPk, add_sub_cancel]
      exact ⟨z1, z2⟩
    · have h4 := h3 j hj
      obtain ⟨h5, h6⟩ := abs_le.1 (abs_mul_le he (le_refl |P j|))
      have l := hlow j
      have r := hhigh j
      constructor <;> linarith
  · have h : ∀ k, E ≤ g k * M := fun k => not_lt.1 fun hk => h ⟨k, hk⟩
    refine ⟨0, by rw [abs_zero]; exact Δ0, fun k => ?_⟩
    have h1 := h k
    have l := hlow k
    have r := hhigh k
    rw [zero_mul, add_zero]
    constructor <;> linarith

/-! ### the corners, computed -/

theorem corner_near (hF : F.Rounds u η hi) (hs : Scale u η hi L) {x : Vec3 (XF F)} {r : Vec3 K} {cx A B : XF F}
    {c α β α0 β0 : K} (hx : IsV x r) (hr : |Vec3.dot r r - 1| ≤ ε) (hε : ε ≤ 1 / 1000) (hc : cx.Is c) (hcL : |c| ≤ L)
    (hA : A.Is α) (hB : B.Is β) (hα : |α - α0| ≤ 6 / 10 * (u * L)) (hβ : |β - β0| ≤ 6 / 10 * (u * L))
    (h0 : |α0| + |β0| ≤ L / 2) :
    ∃ v, (cx + Vec3.dot x ⟨A, B, nat 0⟩).Is v ∧ |v - (c + (r.x * α0 + r.y * β0))| ≤ 5 * (u * L) := by
  obtain ⟨u0, u1, η0, ηu, ηL, ηLL, ηuLL, ηuL, L0, uL0, uLL0, uL1, uLL1, hi1, hiL, hiLL⟩ := hs.sizes
  have e1 : oneNorm (⟨α, β, 0⟩ : Vec3 K) = |α| + |β| + |0| := rfl
  have e2 : oneNorm (⟨α - α0, β - β0, 0⟩ : Vec3 K) = |α - α0| + |β - β0| + |0| := rfl
  rw [abs_zero, add_zero] at e1 e2
  have s1 := abs_le_of_near hα le_rfl
  have s2 := abs_le_of_near hβ le_rfl
  obtain ⟨h1, h2⟩ := unit_dot (v := ⟨α, β, 0⟩) hr hε
  obtain ⟨-, h3⟩ := unit_dot (v := ⟨α - α0, β - β0, 0⟩) hr hε
  rw [e1] at h1 h2
  rw [e2] at h3
  have b1 : |α| + |β| ≤ 501 / 1000 * L := by linarith
  obtain ⟨v, v1, v2, -⟩ := rnd_dot hF.toGradual u0.le (by linarith) η0 hx (⟨hA, hB, hF.nat0⟩ : IsV ⟨A, B, nat 0⟩ ⟨α, β, 0⟩)
    (h1.trans (mul_le_mul_of_nonneg_left b1 (by norm_num))) (by linarith)
  have v3 := abs_le_of_near v2 h2
  have v4 : |c + v| ≤ 16 / 10 * L := (abs_add_le' hcL v3).trans (by linarith)
  obtain ⟨w, w1, w2, -⟩ := rnd_add hF.toGradual u0.le hc v1 v4 (by linarith)
  refine ⟨w, w1, ?_⟩
  have e3 : w - (c + (r.x * α0 + r.y * β0)) = (w - (c + v)) + (v - Vec3.dot r ⟨α, β, 0⟩) + Vec3.dot r ⟨α - α0, β - β0, 0⟩ := by
    simp only [Vec3.dot]; ring
  rw [e3]
  refine (abs_add_le' (abs_add_le' w2 v2) h3).trans ?_
  linarith

theorem corner_tiny (hF : F.Rounds u η hi) (hs : Scale u η hi L) {x : Vec3 (XF F)} {r : Vec3 K} {cx A : XF F}
    {c θ : K} (hx : IsV x r) (hr : |Vec3.dot r r - 1| ≤ ε) (hε : ε ≤ 1 / 1000) (hc : cx.Is c) (hcL : |c| ≤ L)
    (hA : A.Is θ) (hθ : |θ| ≤ L) : ∃ v, (cx + Vec3.dot x ⟨nat 0, nat 0, A⟩).Is v := by
  obtain ⟨u0, u1, η0, ηu, ηL, ηLL, ηuLL, ηuL, L0, uL0, uLL0, uL1, uLL1, hi1, hiL, hiLL⟩ := hs.sizes
  have e1 : oneNorm (⟨0, 0, θ⟩ : Vec3 K) = |0| + |0| + |θ| := rfl
  rw [abs_zero, add_zero, zero_add] at e1
  obtain ⟨h1, h2⟩ := unit_dot (v := ⟨0, 0, θ⟩) hr hε
  rw [e1] at h1 h2
  obtain ⟨v, v1, v2, -⟩ := rnd_dot hF.toGradual u0.le (by linarith) η0 hx
    (⟨hF.nat0, hF.nat0, hA⟩ : IsV ⟨nat 0, nat 0, A⟩ ⟨0, 0, θ⟩) (h1.trans (mul_le_mul_of_nonneg_left hθ (by norm_num))) (by linarith)
  have v3 := abs_le_of_near v2 h2
  have v4 : |c + v| ≤ 3 * L := (abs_add_le' hcL v3).trans (by linarith)
  obtain ⟨w, w1, -⟩ := rnd_add hF.toGradual u0.le hc v1 v4 (by linarith)
  exact ⟨w, w1⟩

theorem mulVec_row (R : Mat3 K) (v : Vec3 K) (k : Fin 3) : (R.mulVec v).get k = Vec3.dot (R.row k) v := by
  match k with
  | 0 => rfl
  | 1 => rfl
  | 2 => rfl

theorem corner_vec (hF : F.Rounds u η hi) (hs : Scale u η hi L) {cen : Vec3 (XF F)} {rot : Mat3 (XF F)} {c : Vec3 K}
    {R : Mat3 K} {A B : XF F} {α β α0 β0 : K} (hR : IsM rot R) (hortho : NearOrtho ε R) (hε : ε ≤ 1 / 1000) (hc : IsV cen c)
    (hcL : |c.x| + |c.y| + |c.z| ≤ L) (hA : A.Is α) (hB : B.Is β) (hα : |α - α0| ≤ 6 / 10 * (u * L))
    (hβ : |β - β0| ≤ 6 / 10 * (u * L)) (h0 : |α0| + |β0| ≤ L / 2) :
    ∃ v, IsV (cen + rot.mulVec ⟨A, B, nat 0⟩) v ∧
      ∀ k, |v.get k - (c.get k + ((R.row k).x * α0 + (R.row k).y * β0))| ≤ 5 * (u * L) := by
  have x0 := abs_nonneg c.x
  have y0 := abs_nonneg c.y
  have z0 := abs_nonneg c.z
  obtain ⟨x, x1, x2⟩ := corner_near hF hs hR.1 hortho.rows.aa hε hc.1 (by linarith) hA hB hα hβ h0
  obtain ⟨y, y1, y2⟩ := corner_near hF hs hR.2.1 hortho.rows.bb hε hc.2.1 (by linarith) hA hB hα hβ h0
  obtain ⟨z, z1, z2⟩ := corner_near hF hs hR.2.2 hortho.rows.cc hε hc.2.2 (by linarith) hA hB hα hβ h0
  refine ⟨⟨x, y, z⟩, ⟨x1, y1, z1⟩, fun k => ?_⟩
  match k with
  | 0 => exact x2
  | 1 => exact y2
  | 2 => exact z2

theorem corner_tiny_vec (hF : F.Rounds u η hi) (hs : Scale u η hi L) {cen : Vec3 (XF F)} {rot : Mat3 (XF F)} {c : Vec3 K}
    {R : Mat3 K} {A : XF F} {θ : K} (hR : IsM rot R) (hortho : NearOrtho ε R) (hε : ε ≤ 1 / 1000) (hc : IsV cen c)
    (hcL : |c.x| + |c.y| + |c.z| ≤ L) (hA : A.Is θ) (hθ : |θ| ≤ L) : ∃ v, IsV (cen + rot.mulVec ⟨nat 0, nat 0, A⟩) v := by
  have x0 := abs_nonneg c.x
  have y0 := abs_nonneg c.y
  have z0 := abs_nonneg c.z
  obtain ⟨x, x1⟩ := corner_tiny hF hs hR.1 hortho.rows.aa hε hc.1 (by linarith) hA hθ
  obtain ⟨y, y1⟩ := corner_tiny hF hs hR.2.1 hortho.rows.bb hε hc.2.1 (by linarith) hA hθ
  obtain ⟨z, z1⟩ := corner_tiny hF hs hR.2.2 hortho.rows.cc hε hc.2.2 (by linarith) hA hθ
  exact ⟨⟨x, y, z⟩, x1, y1, z1⟩

/-- one axis of the box: between the extreme corners -/
theorem box_axis {mn mx c s t A B x y E v1 v2 v3 v4 : K} (h1 : |v1 - (c + (s * -A + t * -B))| ≤ E)
    (h2 : |v2 - (c + (s * A + t * -B))| ≤ E) (h3 : |v3 - (c + (s * -A + t * B))| ≤ E) (h4 : |v4 - (c + (s * A + t * B))| ≤ E)
    (m1 : mn ≤ v1) (m2 : mn ≤ v2) (m3 : mn ≤ v3) (m4 : mn ≤ v4) (n1 : v1 ≤ mx) (n2 : v2 ≤ mx) (n3 : v3 ≤ mx) (n4 : v4 ≤ mx)
    (hx : |x| ≤ A - M) (hy : |y| ≤ B - M) :
    mn ≤ (c + (s * x + t * y)) + E - (|s| + |t|) * M ∧ (c + (s * x + t * y)) - E + (|s| + |t|) * M ≤ mx := by
  obtain ⟨x1, x2⟩ := abs_le.1 (abs_mul_le (le_refl |s|) hx)
  obtain ⟨y1, y2⟩ := abs_le.1 (abs_mul_le (le_refl |t|) hy)
  obtain ⟨a1, a2⟩ := abs_le.1 h1
  obtain ⟨b1, b2⟩ := abs_le.1 h2
  obtain ⟨c1, c2⟩ := abs_le.1 h3
  obtain ⟨d1, d2⟩ := abs_le.1 h4
  rcases abs_cases s with ⟨hs, -⟩ | ⟨hs, -⟩ <;> rcases abs_cases t with ⟨ht, -⟩ | ⟨ht, -⟩ <;> rw [hs] at x1 x2 ⊢ <;>
    rw [ht] at y1 y2 ⊢ <;> constructor <;> linarith

theorem planeBox_near (hF : F.Rounds u η hi) (hs : Scale u η hi L) (htiny : |F.tiny| ≤ L) {cen : Vec3 (XF F)} {dx dy : XF F}
    {rot : Mat3 (XF F)} {c : Vec3 K} {a b x y : K} {R : Mat3 K} (hR : IsM rot R) (hortho : NearOrtho ε R) (hε : ε ≤ 1 / 1000)
    (hc : IsV cen c) (hdx : dx.Is a) (hdy : dy.Is b) (hL : |c.x| + |c.y| + |c.z| + |a| + |b| ≤ L)
    (hx : |x| ≤ a / 2 - M) (hy : |y| ≤ b / 2 - M) :
    ∃ mn mx, IsV (planeBox cen dx dy rot).1 mn ∧ IsV (planeBox cen dx dy rot).2 mx ∧ ∀ k, mn.get k ≤ mx.get k ∧
      mn.get k ≤ (c + R.mulVec ⟨x, y, 0⟩).get k + 5 * (u * L) - (|(R.row k).x| + |(R.row k).y|) * M ∧
      (c + R.mulVec ⟨x, y, 0⟩).get k - 5 * (u * L) + (|(R.row k).x| + |(R.row k).y|) * M ≤ mx.get k := by
  have a0 := abs_nonneg a
  have b0 := abs_nonneg b
  have c0 : 0 ≤ |c.x| + |c.y| + |c.z| := by positivity
  have ha : |a| ≤ L := by linarith
  have hb : |b| ≤ L := by linarith
  have hcL : |c.x| + |c.y| + |c.z| ≤ L := by linarith
  obtain ⟨A1, p1, p2, -⟩ := half_is hF hs hdx ha
  obtain ⟨B1, q1, q2, -⟩ := half_is hF hs hdy hb
  obtain ⟨A0, r1, r2, -⟩ := half_is hF hs hdx.neg (by rwa [abs_neg])
  obtain ⟨B0, s1, s2, -⟩ := half_is hF hs hdy.neg (by rwa [abs_neg])
  have p3 := (near_half hs ha p2).1
  have q3 := (near_half hs hb q2).1
  have r3 := (near_half hs (by rwa [abs_neg]) r2).1
  have s3 := (near_half hs (by rwa [abs_neg]) s2).1
  rw [neg_div] at r3 s3
  have ha2 : |a / 2| = |a| / 2 := by rw [abs_div, abs_two]
  have hb2 : |b / 2| = |b| / 2 := by rw [abs_div, abs_two]
  have ha3 : |-(a / 2)| = |a| / 2 := by rw [abs_neg, ha2]
  have hb3 : |-(b / 2)| = |b| / 2 := by rw [abs_neg, hb2]
  obtain ⟨v1, e1, f1⟩ := corner_vec hF hs hR hortho hε hc hcL r1 s1 r3 s3 (by rw [ha3, hb3]; linarith)
  obtain ⟨v2, e2, f2⟩ := corner_vec hF hs hR hortho hε hc hcL p1 s1 p3 s3 (by rw [ha2, hb3]; linarith)
  obtain ⟨v3, e3, f3⟩ := corner_vec hF hs hR hortho hε hc hcL r1 q1 r3 q3 (by rw [ha3, hb2]; linarith)
  obtain ⟨v4, e4, f4⟩ := corner_vec hF hs hR hortho hε hc hcL p1 q1 p3 q3 (by rw [ha2, hb2]; linarith)
  have ht : (tiny : XF F).Is F.tiny := ⟨false, rfl⟩
  obtain ⟨w1, g1⟩ := corner_tiny_vec hF hs hR hortho hε hc hcL ht.neg (by rwa [abs_neg])
  obtain ⟨w2, g2⟩ := corner_tiny_vec hF hs hR hortho hε hc hcL ht htiny
  obtain ⟨mn, mx, h1, h2, h3⟩ := boxOf_is e1 _ _ (.cons e2 (.cons e3 (.cons e4 (.cons g1 (.cons g2 .nil)))))
  refine ⟨mn, mx, h1, h2, fun k => ?_⟩
  have key : ∀ p, InBox mn mx p → mn.get k ≤ p.get k ∧ p.get k ≤ mx.get k := by
    intro p hp
    match k with
    | 0 => exact hp.1
    | 1 => exact hp.2.1
    | 2 => exact hp.2.2
  have k1 := key v1 (h3 v1 (by simp))
  have k2 := key v2 (h3 v2 (by simp))
  have k3 := key v3 (h3 v3 (by simp))
  have k4 := key v4 (h3 v4 (by simp))
  have e : (c + R.mulVec ⟨x, y, 0⟩).get k = c.get k + ((R.row k).x * x + (R.row k).y * y) := by
    match k with
    | 0 => simp [Vec3.get, Mat3.mulVec, Vec3.dot, Mat3.row]
    | 1 => simp [Vec3.get, Mat3.mulVec, Vec3.dot, Mat3.row]
    | 2 => simp [Vec3.get, Mat3.mulVec, Vec3.dot, Mat3.row]
  rw [e]
  exact ⟨k1.1.trans k1.2, box_axis (f1 k) (f2 k) (f3 k) (f4 k) k1.1 k2.1 k3.1 k4.1 k1.2 k2.2 k3.2 k4.2 hx hy⟩

/-! ### rectangles parallel to two axes -/

theorem NearUnit.self {a b c : Vec3 K} (h : NearUnit ε a b c) (k : Fin 3) :
    |Vec3.dot ((⟨a, b, c⟩ : Mat3 K).row k) ((⟨a, b, c⟩ : Mat3 K).row k) - 1| ≤ ε := by
  match k with
  | 0 => exact h.aa
  | 1 => exact h.bb
  | 2 => exact h.cc

theorem NearUnit.other {a b c : Vec3 K} (h : NearUnit ε a b c) {j k : Fin 3} (hjk : j ≠ k) :
    |Vec3.dot ((⟨a, b, c⟩ : Mat3 K).row k) ((⟨a, b, c⟩ : Mat3 K).row j)| ≤ ε := by
  have ba := h.ab; have ca := h.ac; have cb := h.bc
  rw [dot_comm'] at ba ca cb
  match j, k with
  | 0, 0 => exact absurd rfl hjk
  | 1, 1 => exact absurd rfl hjk
  | 2, 2 => exact absurd rfl hjk
  | 1, 0 => exact h.ab
  | 2, 0 => exact h.ac
  | 0, 1 => exact ba
  | 2, 1 => exact h.bc
  | 0, 2 => exact ca
  | 1, 2 => exact cb

/-- if one row is almost along the third axis, the others are almost perpendicular to it -/
theorem row_small {r s : Vec3 K} (hr : |Vec3.dot r r - 1| ≤ ε) (hs : |Vec3.dot s s - 1| ≤ ε) (hrs : |Vec3.dot r s| ≤ ε)
    (hε : ε ≤ 1 / 1000) (hg : |r.x| + |r.y| ≤ κ / 25) (hεκ : 400 * ε ≤ κ) (hκ : κ ≤ 101 / 100) (hκ0 : 0 < κ) :
    |s.z| ≤ 44 / 1000 * κ ∧ 1 / 2 ≤ |s.x| + |s.y| := by
  have x0 := abs_nonneg r.x
  have y0 := abs_nonneg r.y
  have z0 := abs_nonneg r.z
  have hz : 99 / 100 ≤ |r.z| := by
    have h1 := (abs_le.1 hr).1
    have h2 : r.x * r.x + r.y * r.y ≤ 2 / 1000 := by
      rw [← abs_mul_abs_self r.x, ← abs_mul_abs_self r.y]
      have h3 : |r.x| * |r.x| ≤ |r.x| * (41 / 1000) := mul_le_mul_of_nonneg_left (by linarith) x0
      have h4 : |r.y| * |r.y| ≤ |r.y| * (41 / 1000) := mul_le_mul_of_nonneg_left (by linarith) y0
      linarith
    have h3 : r.x * r.x + r.y * r.y + r.z * r.z = Vec3.dot r r := rfl
    refine le_of_sq_le_sq ?_ z0
    rw [sq_abs, pow_two]
    linarith
  obtain ⟨s1, s2, s3⟩ := unit_comp hs hε
  have h1 : |r.z * s.z| ≤ 4254 / 100000 * κ := by
    have e : r.z * s.z = Vec3.dot r s - r.x * s.x - r.y * s.y := by unfold Vec3.dot; ring
    rw [e]
    refine (abs_sub_le' (abs_sub_le' hrs (abs_mul_le le_rfl s1)) (abs_mul_le le_rfl s2)).trans ?_
    linarith
  rw [abs_mul] at h1
  have h2 : |s.z| ≤ 44 / 1000 * κ := by
    have := mul_le_mul_of_nonneg_right hz (abs_nonneg s.z)
    linarith
  refine ⟨h2, ?_⟩
  have h3 := (abs_le.1 hs).1
  have e : s.x * s.x + s.y * s.y + s.z * s.z = Vec3.dot s s := rfl
  have h4 : s.z * s.z ≤ 1 / 100 := by
    rw [← abs_mul_abs_self s.z]
    have : |s.z| * |s.z| ≤ 45 / 1000 * (45 / 1000) := mul_le_mul (by linarith) (by linarith) (abs_nonneg _) (by norm_num)
    linarith
  refine le_of_sq_le_sq ?_ (by positivity)
  have e2 : (|s.x| + |s.y|) ^ 2 = s.x * s.x + s.y * s.y + 2 * (|s.x| * |s.y|) := by
    rw [← abs_mul_abs_self s.x, ← abs_mul_abs_self s.y]; ring
  have h5 : 0 ≤ |s.x| * |s.y| := by positivity
  rw [e2]
  linarith

theorem steep_axis {zk zi zj dk di dj : K} (h : κ ≤ |zk * dk + zi * di + zj * dj|) (hk : |zk| ≤ 1001 / 1000)
    (hi' : |zi| ≤ 44 / 1000 * κ) (hj : |zj| ≤ 44 / 1000 * κ) (di1 : |di| ≤ 101 / 100) (dj1 : |dj| ≤ 101 / 100) :
    9 / 10 * κ ≤ |dk| := by
  have h1 := h.trans (abs_add_le' (abs_add_le' (abs_mul_le hk (le_refl |dk|)) (abs_mul_le hi' di1)) (abs_mul_le hj dj1))
  have := abs_nonneg dk
  linarith

theorem steep_row {R : Mat3 K} {d : Vec3 K} (h : κ ≤ |Vec3.dot (perp R) d|) (k : Fin 3) (hk : |(R.row k).z| ≤ 1001 / 1000)
    (hj : ∀ j, j ≠ k → |(R.row j).z| ≤ 44 / 1000 * κ) (hd : ∀ j, |d.get j| ≤ 101 / 100) : 9 / 10 * κ ≤ |d.get k| := by
  have e : Vec3.dot (perp R) d = (R.row 0).z * d.get 0 + (R.row 1).z * d.get 1 + (R.row 2).z * d.get 2 := rfl
  rw [e] at h
  match k with
  | 0 => exact steep_axis h hk (hj 1 (by decide)) (hj 2 (by decide)) (hd 1) (hd 2)
  | 1 =>
    refine steep_axis (zi := (R.row 0).z) (di := d.get 0) (by rw [add_comm ((R.row 0).z * _)] at h; exact h) hk
      (hj 0 (by decide)) (hj 2 (by decide)) (hd 0) (hd 2)
  | 2 =>
    refine steep_axis (zi := (R.row 0).z) (di := d.get 0) (zj := (R.row 1).z) (dj := d.get 1)
      (by rw [add_comm (_ + _), ← add_assoc] at h; exact h) hk (hj 0 (by decide)) (hj 1 (by decide)) (hd 0) (hd 1)

/-! ### the ray meets the box -/

theorem dir_axis (hs : Scale u η hi L) {d P τ : K} (hd : |d| ≤ 101 / 100) (hP : |d - P| ≤ u * |P| + η) (hτ0 : 0 ≤ τ)
    (hτ : τ ≤ 5 / 2 * L) : |P| ≤ 102 / 100 ∧ |d| ≤ 1001 / 1000 * |P| + η ∧ |τ * P - τ * d| ≤ 26 / 10 * (u * L) := by
  obtain ⟨u0, u1, η0, ηu, ηL, ηLL, ηuLL, ηuL, L0, uL0, uLL0, uL1, uLL1, hi1, hiL, hiLL⟩ := hs.sizes
  have h0 := abs_nonneg P
  have h1 : u * |P| ≤ 1 / 2 ^ 20 * |P| := mul_le_mul_of_nonneg_right u1 h0
  have h2 := abs_le_of_near hP (le_refl |P|)
  have h3 : |P| ≤ 102 / 100 := by
    rw [abs_sub_comm] at hP
    have := abs_le_of_near hP hd
    linarith
  refine ⟨h3, by linarith, ?_⟩
  have h4 : |P - d| ≤ 1021 / 1000 * u := by
    rw [abs_sub_comm]
    have := mul_le_mul_of_nonneg_left h3 u0.le
    linarith
  have hτ' : |τ| ≤ 5 / 2 * L := by rw [abs_of_nonneg hτ0]; exact hτ
  rw [← mul_sub]
  refine (abs_mul_le hτ' h4).trans ?_
  linarith

theorem plane_box_met (hF : F.Rounds u η hi) (hs : Scale u η hi L) (htiny : |F.tiny| ≤ L) {q : Plane (XF F)}
    {o d p c : Vec3 K} {a b m τ n : K} {R : Mat3 K} (hc : IsV q.center c) (hdx : q.dx.Is a) (hdy : q.dy.Is b)
    (hR : IsM q.rotation R) (hortho : NearOrtho ε R) (hε : ε ≤ 1 / 1000)
    (hL : |c.x| + |c.y| + |c.z| + |a| + |b| ≤ L) (hN : |Vec3.dot d d - 1| ≤ 11 * u)
    (hdp : ∀ k, |d.get k - p.get k / n| ≤ u * |p.get k / n| + η) (hmeet : MeetsRect c a b R o d m τ M κ)
    (hM : 200 * (u + ε) * L ≤ M * κ) (hmar : Margin u ε L M κ) (hκ1 : κ ≤ 101 / 100) (hτ0 : 0 ≤ τ) (hτ : τ ≤ 5 / 2 * L) :
    ∃ t mn mx, |t - τ| ≤ M / 20 ∧ IsV (planeBox q.center q.dx q.dy q.rotation).1 mn ∧
      IsV (planeBox q.center q.dx q.dy q.rotation).2 mx ∧ InBox mn mx (along o p (t / n)) := by
  obtain ⟨u0, u1, η0, ηu, ηL, ηLL, ηuLL, ηuL, L0, uL0, uLL0, uL1, uLL1, hi1, hiL, hiLL⟩ := hs.sizes
  obtain ⟨⟨x, y, hpt, hx, hy⟩, -, hκ, hsteep⟩ := hmeet
  have ε0 := hortho.rows.nonneg
  have εL0 : 0 ≤ ε * L := mul_nonneg ε0 L0.le
  obtain ⟨mn, mx, b1, b2, b3⟩ := planeBox_near hF hs htiny hR hortho hε hc hdx hdy hL hx hy
  rw [← hpt] at b3
  have hd : ∀ k, |d.get k| ≤ 101 / 100 := by
    obtain ⟨d1, d2, d3⟩ := near_one_comp (e := d) (hN.trans (by linarith))
    intro k
    match k with
    | 0 => exact d1
    | 1 => exact d2
    | 2 => exact d3
  have hax := fun k => dir_axis hs (hd k) (hdp k) hτ0 hτ
  have hget : ∀ (v : Vec3 K) t k, (along o v t).get k = o.get k + t * v.get k := by
    intro v t k
    match k with
    | 0 => rfl
    | 1 => rfl
    | 2 => rfl
  have M0 := hmar.pos
  have hlarge := hmar.large
  have hsteep2 := hmar.steep
  have hW : (u + ε) * L = u * L + ε * L := by ring
  rw [hW] at hlarge
  obtain ⟨e, he, hbox⟩ := box_param (M := M) (E := 8 * (u * L)) (Δ := M / 20) (mn := mn.get) (mx := mx.get)
    (w := fun k => o.get k + τ * (p.get k / n)) (P := fun k => p.get k / n) (g := fun k => |(R.row k).x| + |(R.row k).y|)
    (by linarith) (by linarith) M0.le (fun k => by positivity)
    (fun k => by
      have h1 := (b3 k).2.1
      have h2 := (abs_le.1 (hax k).2.2).1
      rw [hget] at h1
      show mn.get k ≤ o.get k + τ * (p.get k / n) + _ - _
      linarith)
    (fun k => by
      have h1 := (b3 k).2.2
      have h2 := (abs_le.1 (hax k).2.2).2
      rw [hget] at h1
      show o.get k + τ * (p.get k / n) - _ + _ ≤ mx.get k
      linarith)
    (fun k => (b3 k).1)
    (fun k hk => by
      have hg : |(R.row k).x| + |(R.row k).y| ≤ κ / 25 := by
        set g := |(R.row k).x| + |(R.row k).y| with hgdef
        have g0 : 0 ≤ g := by positivity
        have h1 : g * M * κ ≤ 8 * (u * L) * κ := mul_le_mul_of_nonneg_right hk.le hκ.le
        have h2 : g * (200 * (u + ε) * L) ≤ g * (M * κ) := mul_le_mul_of_nonneg_left hM g0
        have h3 : 0 ≤ g * (ε * L) := mul_nonneg g0 εL0
        have h4 : u * L * g ≤ u * L * (κ / 25) := by
          have e1 : g * (200 * (u + ε) * L) = 200 * (u * L * g) + 200 * (g * (ε * L)) := by ring
          have e2 : g * (M * κ) = g * M * κ := by ring
          linarith
        exact le_of_mul_le_mul_left h4 uL0
      have hrow : ∀ j, j ≠ k → |(R.row j).z| ≤ 44 / 1000 * κ ∧ 1 / 2 ≤ |(R.row j).x| + |(R.row j).y| := fun j hj =>
        row_small (hortho.rows.self k) (hortho.rows.self j) (hortho.rows.other hj) hε hg (by linarith) hκ1 hκ
      have hkz := (unit_comp (hortho.rows.self k) hε).2.2
      have hdk := steep_row hsteep k hkz (fun j hj => (hrow j hj).1) hd
      have hPk : 89 / 100 * κ ≤ |p.get k / n| := by
        have := (hax k).2.1
        linarith
      refine ⟨by linarith, ?_, fun j hj => ?_⟩
      · have h1 : M / 20 * (89 / 100 * κ) ≤ M / 20 * |p.get k / n| := mul_le_mul_of_nonneg_left hPk (by linarith)
        have e1 : 200 * (u + ε) * L = 200 * (u * L) + 200 * (ε * L) := by ring
        show 8 * (u * L) ≤ M / 20 * |p.get k / n|
        linarith
      · have h1 : M / 20 * |p.get j / n| ≤ M / 20 * (102 / 100) := mul_le_mul_of_nonneg_left (hax j).1 (by linarith)
        have h2 : 1 / 2 * M ≤ (|(R.row j).x| + |(R.row j).y|) * M := mul_le_mul_of_nonneg_right (hrow j hj).2 M0.le
        show 8 * (u * L) + M / 20 * |p.get j / n| ≤ (|(R.row j).x| + |(R.row j).y|) * M
        linarith)
  refine ⟨τ + e, mn, mx, by rw [add_sub_cancel_left]; exact he, b1, b2, ?_⟩
  have key : ∀ k, mn.get k ≤ (along o p ((τ + e) / n)).get k ∧ (along o p ((τ + e) / n)).get k ≤ mx.get k := by
    intro k
    have h1 := hbox k
    have e1 : (along o p ((τ + e) / n)).get k = o.get k + τ * (p.get k / n) + e * (p.get k / n) := by rw [hget]; ring
    rw [e1]
    exact h1
  exact ⟨key 0, key 1, key 2⟩

theorem IsM.only {w : Mat3 (XF F)} {R R' : Mat3 K} (h : IsM w R) (h' : IsM w R') : R = R' := by
  obtain ⟨a1, a2, a3⟩ := R
  obtain ⟨b1, b2, b3⟩ := R'
  obtain rfl := IsV.unique h.1 h'.1
  obtain rfl := IsV.unique h.2.1 h'.2.1
  obtain rfl := IsV.unique h.2.2 h'.2.2
  rfl

end

section
variable {T : Type} [Scalar T]

theorem PlaneColl.make_size {cs : List (Vec3 T)} {xs ys : List T} {ms : List (Mat3 T)} {coll : PlaneColl T}
    (h : PlaneColl.make cs xs ys ms = .ok coll) :
    coll.toCollection.size = cs.length ∧ coll.boxes.length = cs.length := by
  unfold PlaneColl.make at h
  rw [run_bind_eq_ok] at h
  obtain ⟨bs, h1, h⟩ := h
  simp only [run_pure, Except.ok.injEq] at h
  subst h
  exact ⟨rfl, range_mapM_length h1⟩

theorem PlaneColl.make_box_ok {cs : List (Vec3 T)} {xs ys : List T} {ms : List (Mat3 T)} {coll : PlaneColl T}
    (h : PlaneColl.make cs xs ys ms = .ok coll) {i : Nat} (hi : i < coll.toCollection.size) :
    ∃ b, coll.toCollection.box i = .ok b := by
  obtain ⟨h1, h2⟩ := PlaneColl.make_size h
  have hi' : i < coll.boxes.length := by omega
  exact ⟨_, lookup_eq_ok.2 (List.getElem?_eq_getElem hi')⟩

end
end Blazert
