/- Sequences of triangle tests with rounding, and the formats `double` and `float`. -/
import Verif.Proofs.TriRound
import Verif.Proofs.SphereScan
import Verif.Proofs.Mesh
import Verif.Proofs.Binary
import Verif.Format

set_option autoImplicit false
set_option linter.unusedSectionVars false

namespace Blazert
open Scalar

section
variable {K : Type} [Field K] [LinearOrder K] [IsStrictOrderedRing K] [FloorRing K] {F : Fmt K} {u η hi lo lo' L : K}

/-- no distance yet, or one that is not negative -/
def Dist0 (x : XF F) : Prop := x = .inf false ∨ ∃ k, 0 ≤ k ∧ x.Is k

/-- the triangles of a mesh close enough to the ray's origin, without underflow of the determinant -/
structure TriGood (o : Vec3 K) (L lo : K) (ray : Ray (XF F)) (q : Triangle (XF F)) : Prop where
  within : ∃ A B C, TriWithin o L q A B C
  det : ∀ D, (Vec3.dot (Vec3.cross q.c q.b) ray.direction).Is D → D = 0 ∨ lo ≤ |D|

/-- the assumptions about the ray -/
structure RayNear' (ray : Ray (XF F)) (o d : Vec3 K) (m hi L : K) : Prop where
  org : IsV ray.origin o
  dir : IsV ray.direction d
  unit : Vec3.dot d d ≤ 5 / 4
  min0 : 0 ≤ m
  min1 : 2 * L ^ 2 * m ≤ hi

theorem tri_drift (hF : F.Rounds u η hi) (hF' : F.Relative u lo' hi) (hs : Scale3 u η hi lo L) {ray : Ray (XF F)}
    {o d : Vec3 K} {m : K} (hr : RayNear' ray o d m hi L) {i : TriI (XF F)} (hm : i.minHit.Is m) {q : Triangle (XF F)}
    (hq : TriGood o L lo ray q) (h : (triIntersect i q ray).2 = true) :
    ∃ h, (triIntersect i q ray).1.hd.Is h ∧ 0 ≤ h ∧ ∀ k, 0 ≤ k → i.hd.Is k → h + L ≤ (k + L) * (1 + 4 * u) := by
  obtain ⟨A, B, C, hw⟩ := hq.within
  obtain ⟨s, -, -, -, -, D, h1, h2, -, h3⟩ := tri_hit_near hF hF' hs hw hr.org hr.dir hr.unit hm hr.min0 hr.min1 h
  have hD : D ≠ 0 := by
    rintro rfl
    rw [mul_zero] at h2
    exact lt_irrefl _ h2
  obtain ⟨h', e1, e2, -, e3⟩ := h3 ((hq.det D h1).resolve_left hD)
  exact ⟨h', e1, e2, e3⟩

theorem tri_testAll_drift (hF : F.Rounds u η hi) (hF' : F.Relative u lo' hi) (hs : Scale3 u η hi lo L) {ray : Ray (XF F)}
    {o d : Vec3 K} {m : K} (hr : RayNear' ray o d m hi L) (mesh : MeshColl (XF F)) (vs : List (Triangle (XF F)))
    (hvs : ∀ q ∈ vs, TriGood o L lo ray q) (s : TriI (XF F)) (hm : s.minHit.Is m) :
    (testAll (triIx mesh) ray s vs).minHit.Is m ∧ (Dist0 s.hd → Dist0 (testAll (triIx mesh) ray s vs).hd) ∧
    ∀ k, 0 ≤ k → s.hd.Is k → ∃ k', 0 ≤ k' ∧ (testAll (triIx mesh) ray s vs).hd.Is k' ∧
      k' + L ≤ (k + L) * (1 + 4 * u) ^ vs.length := by
  induction vs generalizing s with
  | nil => exact ⟨hm, id, fun k h0 hk => ⟨k, h0, hk, by simp⟩⟩
  | cons q vs ih =>
    have e : testAll (triIx mesh) ray s (q :: vs) = testAll (triIx mesh) ray (triIntersect s q ray).1 vs := rfl
    rw [e]
    have hm' : (triIntersect s q ray).1.minHit.Is m := by rw [triIntersect_minHit]; exact hm
    obtain ⟨i0, i1, i2⟩ := ih (fun q' hq' => hvs q' (by simp [hq'])) _ hm'
    have hq := hvs q (by simp)
    have u0 := hs.u_pos
    have L0 := hs.pos
    have h1u : 1 ≤ 1 + 4 * u := by linarith
    cases hb : (triIntersect s q ray).2 with
    | false =>
      have hsame : (triIntersect s q ray).1 = s := (tri_quiet mesh ray).miss s q hb
      rw [hsame] at i0 i1 i2 ⊢
      refine ⟨i0, i1, fun k h0 hk => ?_⟩
      obtain ⟨k', g0, h1, h2⟩ := i2 k h0 hk
      refine ⟨k', g0, h1, h2.trans ?_⟩
      rw [List.length_cons]
      exact mul_le_mul_of_nonneg_left (pow_le_pow_right₀ h1u (Nat.le_succ _)) (by linarith)
    | true =>
      obtain ⟨k', h1, h0', h2⟩ := tri_drift hF hF' hs hr hm hq hb
      refine ⟨i0, fun _ => i1 (.inr ⟨k', h0', h1⟩), fun k h0 hk => ?_⟩
      obtain ⟨k'', g0, h3, h4⟩ := i2 k' h0' h1
      refine ⟨k'', g0, h3, h4.trans ?_⟩
      rw [List.length_cons, pow_succ', ← mul_assoc]
      exact mul_le_mul_of_nonneg_right (h2 k h0 hk) (by positivity)

/-! ### From the direction given to the normalised one -/

theorem dir_close (hs : Scale u η hi L) {S n p d : K} (hS : |S - 1| ≤ 16 * u) (hn0 : 0 < n) (hn : |n ^ 2 - S| ≤ 9 * u * S)
    (hp : p * p ≤ S) (hd : |d - p / n| ≤ u * |p / n| + η) : |d - p| ≤ 15 * u := by
  obtain ⟨u0, u1, η0, ηu, ηL, ηLL, ηuLL, ηuL, L0, uL0, uLL0, uL1, uLL1, hi1, hiL, hiLL⟩ := hs.sizes
  obtain ⟨s1, s2⟩ := abs_le.1 hS
  obtain ⟨n1, n2⟩ := abs_le.1 hn
  have huu : u * u ≤ 1 / 2 ^ 20 * u := mul_le_mul_of_nonneg_right u1 u0.le
  have huS : u * S ≤ 101 / 100 * u := by
    rw [mul_comm]; exact mul_le_mul_of_nonneg_right (by linarith) u0.le
  have hn3 : n ≤ 1 + 13 * u := by
    refine le_of_sq_le_sq ?_ (by linarith)
    have e : (1 + 13 * u) ^ 2 = 1 + 26 * u + 169 * (u * u) := by ring
    have := mul_self_nonneg u
    rw [e]; linarith
  have hn4 : 1 - 13 * u ≤ n := by
    refine le_of_sq_le_sq ?_ hn0.le
    have e : (1 - 13 * u) ^ 2 = 1 - 26 * u + 169 * (u * u) := by ring
    rw [e]; linarith
  have hpa : |p| ≤ 1001 / 1000 := by
    refine abs_le_of_sq_le_sq ?_ (by norm_num)
    rw [pow_two]; linarith
  have hq : |p / n| ≤ 1002 / 1000 := by
    rw [abs_div, abs_of_pos hn0, div_le_iff₀ hn0]
    linarith
  have h1 : |p / n - p| ≤ 1002 / 1000 * (13 * u) := by
    have e : p / n - p = p / n * (1 - n) := by field_simp
    rw [e]
    refine abs_mul_le hq (abs_le.2 ⟨by linarith, by linarith⟩)
  have h2 := mul_le_mul_of_nonneg_left hq u0.le
  have := abs_near_trans hd h1
  linarith

theorem side_dir {o d p P Q : Vec3 K} {e a b : K} (h : Sup (d - p) e) (h1 : oneNorm (P - o) ≤ a) (h2 : oneNorm (Q - P) ≤ b) :
    |edgeSide o d P Q - edgeSide o p P Q| ≤ e * a * b := by
  have e1 : edgeSide o d P Q - edgeSide o p P Q = Vec3.dot (Q - P) (Vec3.cross (d - p) (P - o)) := by
    simp only [edgeSide, Vec3.dot, Vec3.cross, Vec3.sub_x, Vec3.sub_y, Vec3.sub_z]; ring
  rw [e1]
  refine (abs_dot_le h2 (h.cross h1)).trans_eq (by ring)

theorem normal_dir {d p N : Vec3 K} {e a : K} (h : Sup (d - p) e) (h1 : oneNorm N ≤ a) :
    |Vec3.dot N d - Vec3.dot N p| ≤ a * e := by
  have e1 : Vec3.dot N d - Vec3.dot N p = Vec3.dot N (d - p) := by
    simp only [Vec3.dot, Vec3.sub_x, Vec3.sub_y, Vec3.sub_z]; ring
  rw [e1]
  exact abs_dot_le h1 h

/-- The test of a triangle that the ray (along the direction given) clearly passes. -/
theorem tri_hit_found (hF : F.Rounds u η hi) (hF' : F.Relative u lo' hi) (hS : F.Saturates hi) (hs : Scale3 u η hi lo L)
    {ray : Ray (XF F)} {A B C o d p : Vec3 K} {m σ τ : K} (hr : RayNear' ray o d m hi L) {i : TriI (XF F)}
    (hm : i.minHit.Is m) {q : Triangle (XF F)} (hw : TriWithin o L q A B C) (hCo : oneNorm (C - o) ≤ L)
    (hBo : oneNorm (B - o) ≤ L) (hCB : oneNorm (B - C) ≤ L) (hdp : Sup (d - p) (15 * u)) (hσ : σ = 1 ∨ σ = -1)
    (h1 : 50 * (u * L ^ 2) - 8 * u ≤ σ * edgeSide o p A C) (h2 : 50 * (u * L ^ 2) - 8 * u ≤ σ * edgeSide o p B A)
    (h3 : 50 * (u * L ^ 2) - 8 * u ≤ σ * edgeSide o p C B) (h4 : 60 * (u * L ^ 2) ≤ σ * Vec3.dot (normalOf A B C) p)
    (hT : Vec3.dot (normalOf A B C) (A - o) = τ * Vec3.dot (normalOf A B C) p)
    (hmin : 30 * (u * L ^ 2) * (L + m) ≤ σ * Vec3.dot (normalOf A B C) p * (τ - m)) (hhd : Dist0 i.hd) :
    ∃ k, 0 ≤ k ∧ (triIntersect i q ray).1.hd.Is k ∧
      σ * Vec3.dot (normalOf A B C) p * (k - τ) ≤ 30 * (u * L ^ 2) * (L + k) := by
  obtain ⟨u0, u1, η0, ηu, ηL, ηLL, ηuLL, ηuL, L0, uL0, uLL0, uL1, uLL1, hi1, hiL, hiLL⟩ := hs.toScale.sizes
  have hσ1 : |σ| = 1 := by rcases hσ with h | h <;> simp [h]
  have hN : oneNorm (normalOf A B C) ≤ L ^ 2 := by
    have := oneNorm_cross_le hw.ba hw.ac
    rw [← pow_two] at this; exact this
  have d1 := abs_le.1 (abs_sign_mul hσ1 (side_dir hdp hw.oa hw.ac))
  have d2 := abs_le.1 (abs_sign_mul hσ1 (side_dir hdp hBo hw.ba))
  have d3 := abs_le.1 (abs_sign_mul hσ1 (side_dir hdp hCo hCB))
  have d4 := abs_le.1 (abs_sign_mul hσ1 (normal_dir hdp hN))
  have e15 : 15 * u * L * L = 15 * (u * L ^ 2) := by ring
  have e15' : L ^ 2 * (15 * u) = 15 * (u * L ^ 2) := by ring
  rw [e15] at d1 d2 d3
  rw [e15'] at d4
  set Δ := σ * Vec3.dot (normalOf A B C) p with hΔ
  have hT' : σ * Vec3.dot (normalOf A B C) (A - o) = τ * Δ := by rw [hT, hΔ]; ring
  -- from the exact to the stored direction
  have conv : ∀ k, 0 ≤ k → σ * Vec3.dot (normalOf A B C) d * k - τ * Δ ≤ 12 * (u * L ^ 2) * (L + k) →
      Δ * (k - τ) ≤ 30 * (u * L ^ 2) * (L + k) := by
    intro k hk h
    have a1 : (Δ - 15 * (u * L ^ 2)) * k ≤ σ * Vec3.dot (normalOf A B C) d * k :=
      mul_le_mul_of_nonneg_right (by linarith [d4.1]) hk
    have a2 : 0 ≤ u * L ^ 2 * k := by positivity
    have a3 : 0 < u * L ^ 2 * L := by positivity
    have e1 : (Δ - 15 * (u * L ^ 2)) * k = Δ * k - 15 * (u * L ^ 2 * k) := by ring
    have e2 : 12 * (u * L ^ 2) * (L + k) = 12 * (u * L ^ 2 * L) + 12 * (u * L ^ 2 * k) := by ring
    have e3 : 30 * (u * L ^ 2) * (L + k) = 30 * (u * L ^ 2 * L) + 30 * (u * L ^ 2 * k) := by ring
    have e4 : Δ * (k - τ) = Δ * k - τ * Δ := by ring
    rw [e3, e4]
    linarith
  have accepted : (triIntersect i q ray).2 = true → ∃ k, 0 ≤ k ∧ (triIntersect i q ray).1.hd.Is k ∧
      Δ * (k - τ) ≤ 30 * (u * L ^ 2) * (L + k) := by
    intro h
    obtain ⟨s, hs1, -, -, -, D, a1, a2, a3, a4⟩ := tri_hit_near hF hF' hs hw hr.org hr.dir hr.unit hm hr.min0 hr.min1 h
    have hsσ : s = σ := by
      rcases hs1 with rfl | rfl <;> rcases hσ with rfl | rfl
      · rfl
      · exfalso
        have := (abs_le.1 a3).2
        linarith [d4.1]
      · exfalso
        have := (abs_le.1 a3).2
        linarith [d4.1]
      · rfl
    subst hsσ
    have hDlo : lo ≤ |D| := by
      have h1 : s * D ≤ |D| := (le_abs_self _).trans_eq (by rw [abs_mul, hσ1, one_mul])
      have h2 := hs.lo_le
      linarith [(abs_le.1 a3).1, d4.1]
    obtain ⟨k, k1, k2, k3, -⟩ := a4 hDlo
    refine ⟨k, k2, k1, conv k k2 ?_⟩
    have := (abs_le.1 k3).2
    rw [hT'] at this
    linarith
  obtain ⟨D, U, V, T, n1, hn, hcase⟩ := tri_run hF hF' hs hw hr.org hr.dir hr.unit hm
  have hσD : 35 * (u * L ^ 2) ≤ σ * D := by
    have := (abs_le.1 (abs_sign_mul hσ1 hn.det)).1
    linarith [d4.1]
  rcases hcase with ⟨rfl, -⟩ | ⟨w, s, x, y, hrun⟩
  · rw [mul_zero] at hσD; exfalso; linarith
  have hsσ : s = σ := by
    rcases hrun.sign with ⟨rfl, h⟩ | ⟨rfl, h⟩ <;> rcases hσ with rfl | rfl
    · rfl
    · exfalso; linarith
    · exfalso; linarith
    · rfl
  subst hsσ
  obtain ⟨-, s2, -⟩ := hrun.abs_sign
  have dU := abs_le.1 (abs_sign_mul hσ1 hn.ac)
  have dV := abs_le.1 (abs_sign_mul hσ1 hn.ba)
  have dD := abs_le.1 (abs_sign_mul hσ1 hn.det)
  have dw := abs_le.1 hrun.third
  have hsum := congrArg (s * ·) (side_sum o d A B C)
  simp only [mul_add] at hsum
  have w1 : -(8 * u) ≤ s * U := by linarith [dU.1, d1.1]
  have w2 : -(8 * u) ≤ s * V := by linarith [dV.1, d2.1]
  have w3 : -(8 * u) ≤ w := by
    rw [s2] at dw
    linarith [dw.1, dD.1, dU.2, dV.2, d3.1]
  have w4 : 12 * (u * L ^ 2) * (L + m) ≤ s * Vec3.dot (normalOf A B C) (A - o) - s * Vec3.dot (normalOf A B C) d * m := by
    rw [hT']
    have a1 : s * Vec3.dot (normalOf A B C) d * m ≤ (Δ + 15 * (u * L ^ 2)) * m :=
      mul_le_mul_of_nonneg_right (by linarith [d4.2]) hr.min0
    have a2 : 0 ≤ u * L ^ 2 * m := mul_nonneg uLL0.le hr.min0
    have a3 : 0 < u * L ^ 2 * L := by positivity
    have e1 : (Δ + 15 * (u * L ^ 2)) * m = Δ * m + 15 * (u * L ^ 2 * m) := by ring
    have e2 : 12 * (u * L ^ 2) * (L + m) = 12 * (u * L ^ 2 * L) + 12 * (u * L ^ 2 * m) := by ring
    have e3 : 30 * (u * L ^ 2) * (L + m) = 30 * (u * L ^ 2 * L) + 30 * (u * L ^ 2 * m) := by ring
    have e4 : Δ * (τ - m) = τ * Δ - Δ * m := by ring
    rw [e3, e4] at hmin
    rw [e2]
    linarith
  cases hb : (triIntersect i q ray).2 with
  | true => exact accepted hb
  | false =>
    rcases hhd with h | ⟨k, k0, hk⟩
    · exact absurd (hrun.found hF hS hs hn hm hr.min0 hr.min1 w1 w2 w3 w4 (.inl h)) (by rw [hb]; simp)
    · have hle : s * Vec3.dot (normalOf A B C) d * k - s * Vec3.dot (normalOf A B C) (A - o) ≤
          12 * (u * L ^ 2) * (L + k) := by
        by_contra hc
        exact absurd (hrun.found hF hS hs hn hm hr.min0 hr.min1 w1 w2 w3 w4 (.inr ⟨k, k0, hk, not_le.1 hc⟩))
          (by rw [hb]; simp)
      have hsame : (triIntersect i q ray).1 = i := by
        have hF0 : ∀ j : TriI (XF F), (triIntersect j q ray).2 = false → (triIntersect j q ray).1 = j := by
          intro j h
          unfold triIntersect at h ⊢
          simp only at h ⊢
          split_ifs at h ⊢ <;> first | rfl | cases h
        exact hF0 i hb
      rw [hT'] at hle
      exact ⟨k, k0, by rw [hsame]; exact hk, conv k k0 hle⟩

/-- solving for the distance -/
theorem solve_distance {Δ k τ L x : K} (hL : 0 < L) (hτ : 0 ≤ τ) (hx : 0 ≤ x) (hΔ : 2 * x ≤ Δ) (hΔ0 : 0 < Δ)
    (h : Δ * (k - τ) ≤ x * (L + k)) : k + L ≤ (τ + L) * (1 + 2 * x / Δ) := by
  have h1 : (k + L) * (Δ - x) ≤ (τ + L) * Δ := by
    have e1 : (k + L) * (Δ - x) = Δ * (k - τ) - x * (L + k) + (τ + L) * Δ := by ring
    rw [e1]; linarith
  have h2 : Δ ≤ (1 + 2 * x / Δ) * (Δ - x) := by
    have e : (1 + 2 * x / Δ) * (Δ - x) = Δ + x * (Δ - 2 * x) / Δ := by field_simp; ring
    rw [e]
    have : 0 ≤ x * (Δ - 2 * x) / Δ := div_nonneg (mul_nonneg hx (by linarith)) hΔ0.le
    linarith
  have h3 : 0 < Δ - x := by linarith
  refine le_of_mul_le_mul_right (h1.trans ?_) h3
  rw [mul_assoc]
  exact mul_le_mul_of_nonneg_left h2 (by linarith)

end

/-! ### Triangles with the same first vertex -/

section
variable {K : Type} [Field K] [LinearOrder K] [IsStrictOrderedRing K] [FloorRing K] {F : Fmt K} {u η hi lo lo' L : K}

/-- when `x` is a number, then `y` is its opposite -/
def Opp (x y : XF F) : Prop := ∀ a, x.Is a → y.Is (-a)

theorem XF.mk_is {s : Bool} {r a : K} (h : (XF.mk F s r).Is a) : F.post r = some a := by
  unfold XF.mk at h
  obtain ⟨t, h⟩ := h
  split at h
  · cases h
  · rename_i r' e
    injection h with h
    rw [e, h]

theorem XF.is_mk {s : Bool} {r a : K} (h : F.post r = some a) : (XF.mk F s r).Is a := by
  unfold XF.mk
  rw [h]
  exact ⟨_, rfl⟩

theorem Opp.add (hF : F.Odd) {x x' y y' : XF F} (h : Opp x x') (h' : Opp y y') : Opp (x + y) (x' + y') := by
  intro r hr
  match x, y with
  | .fin a s, .fin b t =>
    obtain ⟨s', e1⟩ := h a ⟨s, rfl⟩
    obtain ⟨t', e2⟩ := h' b ⟨t, rfl⟩
    have := XF.mk_is (F := F) hr
    subst e1 e2
    refine XF.is_mk ?_
    rw [← neg_add, hF, this]; rfl
  | .fin a s, .inf t => obtain ⟨_, hr⟩ := hr; cases hr
  | .inf s, .fin a t => obtain ⟨_, hr⟩ := hr; cases hr
  | .inf s, .inf t =>
    obtain ⟨_, hr⟩ := hr
    change (if s = t then XF.inf s else XF.nan : XF F) = _ at hr
    split_ifs at hr
  | .nan, .fin _ _ => obtain ⟨_, hr⟩ := hr; cases hr
  | .nan, .inf _ => obtain ⟨_, hr⟩ := hr; cases hr
  | .nan, .nan => obtain ⟨_, hr⟩ := hr; cases hr
  | .fin _ _, .nan => obtain ⟨_, hr⟩ := hr; cases hr
  | .inf _, .nan => obtain ⟨_, hr⟩ := hr; cases hr

theorem Opp.sub (hF : F.Odd) {x y : XF F} {a b : K} (hx : x.Is a) (hy : y.Is b) : Opp (x - y) (y - x) := by
  obtain ⟨s, rfl⟩ := hx
  obtain ⟨t, rfl⟩ := hy
  intro r hr
  have := XF.mk_is (F := F) hr
  refine XF.is_mk ?_
  rw [show b + -a = -(a + -b) by ring, hF, this]; rfl

theorem Opp.mul (hF : F.Odd) (z : XF F) {x x' : XF F} (h : Opp x x') : Opp (z * x) (z * x') := by
  intro r hr
  match z, x with
  | .fin a s, .fin b t =>
    obtain ⟨t', e2⟩ := h b ⟨t, rfl⟩
    have := XF.mk_is (F := F) hr
    subst e2
    refine XF.is_mk ?_
    rw [mul_neg, hF, this]; rfl
  | .fin a s, .inf t =>
    obtain ⟨_, hr⟩ := hr
    change (if a = 0 then XF.nan else _ : XF F) = _ at hr
    split_ifs at hr
  | .inf s, .fin a t =>
    obtain ⟨_, hr⟩ := hr
    change (if a = 0 then XF.nan else _ : XF F) = _ at hr
    split_ifs at hr
  | .inf s, .inf t => obtain ⟨_, hr⟩ := hr; cases hr
  | .nan, .fin _ _ => obtain ⟨_, hr⟩ := hr; cases hr
  | .nan, .inf _ => obtain ⟨_, hr⟩ := hr; cases hr
  | .nan, .nan => obtain ⟨_, hr⟩ := hr; cases hr
  | .fin _ _, .nan => obtain ⟨_, hr⟩ := hr; cases hr
  | .inf _, .nan => obtain ⟨_, hr⟩ := hr; cases hr

/-- an edge that is traversed in the opposite direction gets the opposite value -/
theorem Opp.edge (hF : F.Odd) {a c : Vec3 (XF F)} {A C : Vec3 K} (ha : IsV a A) (hc : IsV c C) (r : Vec3 (XF F)) :
    Opp (Vec3.dot r (c - a)) (Vec3.dot r (a - c)) :=
  Opp.add hF (Opp.add hF (Opp.mul hF _ (Opp.sub hF hc.1 ha.1)) (Opp.mul hF _ (Opp.sub hF hc.2.1 ha.2.1)))
    (Opp.mul hF _ (Opp.sub hF hc.2.2 ha.2.2))

/-- One of two triangles is hit, if they have opposite values for the edge they share. -/
theorem tri_fan (hF : F.Rounds u η hi) (hF' : F.Relative u lo' hi) (hS : F.Saturates hi) (hO : F.Odd) (hs : Scale3 u η hi lo L)
    {ray : Ray (XF F)} {a b c e : Vec3 (XF F)} {A B C E o d : Vec3 K} {m σ : K} (id id' : Nat) (hr : RayNear' ray o d m hi L)
    {i : TriI (XF F)} (hm : i.minHit.Is m) (ha : IsV a A) (hb : IsV b B) (hc : IsV c C) (he : IsV e E)
    (l1 : oneNorm (A - B) ≤ L) (l2 : oneNorm (C - A) ≤ L) (l2' : oneNorm (A - C) ≤ L) (l3 : oneNorm (E - A) ≤ L)
    (l4 : oneNorm (A - o) ≤ L) (hσ : σ = 1 ∨ σ = -1)
    (h1 : 35 * (u * L ^ 2) - 8 * u ≤ σ * edgeSide o d B A) (h2 : 35 * (u * L ^ 2) - 8 * u ≤ σ * edgeSide o d C B)
    (h3 : 35 * (u * L ^ 2) - 8 * u ≤ σ * edgeSide o d E C) (h4 : 35 * (u * L ^ 2) - 8 * u ≤ σ * edgeSide o d A E)
    (h5 : 11 * (u * L ^ 2) ≤ σ * Vec3.dot (normalOf A B C) d) (h6 : 11 * (u * L ^ 2) ≤ σ * Vec3.dot (normalOf A C E) d)
    (t1 : 12 * (u * L ^ 2) * (L + m) ≤ σ * Vec3.dot (normalOf A B C) (A - o) - σ * Vec3.dot (normalOf A B C) d * m)
    (t2 : 12 * (u * L ^ 2) * (L + m) ≤ σ * Vec3.dot (normalOf A C E) (A - o) - σ * Vec3.dot (normalOf A C E) d * m)
    (hhd : i.hd = .inf false ∨ ∃ k, 0 ≤ k ∧ i.hd.Is k ∧
      12 * (u * L ^ 2) * (L + k) < σ * Vec3.dot (normalOf A B C) d * k - σ * Vec3.dot (normalOf A B C) (A - o) ∧
      12 * (u * L ^ 2) * (L + k) < σ * Vec3.dot (normalOf A C E) d * k - σ * Vec3.dot (normalOf A C E) (A - o)) :
    (triIntersect i (Triangle.make a b c id) ray).2 = true ∨ (triIntersect i (Triangle.make a c e id') ray).2 = true := by
  obtain ⟨u0, u1, η0, ηu, ηL, ηLL, ηuLL, ηuL, L0, uL0, uLL0, uL1, uLL1, hi1, hiL, hiLL⟩ := hs.toScale.sizes
  have hσ1 : |σ| = 1 := by rcases hσ with h | h <;> simp [h]
  have w1 : TriWithin o L (Triangle.make a b c id) A B C := ⟨⟨a, b, c, ha, hb, hc, rfl⟩, l1, l2, l4⟩
  have w2 : TriWithin o L (Triangle.make a c e id') A C E := ⟨⟨a, c, e, ha, hc, he, rfl⟩, l2', l3, l4⟩
  -- the test of either triangle, given the shared edge
  have side : ∀ {tri : Triangle (XF F)} {A B C : Vec3 K}, TriWithin o L tri A B C →
      11 * (u * L ^ 2) ≤ σ * Vec3.dot (normalOf A B C) d → ∃ D U V T w x y,
        TriNums u L D U V T (Vec3.dot (normalOf A B C) d) (edgeSide o d A C) (edgeSide o d B A)
          (Vec3.dot (normalOf A B C) (A - o)) ∧ TriRun u L i tri ray D U V T w σ x y ∧
        (35 * (u * L ^ 2) - 8 * u ≤ σ * edgeSide o d C B → -(8 * u) ≤ w) := by
    intro tri A B C hw hdet
    obtain ⟨D, U, V, T, n1, hn, hcase⟩ := tri_run hF hF' hs hw hr.org hr.dir hr.unit hm
    have dD := abs_le.1 (abs_sign_mul hσ1 hn.det)
    have hσD : 0 < σ * D := by linarith [dD.1]
    rcases hcase with ⟨rfl, -⟩ | ⟨w, s, x, y, hrun⟩
    · rw [mul_zero] at hσD; exact absurd hσD (lt_irrefl _)
    have hsσ : s = σ := by
      rcases hrun.sign with ⟨rfl, h⟩ | ⟨rfl, h⟩ <;> rcases hσ with rfl | rfl
      · rfl
      · exfalso; linarith
      · exfalso; linarith
      · rfl
    subst hsσ
    refine ⟨D, U, V, T, w, x, y, hn, hrun, fun h => ?_⟩
    obtain ⟨-, s2, -⟩ := hrun.abs_sign
    have dU := abs_le.1 (abs_sign_mul hσ1 hn.ac)
    have dV := abs_le.1 (abs_sign_mul hσ1 hn.ba)
    have dw := abs_le.1 hrun.third
    have hsum := congrArg (s * ·) (side_sum o d A B C)
    simp only [mul_add] at hsum
    rw [s2] at dw
    linarith [dw.1, dD.1, dU.2, dV.2]
  obtain ⟨D, U, V, T, w, x, y, hn, hrun, hw⟩ := side w1 h5
  obtain ⟨D', U', V', T', w', x', y', hn', hrun', hw'⟩ := side w2 h6
  have hopp : V' = -U := (hrun'.edgeBA).unique (Opp.edge hO ha hc _ U hrun.edgeAC)
  have dV := abs_le.1 (abs_sign_mul hσ1 hn.ba)
  have dU' := abs_le.1 (abs_sign_mul hσ1 hn'.ac)
  rcases le_total 0 (σ * U) with hU | hU
  · left
    refine hrun.found hF hS hs hn hm hr.min0 hr.min1 (by linarith) (by linarith [dV.1]) (hw h2) t1 ?_
    rcases hhd with h | ⟨k, k1, k2, k3, -⟩
    · exact .inl h
    · exact .inr ⟨k, k1, k2, k3⟩
  · right
    have hV' : σ * V' = -(σ * U) := by rw [hopp]; ring
    refine hrun'.found hF hS hs hn' hm hr.min0 hr.min1 (by linarith [dU'.1]) (by linarith) (hw' h3) t2 ?_
    rcases hhd with h | ⟨k, k1, k2, -, k3⟩
    · exact .inl h
    · exact .inr ⟨k, k1, k2, k3⟩

/-! ### Meshes -/

theorem oneNorm_diff {v w o : Vec3 K} {a b : K} (hv : oneNorm (v - o) ≤ a) (hw : oneNorm (w - o) ≤ b) :
    oneNorm (v - w) ≤ a + b := by
  have h : ∀ x y z : K, |x - y| ≤ |x - z| + |y - z| := by
    intro x y z
    have := abs_sub_le x z y
    rwa [abs_sub_comm z y] at this
  have h1 := h v.x w.x o.x
  have h2 := h v.y w.y o.y
  have h3 := h v.z w.z o.z
  change |v.x - o.x| + |v.y - o.y| + |v.z - o.z| ≤ a at hv
  change |w.x - o.x| + |w.y - o.y| + |w.z - o.z| ≤ b at hw
  change |v.x - w.x| + |v.y - w.y| + |v.z - w.z| ≤ a + b
  linarith

theorem mesh_within {mesh : MeshColl (XF F)} {o : Vec3 K}
    (hsize : ∀ v ∈ mesh.vertices, ∃ V, IsV v V ∧ 2 * oneNorm (V - o) ≤ L) {i : Nat} {q : Triangle (XF F)}
    (h : mesh.toCollection.prim i = .ok q) : ∃ A B C, TriWithin o L q A B C := by
  obtain ⟨f, a, b, c, h1, h2, h3, h4, h5⟩ := MeshColl.prim_ok h
  obtain ⟨A, hA, lA⟩ := hsize a (List.mem_of_getElem? h2)
  obtain ⟨B, hB, lB⟩ := hsize b (List.mem_of_getElem? h3)
  obtain ⟨C, hC, lC⟩ := hsize c (List.mem_of_getElem? h4)
  have n0 := oneNorm_nonneg (A - o)
  refine ⟨A, B, C, ⟨a, b, c, hA, hB, hC, ?_⟩, ?_, ?_, by linarith⟩
  · rw [h5]; rfl
  · exact (oneNorm_diff (o := o) (a := L / 2) (b := L / 2) (by linarith) (by linarith)).trans_eq (by ring)
  · exact (oneNorm_diff (o := o) (a := L / 2) (b := L / 2) (by linarith) (by linarith)).trans_eq (by ring)

/-- the sides on which a ray passes the edges, from where it meets the plane of the triangle -/
theorem sides_of_bary {A B C o p : Vec3 K} {τ β γ : K} (h : along o p τ = bary A B C β γ) :
    edgeSide o p A C = β * Vec3.dot (normalOf A B C) p ∧ edgeSide o p B A = γ * Vec3.dot (normalOf A B C) p ∧
    edgeSide o p C B = (1 - β - γ) * Vec3.dot (normalOf A B C) p ∧
    Vec3.dot (normalOf A B C) (A - o) = τ * Vec3.dot (normalOf A B C) p := by
  have hx := congrArg Vec3.x h
  have hy := congrArg Vec3.y h
  have hz := congrArg Vec3.z h
  change o.x + τ * p.x = (1 - β - γ) * A.x + β * B.x + γ * C.x at hx
  change o.y + τ * p.y = (1 - β - γ) * A.y + β * B.y + γ * C.y at hy
  change o.z + τ * p.z = (1 - β - γ) * A.z + β * B.z + γ * C.z at hz
  have hx' : o.x = (1 - β - γ) * A.x + β * B.x + γ * C.x - τ * p.x := by linarith
  have hy' : o.y = (1 - β - γ) * A.y + β * B.y + γ * C.y - τ * p.y := by linarith
  have hz' : o.z = (1 - β - γ) * A.z + β * B.z + γ * C.z - τ * p.z := by linarith
  simp only [edgeSide, normalOf, Vec3.dot, Vec3.cross, Vec3.sub_x, Vec3.sub_y, Vec3.sub_z, hx', hy', hz']
  refine ⟨?_, ?_, ?_, ?_⟩ <;> ring

end

/-! ### `double` and `float` -/

namespace Format

theorem le_roundEven {q : ℚ} {n : ℤ} (h : (n : ℚ) ≤ q) : n ≤ roundEven q := by
  have h1 := (abs_le.1 (roundEven_spec q)).1
  by_contra hc
  have h2 : roundEven q ≤ n - 1 := by omega
  have h3 : ((roundEven q : ℤ) : ℚ) ≤ n - 1 := by exact_mod_cast h2
  linarith

theorem roundBinary_saturates (p : Nat) (hp : 1 ≤ p) (emin emax : Int) (hem : emin + ((p : Int) - 1) ≤ emax) (q : ℚ)
    (h : (pow2 p - 1) * pow2 (emax - ((p : Int) - 1)) < q) :
    roundBinary p emin ((pow2 p - 1) * pow2 (emax - ((p : Int) - 1))) q = none ∨
      ∃ r, roundBinary p emin ((pow2 p - 1) * pow2 (emax - ((p : Int) - 1))) q = some r ∧
        (pow2 p - 1) * pow2 (emax - ((p : Int) - 1)) ≤ r := by
  have hP2 : (2 : ℚ) ≤ pow2 p := by
    rw [pow2_nat]
    calc (2 : ℚ) = 2 ^ 1 := by norm_num
      _ ≤ 2 ^ p := pow_le_pow_right₀ (by norm_num) hp
  have hM : pow2 emax ≤ (pow2 p - 1) * pow2 (emax - ((p : Int) - 1)) := by
    have h1 : pow2 emax = pow2 ((p : Int) - 1) * pow2 (emax - ((p : Int) - 1)) := by
      rw [← pow2_add]; congr 1; omega
    have h2 : pow2 ((p : Int) - 1) = pow2 p / 2 := by
      rw [sub_eq_add_neg, pow2_add, show pow2 (-1) = 1 / 2 by decide +kernel]; ring
    rw [h1, h2]
    exact mul_le_mul_of_nonneg_right (by linarith) (pow2_pos _).le
  have hq : 0 < q := lt_of_le_of_lt ((pow2_pos _).le.trans hM) h
  unfold roundBinary
  rw [if_neg hq.ne', if_neg (not_lt.2 hq.le)]
  simp only
  obtain ⟨l1, l2⟩ := ilog2_spec hq
  have hlog : emax ≤ ilog2 q := by
    by_contra hc
    have : pow2 (ilog2 q + 1) ≤ pow2 emax := pow2_le.2 (by omega)
    linarith
  have he : max (ilog2 q - ((p : Int) - 1)) emin = ilog2 q - ((p : Int) - 1) := by omega
  rw [he]
  set e := ilog2 q - ((p : Int) - 1) with he'
  have hpe := pow2_pos e
  have hv : (pow2 p - 1) * pow2 (emax - ((p : Int) - 1)) ≤ (roundEven (q / pow2 e) : ℚ) * pow2 e := by
    rcases eq_or_lt_of_le hlog with h1 | h1
    · have h2 : e = emax - ((p : Int) - 1) := by omega
      rw [← h2] at h ⊢
      refine mul_le_mul_of_nonneg_right ?_ hpe.le
      have h3 : (((2 ^ p - 1 : ℤ)) : ℚ) ≤ q / pow2 e := by
        rw [le_div_iff₀ hpe]
        push_cast
        rw [← pow2_nat]; exact h.le
      have h4 : (((2 ^ p - 1 : ℤ)) : ℚ) ≤ (roundEven (q / pow2 e) : ℚ) := by exact_mod_cast le_roundEven h3
      push_cast at h4
      rw [pow2_nat]; exact h4
    · have h3 : (((2 ^ (p - 1) : ℤ)) : ℚ) ≤ q / pow2 e := by
        rw [le_div_iff₀ hpe]
        push_cast
        rw [← pow2_nat, ← pow2_add]
        refine le_trans (pow2_le.2 ?_) l1
        push_cast [Nat.cast_sub hp]; omega
      have h4 : (((2 ^ (p - 1) : ℤ)) : ℚ) ≤ (roundEven (q / pow2 e) : ℚ) := by exact_mod_cast le_roundEven h3
      push_cast at h4
      have h5 := mul_le_mul_of_nonneg_right h4 hpe.le
      refine le_trans ?_ h5
      rw [← pow2_nat, ← pow2_add]
      have h6 : pow2 (emax + 1) = pow2 p * pow2 (emax - ((p : Int) - 1)) := by
        rw [← pow2_add]; congr 1; omega
      have h7 : pow2 (emax + 1) ≤ pow2 (((p - 1 : Nat) : Int) + e) := pow2_le.2 (by push_cast [Nat.cast_sub hp]; omega)
      have h8 := pow2_pos (emax - ((p : Int) - 1))
      rw [h6] at h7
      linarith
  by_cases hov : (pow2 p - 1) * pow2 (emax - ((p : Int) - 1)) < (roundEven (q / pow2 e) : ℚ) * pow2 e
  · exact .inl (if_pos hov)
  · refine .inr ⟨_, if_neg hov, ?_⟩
    rw [if_neg (not_lt.2 hq.le)]
    exact hv

theorem roundBinary_odd (p : Nat) (emin : Int) (mx q : ℚ) :
    roundBinary p emin mx (-q) = (roundBinary p emin mx q).map (- ·) := by
  unfold roundBinary
  by_cases h0 : q = 0
  · subst h0; simp
  · have h0' : -q ≠ 0 := neg_ne_zero.2 h0
    rw [if_neg h0, if_neg h0']
    rcases lt_or_gt_of_ne h0 with h | h
    · have h1 : ¬ (-q < 0) := by linarith
      simp only [if_pos h, if_neg h1]
      split_ifs <;> simp
    · have h1 : -q < 0 := by linarith
      have h2 : ¬ (q < 0) := by linarith
      simp only [if_pos h1, if_neg h2, neg_neg]
      split_ifs <;> simp

theorem binary64_odd : binary64.Odd := by
  intro r
  rw [binary64]
  exact roundBinary_odd _ _ _ r

theorem binary32_odd : binary32.Odd := by
  intro r
  rw [binary32]
  exact roundBinary_odd _ _ _ r

theorem binary64_saturates : binary64.Saturates binary64.maxVal := by
  intro r h
  rw [binary64] at *
  exact roundBinary_saturates 53 (by norm_num) (-1074) 1023 (by norm_num) r h

theorem binary32_saturates : binary32.Saturates binary32.maxVal := by
  intro r h
  rw [binary32] at *
  exact roundBinary_saturates 24 (by norm_num) (-149) 127 (by norm_num) r h

end Format
end Blazert
