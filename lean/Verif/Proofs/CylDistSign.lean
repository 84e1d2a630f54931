/- The distance to a cylinder is not negative, in any format. -/
import Verif.Proofs.CylDistRound
import Verif.Proofs.CylinderDist
import Verif.Proofs.Monotone
import Verif.Spec.EmbreeCylRound

set_option autoImplicit false
set_option linter.unusedSectionVars false

namespace Blazert
open Scalar

section
variable {K : Type} [Field K] [LinearOrder K] [IsStrictOrderedRing K] [FloorRing K] {F : Fmt K}

/-- a number that is not negative, or infinity -/
def NoSign (x : XF F) : Prop := (∃ v s, x = .fin v s ∧ 0 ≤ v) ∨ x = .inf false

theorem NoSign.mk (hm : F.Monotone) (hz : F.post 0 = some 0) (s : Bool) {r : K} (hr : 0 ≤ r) : NoSign (XF.mk F s r) := by
  unfold XF.mk
  cases h : F.post r with
  | none => exact .inr (by simp [not_lt.2 hr])
  | some r' => exact .inl ⟨r', _, rfl, hm _ _ _ _ hr hz h⟩

theorem XF.mk_ne_nan (s : Bool) (r : K) : XF.mk F s r ≠ XF.nan := by
  unfold XF.mk
  cases F.post r <;> simp

theorem NoSign.div (hm : F.Monotone) (hz : F.post 0 = some 0) {x y : XF F} {a b : K} (hx : x.Is a) (hy : y.Is b) (ha : 0 ≤ a)
    (hb : 0 < b) : NoSign (x / y) := by
  obtain ⟨s, rfl⟩ := hx
  obtain ⟨t, rfl⟩ := hy
  show NoSign (XF.div _ _)
  unfold XF.div
  simp only
  rw [if_neg hb.ne']
  exact .mk hm hz _ (div_nonneg ha hb.le)

theorem NoSign.add (hm : F.Monotone) (hz : F.post 0 = some 0) {x y : XF F} (hx : NoSign x) (hy : NoSign y) : NoSign (x + y) := by
  rcases hx with ⟨a, s, rfl, ha⟩ | rfl <;> rcases hy with ⟨b, t, rfl, hb⟩ | rfl
  · exact NoSign.mk hm hz _ (add_nonneg ha hb)
  · exact .inr rfl
  · exact .inr rfl
  · exact .inr rfl

theorem NoSign.sub_ne_nan {x y : XF F} {b : K} (hx : NoSign x) (hy : y.Is b) : x - y ≠ XF.nan := by
  obtain ⟨t, rfl⟩ := hy
  rcases hx with ⟨a, s, rfl, ha⟩ | rfl
  · exact XF.mk_ne_nan _ _
  · intro h; cases h

theorem XF.abs_notneg (x : XF F) (hz : F.post 0 = some 0) : Scalar.lt (Scalar.abs x) (nat 0) = false := by
  obtain ⟨s, h0⟩ : (nat 0 : XF F).Is 0 := rnd_const (by simp) hz
  rw [h0]
  cases x with
  | fin v s => exact decide_eq_false (not_lt.2 (abs_nonneg v))
  | inf s => rfl
  | nan => rfl

theorem XF.root_notneg (hm : F.Monotone) (hz : F.post 0 = some 0) (hs : ∀ v, 0 < v → 0 ≤ F.sqrt v) (x : XF F) :
    Scalar.lt (Scalar.sqrt x) (nat 0) = false := by
  obtain ⟨s, h0⟩ : (nat 0 : XF F).Is 0 := rnd_const (by simp) hz
  rw [h0]
  cases x with
  | fin v t =>
    show XF.lt (XF.sqrt _) _ = false
    unfold XF.sqrt
    simp only
    split
    · rename_i h
      rw [h]
      exact decide_eq_false (_root_.lt_irrefl _)
    · rename_i h
      split
      · rfl
      · rename_i h'
        rcases NoSign.mk hm hz false (hs v (lt_of_le_of_ne (not_lt.1 h') (Ne.symm h))) with ⟨w, r, e, hw⟩ | e
        · rw [e]; exact decide_eq_false (not_lt.2 hw)
        · rw [e]; rfl
  | inf t => cases t <;> rfl
  | nan => rfl

theorem minDistEllipse_notneg (hm : F.Monotone) (hz : F.post 0 = some 0) (hs : ∀ v, 0 < v → 0 ≤ F.sqrt v) (tol xa xb xq yq : XF F) :
    Scalar.lt (minDistEllipse tol xa xb xq yq).2 (nat 0) = false := by
  unfold minDistEllipse
  simp only
  split_ifs <;> exact XF.root_notneg hm hz hs _

theorem not_nan_cases {x : XF F} (h : x ≠ XF.nan) (hz : F.post 0 = some 0) (heps : 0 < F.eps) (h1 : ¬ lt (abs x) eps = true)
    (h2 : ¬ lt x (nat 0) = true) : gt x (nat 0) = true := by
  obtain ⟨s, h0⟩ : (nat 0 : XF F).Is 0 := rnd_const (by simp) hz
  rw [h0] at h2 ⊢
  cases x with
  | fin v t =>
    have h2 : ¬ v < 0 := fun k => h2 (decide_eq_true k)
    have h1 : ¬ |v| < F.eps := fun k => h1 (decide_eq_true k)
    refine decide_eq_true (lt_of_le_of_ne (not_lt.1 h2) fun e => h1 ?_)
    rw [← e, abs_zero]
    exact heps
  | inf t =>
    cases t
    · rfl
    · exact absurd rfl h2
  | nan => exact absurd rfl h

/-- the result is negative only if the equation of the ellipse is NaN -/
theorem cylDistance_notneg (hm : F.Monotone) (hz : F.post 0 = some 0) (hs : ∀ v, 0 < v → 0 ≤ F.sqrt v) (heps : 0 < F.eps)
    (isZ : XF F → XF F → Bool) (tol : XF F) (cy : Cylinder (XF F)) (point : Vec3 (XF F))
    (ha : Scalar.lt cy.a (nat 0) = false) (hb : Scalar.lt cy.b (nat 0) = false)
    (hel : ellipseEquation cy.a cy.b (cy.rotation.trans.mulVec (point - cy.center)).x
      (cy.rotation.trans.mulVec (point - cy.center)).y ≠ XF.nan) :
    Scalar.lt (cylDistance isZ tol cy point) (nat 0) = false := by
  have nT := XF.abs_notneg ((cy.rotation.trans.mulVec (point - cy.center)).z - cy.height / nat 2) hz
  have nB := XF.abs_notneg ((cy.rotation.trans.mulVec (point - cy.center)).z + cy.height / nat 2) hz
  have nE := minDistEllipse_notneg hm hz hs tol cy.a cy.b (cy.rotation.trans.mulVec (point - cy.center)).x
    (cy.rotation.trans.mulVec (point - cy.center)).y
  unfold cylDistance
  simp only
  split
  · split
    · exact minOf_not_neg (by simp [nT, nB])
    · exact minOf_not_neg (by simp [nT, nB, ha, hb])
  · split
    · split
      · unfold Scalar.min; split <;> assumption
      · obtain ⟨s, h0⟩ : (nat 0 : XF F).Is 0 := rnd_const (by simp) hz
        rw [h0]
        exact decide_eq_false (_root_.lt_irrefl _)
    · rename_i k0
      split
      · split
        · exact nT
        · split
          · exact nB
          · exact minOf_not_neg (by simp [nT, nB, nE])
      · rename_i k1
        rw [if_pos (not_nan_cases hel hz heps k0 k1)]
        split
        · exact nE
        · exact minOf_not_neg (by simp [XF.root_notneg hm hz hs])

variable {u η hi L ε r : K}

/-- the sum of the squares in the equation of the ellipse has no sign, for numbers of moderate size -/
theorem ell_sum_nosign (hF : F.Rounds u η hi) (hm : F.Monotone) (hs : Scale u η hi L) (hr : Scale u η hi r) {x' y' a' b' : XF F}
    {X Y a b : K} (hx' : x'.Is X) (hy' : y'.Is Y) (ha' : a'.Is a) (hb' : b'.Is b) (hX : |X| ≤ 101 / 100 * L) (hY : |Y| ≤ 101 / 100 * L)
    (hra : r ≤ a) (haL : a ≤ L) (hrb : r ≤ b) (hbL : b ≤ L) : NoSign (x' * x' / (a' * a') + y' * y' / (b' * b')) := by
  have u0 := hs.u_pos
  have term : ∀ {z w : XF F} {Z W : K}, z.Is Z → w.Is W → |Z| ≤ 101 / 100 * L → r ≤ W → W ≤ L → NoSign (z * z / (w * w)) := by
    intro z w Z W hz hw hZ hrW hWL
    have hhi := hs.sq_le
    have L2 := pow_two_nonneg L
    have r0 := hr.pos
    have W0 : 0 < W := r0.trans_le hrW
    have hW2 : W ^ 2 ≤ L ^ 2 := pow_le_pow_left₀ W0.le hWL 2
    have hZ2 := abs_mul_le hZ hZ
    have e : 101 / 100 * L * (101 / 100 * L) = 10201 / 10000 * L ^ 2 := by ring
    rw [e] at hZ2
    obtain ⟨P, p1, -, p3⟩ := rnd_mul hF.toGradual u0.le hz hz hZ2 (by linarith)
    obtain ⟨A, q1, q2, -⟩ := rnd_mul hF.toGradual u0.le hw hw (A := W ^ 2) (by rw [abs_mul_self, pow_two]) (by linarith)
    have h1 := (abs_le.1 q2).1
    have h2 := hr.η_le_sq
    have h3 : r ^ 2 ≤ W ^ 2 := pow_le_pow_left₀ r0.le hrW 2
    have h4 : u ^ 2 * r ^ 2 ≤ u ^ 2 * W ^ 2 := mul_le_mul_of_nonneg_left h3 (pow_two_nonneg u)
    have u1 := hs.sizes.u1
    have W2 : 0 < W ^ 2 := by positivity
    have h5 : u * W ^ 2 ≤ 1 / 2 ^ 20 * W ^ 2 := mul_le_mul_of_nonneg_right u1 W2.le
    have h6 : u ^ 2 * W ^ 2 ≤ 1 * (u * W ^ 2) := by
      rw [show u ^ 2 * W ^ 2 = u * (u * W ^ 2) by ring]
      exact mul_le_mul_of_nonneg_right (by linarith) (mul_nonneg u0.le W2.le)
    have h7 : W * W = W ^ 2 := (pow_two W).symm
    exact .div hm hF.zero p1 q1 (p3 (mul_self_nonneg Z)) (by linarith)
  exact (term hx' ha' hX hra haL).add hm hF.zero (term hy' hb' hY hrb hbL)

/-- the equation of the ellipse is not NaN, for numbers of moderate size -/
theorem ell_not_nan (hF : F.Rounds u η hi) (hm : F.Monotone) (hs : Scale u η hi L) (hr : Scale u η hi r) {x' y' a' b' : XF F}
    {X Y a b : K} (hx' : x'.Is X) (hy' : y'.Is Y) (ha' : a'.Is a) (hb' : b'.Is b) (hX : |X| ≤ 101 / 100 * L) (hY : |Y| ≤ 101 / 100 * L)
    (hra : r ≤ a) (haL : a ≤ L) (hrb : r ≤ b) (hbL : b ≤ L) : ellipseEquation a' b' x' y' ≠ XF.nan :=
  (ell_sum_nosign hF hm hs hr hx' hy' ha' hb' hX hY hra haL hrb hbL).sub_ne_nan hF.nat1

/-- the coordinates of a point in the system of a cylinder are finite -/
theorem coords_finite (hF : F.Rounds u η hi) (hs : Scale u η hi L) {pt cen : Vec3 (XF F)} {rot : Mat3 (XF F)}
    {p c : Vec3 K} {R : Mat3 K} (hp : IsV pt p) (hc : IsV cen c) (hR : IsM rot R)
    (hortho : NearOrtho ε R) (hε : ε ≤ 1 / 1000) (hL : |p.x - c.x| + |p.y - c.y| + |p.z - c.z| ≤ L) :
    ∃ q, IsV (rot.trans.mulVec (pt - cen)) q ∧ |q.x| ≤ 101 / 100 * L ∧ |q.y| ≤ 101 / 100 * L := by
  have hRt := hR.transpose
  obtain ⟨w, w1, w2⟩ := rnd_subv hF hs hp hc hL
  obtain ⟨x, x1, -, -, x4⟩ := local_org hF hs hRt.1 w1 hortho.cols.aa hε w2
  obtain ⟨y, y1, -, -, y4⟩ := local_org hF hs hRt.2.1 w1 hortho.cols.bb hε w2
  obtain ⟨z, z1, -⟩ := local_org hF hs hRt.2.2 w1 hortho.cols.cc hε w2
  exact ⟨⟨x, y, z⟩, ⟨x1, y1, z1⟩, x4, y4⟩

end

namespace Format

theorem sqrtSticky_nonneg (p : Nat) (q : ℚ) : 0 ≤ sqrtSticky p q := by
  unfold sqrtSticky
  simp only
  split
  · exact mul_nonneg (Nat.cast_nonneg _) (pow2_pos _).le
  · exact mul_nonneg (by positivity) (pow2_pos _).le

theorem binary64_sqrt_nonneg (v : ℚ) : 0 ≤ binary64.sqrt v := by unfold binary64; exact sqrtSticky_nonneg _ v

theorem binary32_sqrt_nonneg (v : ℚ) : 0 ≤ binary32.sqrt v := by unfold binary32; exact sqrtSticky_nonneg _ v

end Format
end Blazert
