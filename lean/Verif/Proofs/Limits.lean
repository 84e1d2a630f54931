/- Helper lemmas: reported distances are not negative. -/
import Verif.Spec.Limits
import Verif.Proofs.Source
import Verif.Proofs.Exact
import Verif.Proofs.Gradual
import Verif.Proofs.Contract
import Mathlib.Tactic.Positivity

set_option autoImplicit false
set_option linter.unusedSectionVars false

namespace Blazert
open Scalar

variable {K : Type} [Field K] [LinearOrder K] [IsStrictOrderedRing K] [FloorRing K] {F : Fmt K}

/-- not below zero (perhaps not a number) -/
def NotNegative (x : XF F) : Prop :=
  match x with
  | .fin v _ => 0 ≤ v
  | .inf s => s = false
  | .nan => True

theorem NotNegative.mk (hF : F.Signed) {s : Bool} {r : K} (h : 0 ≤ r) : NotNegative (XF.mk F s r) := by
  unfold XF.mk
  cases e : F.post r with
  | none => simp [NotNegative, not_lt.2 h]
  | some r' => exact hF.post r r' h e

theorem sgn_pos {v : K} (h : 0 ≤ v) (h0 : v ≠ 0) (s : Bool) : XF.sgn v s = false := by
  simp [XF.sgn, h0, not_lt.2 h]

theorem NotNegative.sqrt (hF : F.Signed) (x : XF F) : NotNegative (Scalar.sqrt x) := by
  change NotNegative (XF.sqrt x)
  cases x with
  | fin v s =>
    unfold XF.sqrt
    dsimp only
    split_ifs with h h'
    · exact h.ge
    · trivial
    · exact .mk hF (hF.sqrt v (lt_of_le_of_ne (not_lt.1 h') (Ne.symm h)))
  | inf s => cases s <;> trivial
  | nan => trivial

theorem NotNegative.norm (hF : F.Signed) (v : Vec3 (XF F)) : NotNegative (Vec3.norm v) := .sqrt hF _

theorem NotNegative.mul (hF : F.Signed) {x y : XF F} (hx : NotNegative x) (hy : NotNegative y) : NotNegative (x * y) := by
  change NotNegative (XF.mul x y)
  cases x with
  | fin a s =>
    cases y with
    | fin b t => exact .mk hF (mul_nonneg hx hy)
    | inf t =>
      unfold XF.mul
      dsimp only
      split_ifs with h
      · trivial
      · rw [sgn_pos hx h, show t = false from hy]; rfl
    | nan => trivial
  | inf s =>
    cases y with
    | fin b t =>
      unfold XF.mul
      dsimp only
      split_ifs with h
      · trivial
      · rw [sgn_pos hy h, show s = false from hx]; rfl
    | inf t =>
      rw [show s = false from hx, show t = false from hy]; rfl
    | nan => trivial
  | nan => trivial

theorem NotNegative.abs (x : XF F) : NotNegative (Scalar.abs x) := by
  cases x with
  | fin v s => exact abs_nonneg v
  | inf s => rfl
  | nan => trivial

/-- division by an absolute value, which has no negative zeros -/
theorem NotNegative.div_abs (hF : F.Signed) {x : XF F} (hx : NotNegative x) (y : XF F) : NotNegative (x / Scalar.abs y) := by
  change NotNegative (XF.div x (XF.abs y))
  cases x with
  | fin a s =>
    cases y with
    | fin b t =>
      unfold XF.abs XF.div
      dsimp only
      split_ifs with h h'
      · trivial
      · rw [sgn_pos hx h', XF.sgn, if_pos h]; rfl
      · exact .mk hF (div_nonneg hx (abs_nonneg b))
    | inf t => exact le_refl (0 : K)
    | nan => trivial
  | inf s =>
    cases y with
    | fin b t =>
      unfold XF.abs XF.div
      change (xor s (XF.sgn |b| false)) = false
      rw [show s = false from hx, XF.sgn]
      split_ifs
      · rfl
      · simp
    | inf t => trivial
    | nan => trivial
  | nan => trivial

theorem NotNegative.nat (hF : F.Signed) (n : Nat) : NotNegative (nat n : XF F) :=
  .mk hF (by exact_mod_cast Nat.zero_le n)

theorem NotNegative.of_le {x y : XF F} (hx : NotNegative x) (h : le x y = true) : NotNegative y := by
  change XF.le x y = true at h
  cases x <;> cases y <;> simp_all [XF.le, NotNegative]
  exact hx.trans h

theorem triIntersect_notNegative (hF : F.Signed) {s s' : TriI (XF F)} (hm : NotNegative s.minHit) {p : Triangle (XF F)}
    {ray : Ray (XF F)} (h : triIntersect s p ray = (s', true)) : NotNegative s'.hd := by
  unfold triIntersect at h
  dsimp only at h
  split_ifs at h with h1 h2
  · simp only [Prod.mk.injEq, and_true] at h
    rw [← h]
    simp only [Bool.and_eq_true] at h2
    exact .mul hF (.of_le (.mul hF (.abs _) hm) h2.1) (.div_abs hF (.nat hF 1) _)
  · simp at h
  · simp at h

theorem Frame.notNegative (hF : F.Signed) {s s' : PlaneI (XF F)} {id : Nat} {r : PlaneI (XF F) × Bool} (h : Frame s id r)
    (hr : r = (s', true)) : NotNegative s'.hd := by
  rcases h with rfl | ⟨n, v, rfl⟩
  · simp at hr
  · simp only [Prod.mk.injEq, and_true] at hr
    rw [← hr]; exact .norm hF v

theorem sphereIntersect_notNegative (hF : F.Signed) {s s' : SphereI (XF F)} {p : Sphere (XF F)}
    {ray : Ray (XF F)} (h : sphereIntersect s p ray = (s', true)) : NotNegative s'.hd := by
  rcases sphereIntersect_frame s p ray with e | ⟨v, e⟩
  · rw [e] at h; simp at h
  · rw [e] at h
    simp only [Prod.mk.injEq, and_true] at h
    rw [← h]; exact .norm hF v

theorem XF.lawfulLt (F : Fmt K) : LawfulLt (XF F) := by
  refine ⟨XF.irreflLt F, fun x y z h1 h2 => ?_⟩
  change XF.lt x y = true at h1
  change XF.lt y z = true at h2
  change XF.lt x z = true
  cases x <;> cases y <;> cases z <;> simp_all [XF.lt]
  exact h1.trans h2

/-- a distance that is not negative and below another is a number -/
theorem NotNegative.finite {x y : XF F} (hx : NotNegative x) (h : lt x y = true) : ∃ v, x.Is v ∧ 0 ≤ v := by
  change XF.lt x y = true at h
  cases x with
  | fin v s => exact ⟨v, ⟨s, rfl⟩, hx⟩
  | inf s =>
    rw [show s = false from hx] at h
    cases y <;> simp [XF.lt] at h
  | nan => cases y <;> simp [XF.lt] at h

namespace Format

theorem sqrtSticky_nonneg (p : Nat) (q : ℚ) : 0 ≤ sqrtSticky p q := by
  unfold sqrtSticky
  dsimp only
  split_ifs
  · exact mul_nonneg (Nat.cast_nonneg _) (pow2_pos _).le
  · exact mul_nonneg (by positivity) (pow2_pos _).le

theorem binary_signed (p : Nat) (emin emax : Int) : (binary p emin emax).Signed :=
  ⟨fun r r' hr h => roundBinary_nonneg _ _ _ _ _ h hr, fun v _ => sqrtSticky_nonneg p v⟩

theorem binary64_signed : binary64.Signed := by rw [binary64]; exact binary_signed _ _ _
theorem binary32_signed : binary32.Signed := by rw [binary32]; exact binary_signed _ _ _

end Format

end Blazert
