/- Computing with values that stand for real numbers, in exact arithmetic. -/
import Verif.Spec.Geometry
import Verif.Model.Datatypes
import Verif.Proofs.Basic
import Mathlib.Tactic.Ring
import Mathlib.Tactic.Linarith
import Mathlib.Tactic.FieldSimp
import Mathlib.Tactic.NormNum
import Mathlib.Tactic.Push
import Mathlib.Tactic.Positivity

set_option autoImplicit false
set_option linter.unusedSectionVars false

namespace Blazert
open Scalar

section
variable {K : Type} [Field K] [LinearOrder K] [FloorRing K] {F : Fmt K}

namespace XF

theorem Is.unique {x : XF F} {a b : K} (h : x.Is a) (h' : x.Is b) : a = b := by
  obtain ⟨s, rfl⟩ := h
  obtain ⟨t, h'⟩ := h'
  injection h'

theorem Is.neg {x : XF F} {a : K} (h : x.Is a) : (-x).Is (-a) := by
  obtain ⟨s, rfl⟩ := h; exact ⟨!s, rfl⟩

theorem Is.abs {x : XF F} {a : K} (h : x.Is a) : (Scalar.abs x).Is |a| := by
  obtain ⟨s, rfl⟩ := h; exact ⟨false, rfl⟩

theorem Is.lt {x y : XF F} {a b : K} (h : x.Is a) (h' : y.Is b) : Scalar.lt x y = true ↔ a < b := by
  obtain ⟨s, rfl⟩ := h
  obtain ⟨t, rfl⟩ := h'
  exact decide_eq_true_iff

theorem Is.le {x y : XF F} {a b : K} (h : x.Is a) (h' : y.Is b) : Scalar.le x y = true ↔ a ≤ b := by
  obtain ⟨s, rfl⟩ := h
  obtain ⟨t, rfl⟩ := h'
  exact decide_eq_true_iff

theorem Is.gt {x y : XF F} {a b : K} (h : x.Is a) (h' : y.Is b) : Scalar.gt x y = true ↔ b < a := Is.lt h' h
theorem Is.ge {x y : XF F} {a b : K} (h : x.Is a) (h' : y.Is b) : Scalar.ge x y = true ↔ b ≤ a := Is.le h' h

theorem Is.eq {x y : XF F} {a b : K} (h : x.Is a) (h' : y.Is b) : Scalar.eq x y = true ↔ a = b := by
  obtain ⟨s, rfl⟩ := h
  obtain ⟨t, rfl⟩ := h'
  exact decide_eq_true_iff

theorem Is.min {x y : XF F} {a b : K} (h : x.Is a) (h' : y.Is b) : (Scalar.min x y).Is (Min.min a b) := by
  unfold Scalar.min
  by_cases hc : Scalar.lt y x = true
  · rw [if_pos hc, min_eq_right ((Is.lt h' h).1 hc).le]; exact h'
  · rw [if_neg hc, min_eq_left (not_lt.1 fun hh => hc ((Is.lt h' h).2 hh))]; exact h

theorem Is.max {x y : XF F} {a b : K} (h : x.Is a) (h' : y.Is b) : (Scalar.max x y).Is (Max.max a b) := by
  unfold Scalar.max
  by_cases hc : Scalar.lt x y = true
  · rw [if_pos hc, max_eq_right ((Is.lt h h').1 hc).le]; exact h'
  · rw [if_neg hc, max_eq_left (not_lt.1 fun hh => hc ((Is.lt h h').2 hh))]; exact h

theorem Is.signbit {x : XF F} {a : K} (h : x.Is a) (ha : a ≠ 0) : Scalar.signbit x = decide (a < 0) := by
  obtain ⟨s, rfl⟩ := h
  show XF.sgn a s = _
  simp [XF.sgn, ha]

theorem Is.productSign {x y : XF F} {a b : K} (h : x.Is a) (h' : y.Is b) (hb : b ≠ 0) :
    (productSign x y).Is (if b < 0 then -a else a) := by
  unfold Blazert.productSign
  rw [Is.signbit h' hb]
  by_cases hn : b < 0
  · simp only [hn, decide_true, if_true]; exact h.neg
  · simp only [hn, decide_false, Bool.false_eq_true, if_false]; exact h

theorem lt_irrefl (x : XF F) : Scalar.lt x x = false := by
  cases x with
  | fin v s => show decide (v < v) = false; simp
  | inf s => show (s && !s) = false; cases s <;> rfl
  | nan => rfl

theorem lt_trans (x y z : XF F) (h : Scalar.lt x y = true) (h' : Scalar.lt y z = true) : Scalar.lt x z = true := by
  change XF.lt x y = true at h
  change XF.lt y z = true at h'
  change XF.lt x z = true
  cases x <;> cases y <;> cases z <;> simp_all [XF.lt]
  rename_i h1 _ h2 _ h3 _
  exact h.trans h'

theorem Above.lt {x y : XF F} {t : K} (h : x.Is t) (h' : y.Above t) : Scalar.lt x y = true := by
  rcases h' with rfl | ⟨a, ha, hlt⟩
  · obtain ⟨s, rfl⟩ := h; rfl
  · exact (Is.lt h ha).2 hlt

theorem Is.lt_iff {x y : XF F} {t : K} (h : x.Is t) : Scalar.lt x y = true ↔ y.Above t := by
  refine ⟨fun hh => ?_, fun hh => hh.lt h⟩
  obtain ⟨s, rfl⟩ := h
  cases y with
  | fin v s' => exact .inr ⟨v, ⟨s', rfl⟩, decide_eq_true_iff.1 hh⟩
  | inf s' =>
    cases s' with
    | false => exact .inl rfl
    | true => change (!true) = true at hh; simp at hh
  | nan => change false = true at hh; simp at hh

theorem Is.maxVal : (Scalar.maxVal : XF F).Is F.maxVal := ⟨_, rfl⟩
theorem Is.eps : (Scalar.eps : XF F).Is F.eps := ⟨_, rfl⟩
theorem Is.tiny : (Scalar.tiny : XF F).Is F.tiny := ⟨_, rfl⟩

end XF

theorem IsV.unique {v : Vec3 (XF F)} {a b : Vec3 K} (h : IsV v a) (h' : IsV v b) : a = b :=
  Vec3.ext (h.1.unique h'.1) (h.2.1.unique h'.2.1) (h.2.2.unique h'.2.2)

theorem IsV.get {v : Vec3 (XF F)} {a : Vec3 K} (h : IsV v a) (i : Fin 3) : (v.get i).Is (a.get i) := by
  match i with
  | 0 => exact h.1
  | 1 => exact h.2.1
  | 2 => exact h.2.2

theorem IsV.ofFn {f : Fin 3 → XF F} {g : Fin 3 → K} (h : ∀ i, (f i).Is (g i)) : IsV (Vec3.ofFn f) (Vec3.ofFn g) :=
  ⟨h 0, h 1, h 2⟩

end

variable {F : Fmt ℝ}

namespace XF

theorem Is.mk' (hF : F.Exact) (s : Bool) (r : ℝ) : (XF.mk F s r).Is r := by
  unfold XF.mk; rw [hF.post]; exact ⟨_, rfl⟩

theorem Is.add (hF : F.Exact) {x y : XF F} {a b : ℝ} (h : x.Is a) (h' : y.Is b) : (x + y).Is (a + b) := by
  obtain ⟨s, rfl⟩ := h
  obtain ⟨t, rfl⟩ := h'
  exact Is.mk' hF _ _

theorem Is.sub (hF : F.Exact) {x y : XF F} {a b : ℝ} (h : x.Is a) (h' : y.Is b) : (x - y).Is (a - b) := by
  rw [sub_eq_add_neg]
  exact Is.add hF h h'.neg

theorem Is.mul (hF : F.Exact) {x y : XF F} {a b : ℝ} (h : x.Is a) (h' : y.Is b) : (x * y).Is (a * b) := by
  obtain ⟨s, rfl⟩ := h
  obtain ⟨t, rfl⟩ := h'
  exact Is.mk' hF _ _

theorem Is.div (hF : F.Exact) {x y : XF F} {a b : ℝ} (h : x.Is a) (h' : y.Is b) (hb : b ≠ 0) : (x / y).Is (a / b) := by
  obtain ⟨s, rfl⟩ := h
  obtain ⟨t, rfl⟩ := h'
  show (XF.div (.fin a s) (.fin b t)).Is _
  simp only [XF.div, if_neg hb]
  exact Is.mk' hF _ _

theorem Is.ofRat (hF : F.Exact) (q : ℚ) : (Scalar.ofRat q : XF F).Is (q : ℝ) := Is.mk' hF _ _

theorem Is.nat (hF : F.Exact) (n : ℕ) : (Scalar.nat n : XF F).Is (n : ℝ) := by
  have h := Is.ofRat hF (n : ℚ)
  rw [Rat.cast_natCast] at h
  exact h

theorem Is.zero (hF : F.Exact) : (Scalar.nat 0 : XF F).Is 0 := by simpa using Is.nat hF 0
theorem Is.one (hF : F.Exact) : (Scalar.nat 1 : XF F).Is 1 := by simpa using Is.nat hF 1

theorem Is.sqrt (hF : F.Exact) {x : XF F} {a : ℝ} (h : x.Is a) (ha : 0 ≤ a) : (Scalar.sqrt x).Is (Real.sqrt a) := by
  obtain ⟨s, rfl⟩ := h
  show (XF.sqrt (.fin a s)).Is _
  unfold XF.sqrt
  by_cases h0 : a = 0
  · subst h0; simp only [if_true, Real.sqrt_zero]; exact ⟨s, rfl⟩
  · simp only [if_neg h0, if_neg (not_lt.2 ha)]
    rw [hF.sqrt a ha]
    exact Is.mk' hF _ _

end XF

/-! ### vectors -/

theorem IsV.add (hF : F.Exact) {v w : Vec3 (XF F)} {a b : Vec3 ℝ} (h : IsV v a) (h' : IsV w b) : IsV (v + w) (a + b) :=
  ⟨h.1.add hF h'.1, h.2.1.add hF h'.2.1, h.2.2.add hF h'.2.2⟩

theorem IsV.sub (hF : F.Exact) {v w : Vec3 (XF F)} {a b : Vec3 ℝ} (h : IsV v a) (h' : IsV w b) : IsV (v - w) (a - b) :=
  ⟨h.1.sub hF h'.1, h.2.1.sub hF h'.2.1, h.2.2.sub hF h'.2.2⟩

theorem IsV.smul (hF : F.Exact) {s : XF F} {v : Vec3 (XF F)} {c : ℝ} {a : Vec3 ℝ} (h : s.Is c) (h' : IsV v a) :
    IsV (Vec3.smul s v) (Vec3.smul c a) :=
  ⟨h.mul hF h'.1, h.mul hF h'.2.1, h.mul hF h'.2.2⟩

theorem IsV.muls (hF : F.Exact) {s : XF F} {v : Vec3 (XF F)} {c : ℝ} {a : Vec3 ℝ} (h : s.Is c) (h' : IsV v a) :
    IsV (Vec3.muls v s) (Vec3.muls a c) :=
  ⟨h'.1.mul hF h, h'.2.1.mul hF h, h'.2.2.mul hF h⟩

theorem IsV.divs (hF : F.Exact) {s : XF F} {v : Vec3 (XF F)} {c : ℝ} {a : Vec3 ℝ} (h : s.Is c) (hc : c ≠ 0)
    (h' : IsV v a) : IsV (Vec3.divs v s) (Vec3.divs a c) :=
  ⟨h'.1.div hF h hc, h'.2.1.div hF h hc, h'.2.2.div hF h hc⟩

theorem IsV.dot (hF : F.Exact) {v w : Vec3 (XF F)} {a b : Vec3 ℝ} (h : IsV v a) (h' : IsV w b) :
    (Vec3.dot v w).Is (Vec3.dot a b) :=
  ((h.1.mul hF h'.1).add hF (h.2.1.mul hF h'.2.1)).add hF (h.2.2.mul hF h'.2.2)

theorem IsV.cross (hF : F.Exact) {v w : Vec3 (XF F)} {a b : Vec3 ℝ} (h : IsV v a) (h' : IsV w b) :
    IsV (Vec3.cross v w) (Vec3.cross a b) :=
  ⟨(h.2.1.mul hF h'.2.2).sub hF (h.2.2.mul hF h'.2.1), (h.2.2.mul hF h'.1).sub hF (h.1.mul hF h'.2.2),
    (h.1.mul hF h'.2.1).sub hF (h.2.1.mul hF h'.1)⟩

theorem sq_nonneg' (v : Vec3 ℝ) : 0 ≤ sq v := by
  unfold sq Vec3.dot; nlinarith [mul_self_nonneg v.x, mul_self_nonneg v.y, mul_self_nonneg v.z]

theorem sq_eq_zero {v : Vec3 ℝ} : sq v = 0 ↔ v = ⟨0, 0, 0⟩ := by
  constructor
  · intro h
    unfold sq Vec3.dot at h
    have hx := mul_self_nonneg v.x; have hy := mul_self_nonneg v.y; have hz := mul_self_nonneg v.z
    ext <;> simp only
    · exact mul_self_eq_zero.1 (by linarith)
    · exact mul_self_eq_zero.1 (by linarith)
    · exact mul_self_eq_zero.1 (by linarith)
  · rintro rfl; simp [sq, Vec3.dot]

theorem len_nonneg (v : Vec3 ℝ) : 0 ≤ len v := Real.sqrt_nonneg _
theorem len_sq (v : Vec3 ℝ) : len v * len v = sq v := Real.mul_self_sqrt (sq_nonneg' v)
theorem len_pos {v : Vec3 ℝ} (h : v ≠ ⟨0, 0, 0⟩) : 0 < len v :=
  Real.sqrt_pos.2 (lt_of_le_of_ne (sq_nonneg' v) fun hh => h (sq_eq_zero.1 hh.symm))

theorem IsV.norm (hF : F.Exact) {v : Vec3 (XF F)} {a : Vec3 ℝ} (h : IsV v a) : (Vec3.norm v).Is (len a) :=
  XF.Is.sqrt hF (h.dot hF h) (sq_nonneg' a)

theorem IsV.normalize (hF : F.Exact) {v : Vec3 (XF F)} {a : Vec3 ℝ} (h : IsV v a) (ha : a ≠ ⟨0, 0, 0⟩) :
    IsV (Vec3.normalize v) (Vec3.divs a (len a)) :=
  IsV.divs hF (h.norm hF) (len_pos ha).ne' h

theorem IsV.const {x : XF F} {a : ℝ} (h : x.Is a) : IsV (Vec3.const x) ⟨a, a, a⟩ := ⟨h, h, h⟩

theorem IsV.subs (hF : F.Exact) {s : XF F} {v : Vec3 (XF F)} {c : ℝ} {a : Vec3 ℝ} (h : s.Is c) (h' : IsV v a) :
    IsV (Vec3.subs v s) (Vec3.subs a c) :=
  ⟨h'.1.sub hF h, h'.2.1.sub hF h, h'.2.2.sub hF h⟩

theorem IsV.adds (hF : F.Exact) {s : XF F} {v : Vec3 (XF F)} {c : ℝ} {a : Vec3 ℝ} (h : s.Is c) (h' : IsV v a) :
    IsV (Vec3.adds v s) (Vec3.adds a c) :=
  ⟨h'.1.add hF h, h'.2.1.add hF h, h'.2.2.add hF h⟩

theorem IsM.mulVec (hF : F.Exact) {m : Mat3 (XF F)} {n : Mat3 ℝ} {v : Vec3 (XF F)} {a : Vec3 ℝ} (h : IsM m n)
    (h' : IsV v a) : IsV (m.mulVec v) (n.mulVec a) :=
  ⟨h.1.dot hF h', h.2.1.dot hF h', h.2.2.dot hF h'⟩

theorem IsM.trans {m : Mat3 (XF F)} {n : Mat3 ℝ} (h : IsM m n) : IsM m.trans n.trans :=
  ⟨⟨h.1.1, h.2.1.1, h.2.2.1⟩, ⟨h.1.2.1, h.2.1.2.1, h.2.2.2.1⟩, ⟨h.1.2.2, h.2.1.2.2, h.2.2.2.2⟩⟩

end Blazert
