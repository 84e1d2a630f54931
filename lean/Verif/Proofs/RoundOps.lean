/- The operations of a rounding format with error bounds. -/
import Verif.Proofs.Gradual
import Verif.Spec.Geometry

set_option autoImplicit false
set_option linter.unusedSectionVars false

namespace Blazert
open Scalar

variable {K : Type} [Field K] [LinearOrder K] [IsStrictOrderedRing K] [FloorRing K] {F : Fmt K} {u η hi L : K}

theorem abs_mul_le {a b A B : K} (ha : |a| ≤ A) (hb : |b| ≤ B) : |a * b| ≤ A * B := by
  rw [abs_mul]
  exact mul_le_mul ha hb (abs_nonneg _) ((abs_nonneg _).trans ha)

theorem abs_add_le' {a b A B : K} (ha : |a| ≤ A) (hb : |b| ≤ B) : |a + b| ≤ A + B :=
  (abs_add_le a b).trans (add_le_add ha hb)

theorem abs_sub_le' {a b A B : K} (ha : |a| ≤ A) (hb : |b| ≤ B) : |a - b| ≤ A + B := by
  rw [sub_eq_add_neg]
  exact abs_add_le' ha (by rwa [abs_neg])

theorem grad_add (hF : F.Gradual u η hi) {x y : XF F} {a b : K} (hx : x.Is a) (hy : y.Is b) (hr : |a + b| ≤ hi) :
    ∃ r', (x + y).Is r' ∧ |r' - (a + b)| ≤ u * |a + b| + η ∧ (0 ≤ a + b → 0 ≤ r') ∧ (a + b = 0 → r' = 0) := by
  obtain ⟨s, rfl⟩ := hx
  obtain ⟨t, rfl⟩ := hy
  exact XF.mk_grad hF hr _

/-- sums, with any bound `A` of the exact result -/
theorem rnd_add (hF : F.Gradual u η hi) (hu : 0 ≤ u) {x y : XF F} {a b A : K} (hx : x.Is a) (hy : y.Is b)
    (hA : |a + b| ≤ A) (hr : A ≤ hi) :
    ∃ r', (x + y).Is r' ∧ |r' - (a + b)| ≤ u * A + η ∧ (0 ≤ a + b → 0 ≤ r') := by
  obtain ⟨r, h1, h2, h3, -⟩ := grad_add hF hx hy (hA.trans hr)
  exact ⟨r, h1, h2.trans (add_le_add_left (mul_le_mul_of_nonneg_left hA hu) _), h3⟩

theorem rnd_sub (hF : F.Gradual u η hi) (hu : 0 ≤ u) {x y : XF F} {a b A : K} (hx : x.Is a) (hy : y.Is b)
    (hA : |a - b| ≤ A) (hr : A ≤ hi) :
    ∃ r', (x - y).Is r' ∧ |r' - (a - b)| ≤ u * A + η ∧ (0 ≤ a - b → 0 ≤ r') := by
  obtain ⟨r, h1, h2, h3, -⟩ := grad_sub hF hx hy (hA.trans hr)
  exact ⟨r, h1, h2.trans (add_le_add_left (mul_le_mul_of_nonneg_left hA hu) _), h3⟩

theorem rnd_mul (hF : F.Gradual u η hi) (hu : 0 ≤ u) {x y : XF F} {a b A : K} (hx : x.Is a) (hy : y.Is b)
    (hA : |a * b| ≤ A) (hr : A ≤ hi) :
    ∃ r', (x * y).Is r' ∧ |r' - a * b| ≤ u * A + η ∧ (0 ≤ a * b → 0 ≤ r') := by
  obtain ⟨r, h1, h2, h3, -⟩ := grad_mul hF hx hy (hA.trans hr)
  exact ⟨r, h1, h2.trans (add_le_add_left (mul_le_mul_of_nonneg_left hA hu) _), h3⟩

theorem rnd_div (hF : F.Gradual u η hi) (hu : 0 ≤ u) {x y : XF F} {a b A : K} (hx : x.Is a) (hy : y.Is b) (hb : b ≠ 0)
    (hA : |a / b| ≤ A) (hr : A ≤ hi) :
    ∃ r', (x / y).Is r' ∧ |r' - a / b| ≤ u * A + η ∧ (0 ≤ a / b → 0 ≤ r') := by
  obtain ⟨r, h1, h2, h3, -⟩ := grad_div hF hx hy hb (hA.trans hr)
  exact ⟨r, h1, h2.trans (add_le_add_left (mul_le_mul_of_nonneg_left hA hu) _), h3⟩

theorem rnd_sqrt (hF : F.Rounds u η hi) (hu : 0 ≤ u) (hη : 0 ≤ η) {x : XF F} {a : K} (hx : x.Is a) (h0 : 0 ≤ a)
    (hr : a ≤ hi) : ∃ r', (sqrt x).Is r' ∧ 0 ≤ r' ∧ |r' ^ 2 - a| ≤ 4 * u * a + 4 * η := by
  obtain ⟨s, rfl⟩ := hx
  show ∃ r', (XF.sqrt _).Is r' ∧ _
  unfold XF.sqrt
  simp only
  by_cases ha : a = 0
  · subst ha
    rw [if_pos rfl]
    exact ⟨0, ⟨_, rfl⟩, le_rfl, by simpa using hη⟩
  · rw [if_neg ha, if_neg (not_lt.2 h0)]
    obtain ⟨r, h1, h2, h3⟩ := hF.sqrt a (lt_of_le_of_ne h0 (Ne.symm ha)) hr
    refine ⟨r, ?_, h2, h3⟩
    unfold XF.mk
    rw [h1]
    exact ⟨_, rfl⟩

theorem rnd_const {q : ℚ} {c : K} (hq : ((q : ℚ) : K) = c) (h : F.post c = some c) : (ofRat q : XF F).Is c := by
  show (XF.mk F false _).Is c
  unfold XF.mk
  rw [hq, h]
  exact ⟨_, rfl⟩

theorem Fmt.Rounds.nat0 (hF : F.Rounds u η hi) : (nat 0 : XF F).Is 0 := rnd_const (by simp) hF.zero
theorem Fmt.Rounds.nat1 (hF : F.Rounds u η hi) : (nat 1 : XF F).Is 1 := rnd_const (by simp) hF.one
theorem Fmt.Rounds.nat2 (hF : F.Rounds u η hi) : (nat 2 : XF F).Is 2 := rnd_const (by simp) hF.two
theorem Fmt.Rounds.nat4 (hF : F.Rounds u η hi) : (nat 4 : XF F).Is 4 := rnd_const (by simp) hF.four
theorem Fmt.Rounds.half' (hF : F.Rounds u η hi) : (ofRat (1 / 2) : XF F).Is (1 / 2) := rnd_const (by simp) hF.half

/-- the dot product: `P` bounds the sum of the products' absolute values -/
theorem rnd_dot (hF : F.Gradual u η hi) (hu : 0 ≤ u) (hu8 : 8 * u ≤ 1) (hη : 0 ≤ η) {x y : Vec3 (XF F)} {a b : Vec3 K} {P : K}
    (hx : IsV x a) (hy : IsV y b) (hP : |a.x * b.x| + |a.y * b.y| + |a.z * b.z| ≤ P) (hr : 2 * P + 8 * η ≤ hi) :
    ∃ r, (Vec3.dot x y).Is r ∧ |r - Vec3.dot a b| ≤ 4 * u * P + 6 * η ∧
      (0 ≤ a.x * b.x → 0 ≤ a.y * b.y → 0 ≤ a.z * b.z → 0 ≤ r) := by
  have hx0 := abs_nonneg (a.x * b.x)
  have hy0 := abs_nonneg (a.y * b.y)
  have hz0 := abs_nonneg (a.z * b.z)
  have hP0 : 0 ≤ P := by linarith
  have huP : 0 ≤ u * P := mul_nonneg hu hP0
  have huP8 : u * P ≤ P / 8 := by nlinarith
  have huη : u * η ≤ η / 8 := by nlinarith
  have huη0 : 0 ≤ u * η := mul_nonneg hu hη
  have huuP : u * (u * P) ≤ u * P / 8 := by nlinarith
  have huuη : u * (u * η) ≤ η / 64 := by nlinarith
  have huuuP : u * (u * (u * P)) ≤ u * P / 64 := by nlinarith
  obtain ⟨p, p1, p2, p3⟩ := rnd_mul hF hu hx.1 hy.1 le_rfl (by linarith)
  obtain ⟨q, q1, q2, q3⟩ := rnd_mul hF hu hx.2.1 hy.2.1 le_rfl (by linarith)
  obtain ⟨r, r1, r2, r3⟩ := rnd_mul hF hu hx.2.2 hy.2.2 le_rfl (by linarith)
  set X := |a.x * b.x|
  set Y := |a.y * b.y|
  set Z := |a.z * b.z|
  have huX : u * (X + Y + Z) ≤ u * P := mul_le_mul_of_nonneg_left hP hu
  have huX0 := mul_nonneg hu hx0
  have huY0 := mul_nonneg hu hy0
  have huZ0 := mul_nonneg hu hz0
  have hp : |p| ≤ X + (u * X + η) := by
    have := abs_add_le (a.x * b.x) (p - a.x * b.x)
    rw [add_sub_cancel] at this; linarith
  have hq : |q| ≤ Y + (u * Y + η) := by
    have := abs_add_le (a.y * b.y) (q - a.y * b.y)
    rw [add_sub_cancel] at this; linarith
  have hr' : |r| ≤ Z + (u * Z + η) := by
    have := abs_add_le (a.z * b.z) (r - a.z * b.z)
    rw [add_sub_cancel] at this; linarith
  obtain ⟨s, s1, s2, s3⟩ := rnd_add hF hu p1 q1 (abs_add_le' hp hq) (by linarith)
  have hs : |s| ≤ (X + (u * X + η) + (Y + (u * Y + η))) + (u * (X + (u * X + η) + (Y + (u * Y + η))) + η) := by
    have h1 := abs_add_le (p + q) (s - (p + q))
    rw [add_sub_cancel] at h1
    have h2 := abs_add_le' hp hq
    linarith
  have hXY : u * (X + (u * X + η) + (Y + (u * Y + η))) = (u * X + u * Y) + u * (u * X + u * Y) + 2 * (u * η) := by ring
  have huXY : u * (u * X + u * Y) ≤ (u * X + u * Y) / 8 := by nlinarith
  have hS : |s + r| ≤ P + (2 * (u * P) + u * P / 2 + 5 * η) := by
    refine (abs_add_le' hs hr').trans ?_
    rw [hXY]
    linarith
  obtain ⟨w, w1, w2, w3⟩ := rnd_add hF hu s1 r1 hS (by linarith)
  refine ⟨w, w1, ?_, fun h1 h2 h3 => w3 (add_nonneg (s3 (add_nonneg (p3 h1) (q3 h2))) (r3 h3))⟩
  have e : w - Vec3.dot a b = (w - (s + r)) + (s - (p + q)) + (p - a.x * b.x) + (q - a.y * b.y) + (r - a.z * b.z) := by
    unfold Vec3.dot; ring
  rw [e]
  refine (abs_add_le' (abs_add_le' (abs_add_le' (abs_add_le' w2 s2) p2) q2) r2).trans ?_
  rw [hXY]
  have e2 : u * (P + (2 * (u * P) + u * P / 2 + 5 * η)) = u * P + 5 / 2 * (u * (u * P)) + 5 * (u * η) := by ring
  rw [e2]
  linarith

end Blazert
