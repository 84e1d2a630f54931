/- The distance to a cylinder, in exact arithmetic. -/
import Verif.Proofs.CylinderBox

set_option autoImplicit false

namespace Blazert
open Scalar

variable {F : Fmt ℝ}

/-! ### finite results come from finite operands -/

namespace XF

theorem Is.of_add (hF : F.Exact) {x y : XF F} {r : ℝ} (h : (x + y).Is r) : ∃ a b, x.Is a ∧ y.Is b ∧ r = a + b := by
  have key : ∀ x y : XF F, (x + y).Is r → ∃ a b, x.Is a ∧ y.Is b := by
    rintro (⟨a, s⟩ | s | _) (⟨b, t⟩ | t | _) ⟨w, hw⟩
    · exact ⟨a, b, ⟨s, rfl⟩, t, rfl⟩
    all_goals first
      | exact absurd (show XF.inf _ = XF.fin _ _ from hw) (by simp)
      | exact absurd (show XF.nan = XF.fin _ _ from hw) (by simp)
      | (change (if _ then _ else _) = _ at hw; split at hw <;> simp at hw)
  obtain ⟨a, b, h1, h2⟩ := key x y h
  exact ⟨a, b, h1, h2, h.unique (h1.add hF h2)⟩

theorem Is.of_neg {x : XF F} {r : ℝ} (h : (-x).Is r) : x.Is (-r) := by
  cases x with
  | fin a s => obtain ⟨w, hw⟩ := h; injection hw with h1 _; exact ⟨s, by rw [← h1, neg_neg]⟩
  | inf s => obtain ⟨w, hw⟩ := h; exact absurd (show XF.inf _ = XF.fin _ _ from hw) (by simp)
  | nan => obtain ⟨w, hw⟩ := h; exact absurd (show XF.nan = XF.fin _ _ from hw) (by simp)

theorem Is.of_sub (hF : F.Exact) {x y : XF F} {r : ℝ} (h : (x - y).Is r) : ∃ a b, x.Is a ∧ y.Is b ∧ r = a - b := by
  have h' : (x + -y).Is r := h
  obtain ⟨a, b, h1, h2, h3⟩ := Is.of_add hF h'
  exact ⟨a, -b, h1, h2.of_neg, by rw [h3]; ring⟩

theorem Is.of_mul (hF : F.Exact) {x y : XF F} {r : ℝ} (h : (x * y).Is r) : ∃ a b, x.Is a ∧ y.Is b ∧ r = a * b := by
  have key : ∀ x y : XF F, (x * y).Is r → ∃ a b, x.Is a ∧ y.Is b := by
    rintro (⟨a, s⟩ | s | _) (⟨b, t⟩ | t | _) ⟨w, hw⟩
    · exact ⟨a, b, ⟨s, rfl⟩, t, rfl⟩
    all_goals first
      | exact absurd (show XF.inf _ = XF.fin _ _ from hw) (by simp)
      | exact absurd (show XF.nan = XF.fin _ _ from hw) (by simp)
      | (change (if _ then _ else _) = _ at hw; split at hw <;> simp at hw)
  obtain ⟨a, b, h1, h2⟩ := key x y h
  exact ⟨a, b, h1, h2, h.unique (h1.mul hF h2)⟩

theorem Is.of_sqrt (hF : F.Exact) {x : XF F} {r : ℝ} (h : (Scalar.sqrt x).Is r) : ∃ a, x.Is a ∧ 0 ≤ a ∧ r = Real.sqrt a := by
  cases x with
  | fin a s =>
    have ha : 0 ≤ a := by
      by_contra hn
      have hn := not_le.1 hn
      obtain ⟨w, hw⟩ := h
      change (if a = 0 then XF.fin a s else if a < 0 then XF.nan else _) = _ at hw
      rw [if_neg hn.ne, if_pos hn] at hw
      simp at hw
    exact ⟨a, ⟨s, rfl⟩, ha, h.unique (Is.sqrt hF ⟨s, rfl⟩ ha)⟩
  | inf s =>
    obtain ⟨w, hw⟩ := h
    cases s <;> simp [Scalar.sqrt, XF.sqrt] at hw
  | nan => obtain ⟨w, hw⟩ := h; simp [Scalar.sqrt, XF.sqrt] at hw

/-- a square root is never negative -/
theorem sqrt_not_neg (hF : F.Exact) (x : XF F) : Scalar.lt (Scalar.sqrt x) (nat 0) = false := by
  rw [Bool.eq_false_iff]
  intro h
  obtain ⟨s, h0⟩ := XF.Is.zero hF (F := F)
  cases hx : Scalar.sqrt x with
  | fin r t =>
    obtain ⟨a, _, _, h2⟩ := Is.of_sqrt hF (x := x) (r := r) ⟨t, hx⟩
    rw [hx, h0] at h
    have : r < 0 := of_decide_eq_true h
    have := Real.sqrt_nonneg a
    linarith
  | inf t =>
    cases x with
    | fin a s =>
      change (if a = 0 then XF.fin a s else if a < 0 then XF.nan else XF.mk F false (F.sqrt a)) = _ at hx
      split at hx
      · simp at hx
      · split at hx
        · simp at hx
        · obtain ⟨w, hw⟩ := Is.mk' hF false (F.sqrt a)
          rw [hw] at hx; simp at hx
    | inf s =>
      change (if s then XF.nan else XF.inf false) = _ at hx
      split at hx
      · simp at hx
      · rename_i h1
        rw [h0] at h
        change Scalar.lt (if s then XF.nan else XF.inf false) _ = true at h
        rw [if_neg h1] at h
        exact absurd (show false = true from h) (by simp)
    | nan => exact absurd (show XF.nan = XF.inf t from hx) (by simp)
  | nan =>
    rw [hx, h0] at h
    exact absurd (show false = true from h) (by simp)

theorem not_neg_of_is (hF : F.Exact) {x : XF F} {a : ℝ} (h : x.Is a) (ha : 0 ≤ a) : Scalar.lt x (nat 0) = false := by
  rw [Bool.eq_false_iff, ne_eq, h.lt (XF.Is.zero hF)]; exact not_lt.2 ha

end XF

theorem minOf_mem {T : Type} [Scalar T] (x : T) (l : List T) : minOf x l ∈ x :: l := by
  induction l generalizing x with
  | nil => simp [minOf]
  | cons y l ih =>
    have : minOf x (y :: l) = minOf (if Scalar.lt y x then y else x) l := rfl
    rw [this]
    by_cases hc : Scalar.lt y x = true
    · rw [if_pos hc]; have := ih y; simp only [List.mem_cons] at this ⊢; tauto
    · rw [if_neg hc]; have := ih x; simp only [List.mem_cons] at this ⊢; tauto

/-! ### distances in the coordinates of the cylinder -/

theorem dist3_local {R : Mat3 ℝ} (hR : Orthonormal R) (c p v : Vec3 ℝ) :
    dist3 p (c + R.mulVec v) = len (R.trans.mulVec (p - c) - v) := by
  unfold dist3
  have : p - (c + R.mulVec v) = R.mulVec (R.trans.mulVec (p - c) - v) := by
    rw [Mat3.mulVec_sub, hR.rows]; ext <;> simp <;> ring
  rw [this, hR.len]

/-- the distances to the points of the surface -/
def CylDists (c : Vec3 ℝ) (a b h : ℝ) (R : Mat3 ℝ) (p : Vec3 ℝ) : Set ℝ := {x | ∃ q, OnCyl c a b h R q ∧ x = dist3 p q}

theorem len_mk (x y z : ℝ) : len ⟨x, y, z⟩ = Real.sqrt (x * x + y * y + z * z) := rfl

theorem len_z (z : ℝ) : len ⟨0, 0, z⟩ = |z| := by rw [len_mk]; simp [Real.sqrt_mul_self_eq_abs]
theorem len_x (x : ℝ) : len ⟨x, 0, 0⟩ = |x| := by rw [len_mk]; simp [Real.sqrt_mul_self_eq_abs]
theorem len_y (y : ℝ) : len ⟨0, y, 0⟩ = |y| := by rw [len_mk]; simp [Real.sqrt_mul_self_eq_abs]

section
variable {c p : Vec3 ℝ} {a b h : ℝ} {R : Mat3 ℝ} (hR : Orthonormal R)
include hR

/-- over a cap: the perpendicular distance -/
theorem least_over_cap (hh : 0 ≤ h) {q : Vec3 ℝ} (hq : q = R.trans.mulVec (p - c)) (h1 : q.x ^ 2 / a ^ 2 + q.y ^ 2 / b ^ 2 ≤ 1)
    (h2 : h / 2 ≤ |q.z|) : IsLeast (CylDists c a b h R p) (|q.z| - h / 2) := by
  constructor
  · rcases abs_cases q.z with ⟨k1, k2⟩ | ⟨k1, k2⟩
    · refine ⟨c + R.mulVec ⟨q.x, q.y, h / 2⟩, ⟨_, _, _, .inr ⟨h1, .inl rfl⟩, rfl⟩, ?_⟩
      rw [dist3_local hR, ← hq]
      have : q - ⟨q.x, q.y, h / 2⟩ = ⟨0, 0, q.z - h / 2⟩ := by ext <;> simp
      rw [this, len_z, k1, abs_of_nonneg (by linarith)]
    · refine ⟨c + R.mulVec ⟨q.x, q.y, -(h / 2)⟩, ⟨_, _, _, .inr ⟨h1, .inr rfl⟩, rfl⟩, ?_⟩
      rw [dist3_local hR, ← hq]
      have : q - ⟨q.x, q.y, -(h / 2)⟩ = ⟨0, 0, q.z + h / 2⟩ := by ext <;> simp
      rw [this, len_z, k1, abs_of_nonpos (by linarith)]; ring
  · rintro v ⟨w, ⟨x, y, z, hw, rfl⟩, rfl⟩
    rw [dist3_local hR, ← hq]
    refine le_trans ?_ (abs_get_le_len (q - ⟨x, y, z⟩) 2)
    have hz : |z| ≤ h / 2 := by
      rcases hw with ⟨_, k⟩ | ⟨_, k | k⟩
      · exact abs_le.2 k
      · rw [k, abs_of_nonneg (by linarith)]
      · rw [k, abs_neg, abs_of_nonneg (by linarith)]
    have := abs_sub_abs_le_abs_sub q.z z
    simp only [Vec3.get_two, Vec3.sub_z]
    linarith

/-- on the axis, between the caps -/
theorem least_on_axis (ha : 0 < a) (hb : 0 < b) {q : Vec3 ℝ} (hq : q = R.trans.mulVec (p - c)) (hx : q.x = 0) (hy : q.y = 0)
    (h1 : -(h / 2) ≤ q.z) (h2 : q.z ≤ h / 2) :
    IsLeast (CylDists c a b h R p) (Min.min (Min.min (Min.min a b) |q.z - h / 2|) |q.z + h / 2|) := by
  have hqe : q = ⟨0, 0, q.z⟩ := by ext <;> simp [hx, hy]
  have e1 : (a : ℝ) ∈ CylDists c a b h R p := by
    refine ⟨c + R.mulVec ⟨a, 0, q.z⟩, ⟨_, _, _, .inl ⟨by field_simp; norm_num, h1, h2⟩, rfl⟩, ?_⟩
    rw [dist3_local hR, ← hq]
    have : q - ⟨a, 0, q.z⟩ = ⟨-a, 0, 0⟩ := by rw [hqe]; ext <;> simp
    rw [this, len_x, abs_neg, abs_of_pos ha]
  have e2 : (b : ℝ) ∈ CylDists c a b h R p := by
    refine ⟨c + R.mulVec ⟨0, b, q.z⟩, ⟨_, _, _, .inl ⟨by field_simp; norm_num, h1, h2⟩, rfl⟩, ?_⟩
    rw [dist3_local hR, ← hq]
    have : q - ⟨0, b, q.z⟩ = ⟨0, -b, 0⟩ := by rw [hqe]; ext <;> simp
    rw [this, len_y, abs_neg, abs_of_pos hb]
  have e3 : |q.z - h / 2| ∈ CylDists c a b h R p := by
    refine ⟨c + R.mulVec ⟨0, 0, h / 2⟩, ⟨_, _, _, .inr ⟨by simp, .inl rfl⟩, rfl⟩, ?_⟩
    rw [dist3_local hR, ← hq]
    have : q - ⟨0, 0, h / 2⟩ = ⟨0, 0, q.z - h / 2⟩ := by rw [hqe]; ext <;> simp
    rw [this, len_z]
  have e4 : |q.z + h / 2| ∈ CylDists c a b h R p := by
    refine ⟨c + R.mulVec ⟨0, 0, -(h / 2)⟩, ⟨_, _, _, .inr ⟨by simp, .inr rfl⟩, rfl⟩, ?_⟩
    rw [dist3_local hR, ← hq]
    have : q - ⟨0, 0, -(h / 2)⟩ = ⟨0, 0, q.z + h / 2⟩ := by rw [hqe]; ext <;> simp
    rw [this, len_z]
  constructor
  · rcases min_choice (Min.min (Min.min a b) |q.z - h / 2|) |q.z + h / 2| with k | k <;> rw [k]
    · rcases min_choice (Min.min a b) |q.z - h / 2| with k | k <;> rw [k]
      · rcases min_choice a b with k | k <;> rw [k] <;> assumption
      · exact e3
    · exact e4
  · rintro v ⟨w, ⟨x, y, z, hw, rfl⟩, rfl⟩
    rw [dist3_local hR, ← hq]
    rcases hw with ⟨k, _⟩ | ⟨_, k | k⟩
    · refine le_trans ((min_le_left _ _).trans (min_le_left _ _)) ?_
      have hm : 0 < Min.min a b := lt_min ha hb
      rw [hqe]
      have hs : (⟨0, 0, q.z⟩ : Vec3 ℝ) - ⟨x, y, z⟩ = ⟨-x, -y, q.z - z⟩ := by ext <;> simp
      rw [hs, len_mk]
      apply Real.le_sqrt_of_sq_le
      have hma : Min.min a b ^ 2 ≤ a ^ 2 := pow_le_pow_left₀ hm.le (min_le_left _ _) 2
      have hmb : Min.min a b ^ 2 ≤ b ^ 2 := pow_le_pow_left₀ hm.le (min_le_right _ _) 2
      have f1 : x ^ 2 = a ^ 2 * (x ^ 2 / a ^ 2) := by field_simp
      have f2 : y ^ 2 = b ^ 2 * (y ^ 2 / b ^ 2) := by field_simp
      have g1 : 0 ≤ x ^ 2 / a ^ 2 := by positivity
      have g2 : 0 ≤ y ^ 2 / b ^ 2 := by positivity
      have m1 := mul_le_mul_of_nonneg_right hma g1
      have m2 := mul_le_mul_of_nonneg_right hmb g2
      have m3 : Min.min a b ^ 2 * (x ^ 2 / a ^ 2) + Min.min a b ^ 2 * (y ^ 2 / b ^ 2) = Min.min a b ^ 2 := by
        rw [← mul_add, k, mul_one]
      nlinarith [mul_self_nonneg (q.z - z)]
    · refine le_trans ((min_le_left _ _).trans (min_le_right _ _)) ?_
      have := abs_get_le_len (q - ⟨x, y, z⟩) 2
      simpa [k] using this
    · refine le_trans (min_le_right _ _) ?_
      have := abs_get_le_len (q - ⟨x, y, z⟩) 2
      simpa [k] using this

end

/-! ### the code -/

/-- the cylinder and the point -/
structure CylPoint (cy : Cylinder (XF F)) (point : Vec3 (XF F)) (c : Vec3 ℝ) (a b h : ℝ) (R : Mat3 ℝ) (p : Vec3 ℝ) : Prop where
  center : IsV cy.center c
  isA : cy.a.Is a
  isB : cy.b.Is b
  height : cy.height.Is h
  rot : IsM cy.rotation R
  a_pos : 0 < a
  b_pos : 0 < b
  h_pos : 0 < h
  orth : Orthonormal R
  point : IsV point p

/-- on the ellipse -/
def OnEllipse (a b x y : ℝ) : Prop := x ^ 2 / a ^ 2 + y ^ 2 / b ^ 2 = 1

/-- If Newton's method returns a number, it is the distance to some point of the ellipse. -/
theorem minDistEllipse_attained (hF : F.Exact) {tol xa xb xq yq : XF F} {a b x y d : ℝ} (ia : xa.Is a) (ib : xb.Is b) (ha : 0 < a)
    (hb : 0 < b) (ix : xq.Is x) (iy : yq.Is y) (h : (minDistEllipse tol xa xb xq yq).2.Is d) :
    ∃ X Y, OnEllipse a b X Y ∧ d = Real.sqrt ((x - X) * (x - X) + (y - Y) * (y - Y)) := by
  -- given the first coordinate
  have key : ∀ {xa xb xq yq xm : XF F} {a b x y σ : ℝ} {k : XF F}, xa.Is a → xb.Is b → 0 < a → 0 < b → xq.Is x → yq.Is y →
      k.Is (σ * (b / a)) → (σ * σ = 1) →
      (sqrt ((xq - xm) * (xq - xm) + (yq - k * sqrt (xa * xa - xm * xm)) * (yq - k * sqrt (xa * xa - xm * xm)))).Is d →
      ∃ X Y, OnEllipse a b X Y ∧ d = Real.sqrt ((x - X) * (x - X) + (y - Y) * (y - Y)) := by
    intro xa xb xq yq xm a b x y σ k ia ib ha hb ix iy ik hσ hd
    obtain ⟨w, hw, _, rfl⟩ := hd.of_sqrt hF
    obtain ⟨w1, w2, h1, h2, rfl⟩ := hw.of_add hF
    obtain ⟨u1, _, h3, _, _⟩ := h1.of_mul hF
    obtain ⟨x', X, h4, hX, rfl⟩ := h3.of_sub hF
    obtain rfl := h4.unique ix
    obtain ⟨v1, _, h5, _, _⟩ := h2.of_mul hF
    obtain ⟨y', Y, h6, hY, rfl⟩ := h5.of_sub hF
    obtain rfl := h6.unique iy
    obtain rfl := h1.unique (h3.mul hF h3)
    obtain rfl := h2.unique (h5.mul hF h5)
    obtain ⟨k', s, h7, h8, rfl⟩ := hY.of_mul hF
    obtain rfl := h7.unique ik
    obtain ⟨r, h9, hr, rfl⟩ := h8.of_sqrt hF
    obtain rfl := h9.unique ((ia.mul hF ia).sub hF (hX.mul hF hX))
    refine ⟨X, _, ?_, rfl⟩
    unfold OnEllipse
    have hs := Real.mul_self_sqrt hr
    have : (σ * (b / a) * Real.sqrt (a * a - X * X)) ^ 2 = b ^ 2 / a ^ 2 * (a * a - X * X) := by
      have : (σ * (b / a) * Real.sqrt (a * a - X * X)) ^ 2 = (σ * σ) * (b ^ 2 / a ^ 2) *
          (Real.sqrt (a * a - X * X) * Real.sqrt (a * a - X * X)) := by field_simp
      rw [this, hσ, one_mul, hs]
    rw [this]
    field_simp
    ring
  have swap : ∀ {A B X Y : ℝ}, OnEllipse A B X Y → OnEllipse B A Y X := by
    intro A B X Y h; unfold OnEllipse at *; rw [add_comm]; exact h
  have kpos : (xb / xa).Is (1 * (b / a)) := by rw [one_mul]; exact ib.div hF ia ha.ne'
  have kneg : (-xb / xa).Is (-1 * (b / a)) := by
    have := ib.neg.div hF ia ha.ne'
    rwa [show -b / a = -1 * (b / a) by ring] at this
  have kpos' : (xa / xb).Is (1 * (a / b)) := by rw [one_mul]; exact ia.div hF ib hb.ne'
  have kneg' : (-xa / xb).Is (-1 * (a / b)) := by
    have := ia.neg.div hF ib hb.ne'
    rwa [show -a / b = -1 * (a / b) by ring] at this
  unfold minDistEllipse at h
  simp only at h
  split at h
  · exact key ia ib ha hb ix iy kpos (by norm_num) h
  · split at h
    · exact key ia ib ha hb ix iy kneg (by norm_num) h
    · split at h
      · obtain ⟨Y, X, h1, h2⟩ := key ib ia hb ha iy ix kpos' (by norm_num) h
        exact ⟨X, Y, swap h1, by rw [h2, add_comm]⟩
      · obtain ⟨Y, X, h1, h2⟩ := key ib ia hb ha iy ix kneg' (by norm_num) h
        exact ⟨X, Y, swap h1, by rw [h2, add_comm]⟩

section
variable {cy : Cylinder (XF F)} {point : Vec3 (XF F)} {c : Vec3 ℝ} {a b h : ℝ} {R : Mat3 ℝ} {p : Vec3 ℝ}

theorem ellipseEquation_is (hF : F.Exact) {xa xb xq yq : XF F} {a b x y : ℝ} (ia : xa.Is a) (ib : xb.Is b) (ha : 0 < a) (hb : 0 < b)
    (ix : xq.Is x) (iy : yq.Is y) : (ellipseEquation xa xb xq yq).Is (x ^ 2 / a ^ 2 + y ^ 2 / b ^ 2 - 1) := by
  have := (((ix.mul hF ix).div hF (ia.mul hF ia) (mul_pos ha ha).ne').add hF
    ((iy.mul hF iy).div hF (ib.mul hF ib) (mul_pos hb hb).ne')).sub hF (XF.Is.one hF)
  rwa [← pow_two, ← pow_two, ← pow_two, ← pow_two] at this

theorem abs_cap {z h : ℝ} (hh : 0 < h) (hz : h / 2 ≤ |z|) : Min.min |z - h / 2| |z + h / 2| = |z| - h / 2 := by
  rcases abs_cases z with ⟨k1, k2⟩ | ⟨k1, k2⟩
  · rw [abs_of_nonneg (by linarith : 0 ≤ z - h / 2), abs_of_nonneg (by linarith : 0 ≤ z + h / 2), min_eq_left (by linarith), k1]
  · rw [abs_of_nonpos (by linarith : z - h / 2 ≤ 0), abs_of_nonpos (by linarith : z + h / 2 ≤ 0), min_eq_right (by linarith), k1]
    ring

theorem cylDistance_over_cap (hF : F.Exact) (heps : 0 < F.eps) (isZ : XF F → XF F → Bool) (tol : XF F)
    (H : CylPoint cy point c a b h R p) {q : Vec3 ℝ} (hq : q = R.trans.mulVec (p - c))
    (h1 : q.x ^ 2 / a ^ 2 + q.y ^ 2 / b ^ 2 ≤ 1) (h2 : h / 2 ≤ |q.z|) :
    (cylDistance isZ tol cy point).Is (|q.z| - h / 2) := by
  have i0 := XF.Is.zero hF (F := F)
  have i2 := two_is hF (F := F)
  have iq := H.rot.trans.mulVec hF (H.point.sub hF H.center)
  rw [← hq] at iq
  have ih := H.height.div hF i2 two_ne_zero
  have inh := H.height.neg.div hF i2 two_ne_zero
  rw [neg_div] at inh
  have iT := (iq.2.2.sub hF ih).abs
  have iB := (iq.2.2.add hF ih).abs
  have iel := ellipseEquation_is hF H.isA H.isB H.a_pos H.b_pos iq.1 iq.2.1
  have hh := H.h_pos
  have hcap := abs_cap hh h2
  have hz : h / 2 < q.z ∨ q.z < -(h / 2) ∨ (¬ (h / 2 < q.z ∨ q.z < -(h / 2)) ∧ |q.z| = h / 2) := by
    by_cases k : h / 2 < |q.z|
    · rcases lt_abs.1 k with k | k
      · exact .inl k
      · exact .inr (.inl (by linarith))
    · have e : |q.z| = h / 2 := le_antisymm (not_lt.1 k) h2
      refine .inr (.inr ⟨?_, e⟩)
      have := abs_le.1 e.le
      rintro (k | k) <;> linarith [this.1, this.2]
  have hcond : (gt (cy.rotation.trans.mulVec (point - cy.center)).z (cy.height / nat 2) ||
      lt (cy.rotation.trans.mulVec (point - cy.center)).z (-cy.height / nat 2)) = true ↔ (h / 2 < q.z ∨ q.z < -(h / 2)) := by
    rw [Bool.or_eq_true, iq.2.2.gt ih, iq.2.2.lt inh]
  unfold cylDistance
  simp only
  split
  · split
    · have := iT.min iB
      rw [hcap] at this; exact this
    · rename_i hc
      have e : |q.z| = h / 2 := by
        rcases hz with k | k | k
        · exact absurd (hcond.2 (.inl k)) hc
        · exact absurd (hcond.2 (.inr k)) hc
        · exact k.2
      have := ((H.isA.min H.isB).min iT).min iB
      have hval : Min.min (Min.min (Min.min a b) |q.z - h / 2|) |q.z + h / 2| = |q.z| - h / 2 := by
        rw [min_assoc, hcap, e, sub_self]
        exact min_eq_right (lt_min H.a_pos H.b_pos).le
      rw [hval] at this; exact this
  · split
    · split
      · have := iT.min iB
        rw [hcap] at this; exact this
      · rename_i hc
        have e : |q.z| = h / 2 := by
          rcases hz with k | k | k
          · exact absurd (hcond.2 (.inl k)) hc
          · exact absurd (hcond.2 (.inr k)) hc
          · exact k.2
        rw [e, sub_self]; exact i0
    · rename_i hn
      have hn' : ¬ |q.x ^ 2 / a ^ 2 + q.y ^ 2 / b ^ 2 - 1| < F.eps := fun k => hn ((iel.abs.lt XF.Is.eps).2 k)
      have hneg : q.x ^ 2 / a ^ 2 + q.y ^ 2 / b ^ 2 - 1 < 0 := by
        refine lt_of_le_of_ne (by linarith) fun k => hn' ?_
        rw [k, abs_zero]; exact heps
      rw [if_pos ((iel.lt i0).2 hneg)]
      rcases abs_cases q.z with ⟨k1, k2⟩ | ⟨k1, k2⟩
      · rw [if_pos ((iq.2.2.ge ih).2 (by linarith)), k1]
        rw [abs_of_nonneg (by linarith)] at iT
        exact iT
      · rw [if_neg (fun k => by have := (iq.2.2.ge ih).1 k; linarith), if_pos ((iq.2.2.le inh).2 (by linarith)), k1]
        rw [abs_of_nonpos (by linarith), neg_add, ← sub_eq_add_neg] at iB
        exact iB

theorem cylDistance_axis (hF : F.Exact) (isZ : XF F → XF F → Bool) (tol : XF F)
    (H : CylPoint cy point c a b h R p) {q : Vec3 ℝ} (hq : q = R.trans.mulVec (p - c))
    (hz : isZ (cy.rotation.trans.mulVec (point - cy.center)).x (cy.rotation.trans.mulVec (point - cy.center)).y = true)
    (h1 : -(h / 2) ≤ q.z) (h2 : q.z ≤ h / 2) :
    (cylDistance isZ tol cy point).Is (Min.min (Min.min (Min.min a b) |q.z - h / 2|) |q.z + h / 2|) := by
  have i2 := two_is hF (F := F)
  have iq := H.rot.trans.mulVec hF (H.point.sub hF H.center)
  rw [← hq] at iq
  have ih := H.height.div hF i2 two_ne_zero
  have inh := H.height.neg.div hF i2 two_ne_zero
  rw [neg_div] at inh
  have iT := (iq.2.2.sub hF ih).abs
  have iB := (iq.2.2.add hF ih).abs
  unfold cylDistance
  simp only
  rw [if_pos hz, if_neg (by rw [Bool.or_eq_true, iq.2.2.gt ih, iq.2.2.lt inh]; rintro (k | k) <;> linarith)]
  exact ((H.isA.min H.isB).min iT).min iB

/-- If the point is off the lateral surface extended and a number is returned, it is the distance to some point of the surface. -/
theorem cylDistance_attained (hF : F.Exact) (heps : 0 < F.eps) (isZ : XF F → XF F → Bool) (tol : XF F)
    (H : CylPoint cy point c a b h R p) {q : Vec3 ℝ} (hq : q = R.trans.mulVec (p - c))
    (hz : isZ (cy.rotation.trans.mulVec (point - cy.center)).x (cy.rotation.trans.mulVec (point - cy.center)).y = false)
    (hel : F.eps ≤ |q.x ^ 2 / a ^ 2 + q.y ^ 2 / b ^ 2 - 1|) {v : ℝ} (hv : (cylDistance isZ tol cy point).Is v) :
    v ∈ CylDists c a b h R p := by
  have i0 := XF.Is.zero hF (F := F)
  have i2 := two_is hF (F := F)
  have iq := H.rot.trans.mulVec hF (H.point.sub hF H.center)
  rw [← hq] at iq
  have ih := H.height.div hF i2 two_ne_zero
  have inh := H.height.neg.div hF i2 two_ne_zero
  rw [neg_div] at inh
  have iT := (iq.2.2.sub hF ih).abs
  have iB := (iq.2.2.add hF ih).abs
  have iel := ellipseEquation_is hF H.isA H.isB H.a_pos H.b_pos iq.1 iq.2.1
  have hh := H.h_pos
  -- points of the surface
  have lat : ∀ X Y z, OnEllipse a b X Y → -(h / 2) ≤ z → z ≤ h / 2 →
      Real.sqrt ((q.x - X) * (q.x - X) + (q.y - Y) * (q.y - Y) + (q.z - z) * (q.z - z)) ∈ CylDists c a b h R p := by
    intro X Y z h1 h2 h3
    refine ⟨c + R.mulVec ⟨X, Y, z⟩, ⟨_, _, _, .inl ⟨h1, h2, h3⟩, rfl⟩, ?_⟩
    rw [dist3_local H.orth, ← hq]; rfl
  have cap : ∀ z, (z = h / 2 ∨ z = -(h / 2)) → q.x ^ 2 / a ^ 2 + q.y ^ 2 / b ^ 2 ≤ 1 → |q.z - z| ∈ CylDists c a b h R p := by
    intro z h1 h2
    refine ⟨c + R.mulVec ⟨q.x, q.y, z⟩, ⟨_, _, _, .inr ⟨h2, h1⟩, rfl⟩, ?_⟩
    rw [dist3_local H.orth, ← hq]
    have : q - ⟨q.x, q.y, z⟩ = ⟨0, 0, q.z - z⟩ := by ext <;> simp
    rw [this, len_z]
  unfold cylDistance at hv
  simp only at hv
  rw [if_neg (by rw [hz]; simp), if_neg (fun k => absurd ((iel.abs.lt XF.Is.eps).1 k) (not_lt.2 hel))] at hv
  by_cases hneg : q.x ^ 2 / a ^ 2 + q.y ^ 2 / b ^ 2 - 1 < 0
  · rw [if_pos ((iel.lt i0).2 hneg)] at hv
    split at hv
    · obtain rfl := hv.unique iT
      exact cap _ (.inl rfl) (by linarith)
    · rename_i k1
      split at hv
      · obtain rfl := hv.unique iB
        have := cap (-(h / 2)) (.inr rfl) (by linarith)
        rwa [sub_neg_eq_add] at this
      · rename_i k2
        have z1 : q.z < h / 2 := by rw [iq.2.2.ge ih] at k1; exact not_le.1 k1
        have z2 : -(h / 2) < q.z := by rw [iq.2.2.le inh] at k2; exact not_le.1 k2
        have hm := minOf_mem (minDistEllipse tol cy.a cy.b (cy.rotation.trans.mulVec (point - cy.center)).x
          (cy.rotation.trans.mulVec (point - cy.center)).y).2
          [abs ((cy.rotation.trans.mulVec (point - cy.center)).z + cy.height / nat 2),
            abs ((cy.rotation.trans.mulVec (point - cy.center)).z - cy.height / nat 2)]
        simp only [List.mem_cons, List.not_mem_nil, or_false] at hm
        rcases hm with hm | hm | hm <;> rw [hm] at hv
        · obtain ⟨X, Y, e1, rfl⟩ := minDistEllipse_attained hF H.isA H.isB H.a_pos H.b_pos iq.1 iq.2.1 hv
          have := lat X Y q.z e1 z2.le z1.le
          simpa using this
        · obtain rfl := hv.unique iB
          have := cap (-(h / 2)) (.inr rfl) (by linarith)
          rwa [sub_neg_eq_add] at this
        · obtain rfl := hv.unique iT
          exact cap _ (.inl rfl) (by linarith)
  · have hpos : 0 < q.x ^ 2 / a ^ 2 + q.y ^ 2 / b ^ 2 - 1 := by
      rcases lt_trichotomy 0 (q.x ^ 2 / a ^ 2 + q.y ^ 2 / b ^ 2 - 1) with k | k | k
      · exact k
      · rw [← k, abs_zero] at hel; linarith
      · exact absurd k hneg
    rw [if_neg (fun k => hneg ((iel.lt i0).1 k)), if_pos ((iel.gt i0).2 hpos)] at hv
    split at hv
    · rename_i k
      rw [Bool.and_eq_true, iq.2.2.lt ih, iq.2.2.gt inh] at k
      obtain ⟨X, Y, e1, rfl⟩ := minDistEllipse_attained hF H.isA H.isB H.a_pos H.b_pos iq.1 iq.2.1 hv
      have := lat X Y q.z e1 k.2.le k.1.le
      simpa using this
    · have rim : ∀ (ds dz : XF F) (e : ℝ), ds = (minDistEllipse tol cy.a cy.b (cy.rotation.trans.mulVec (point - cy.center)).x
          (cy.rotation.trans.mulVec (point - cy.center)).y).2 → dz.Is |q.z - e| → (e = h / 2 ∨ e = -(h / 2)) →
          (sqrt (ds * ds + dz * dz)).Is v → v ∈ CylDists c a b h R p := by
        intro ds dz e hds hdz he hv
        obtain ⟨w, hw, _, rfl⟩ := hv.of_sqrt hF
        obtain ⟨w1, w2, h1, h2, rfl⟩ := hw.of_add hF
        obtain ⟨d, _, h3, _, _⟩ := h1.of_mul hF
        obtain rfl := h1.unique (h3.mul hF h3)
        obtain rfl := h2.unique (hdz.mul hF hdz)
        rw [hds] at h3
        obtain ⟨X, Y, e1, rfl⟩ := minDistEllipse_attained hF H.isA H.isB H.a_pos H.b_pos iq.1 iq.2.1 h3
        rw [Real.mul_self_sqrt (add_nonneg (mul_self_nonneg _) (mul_self_nonneg _)), abs_mul_abs_self]
        exact lat X Y e e1 (by rcases he with he | he <;> rw [he] <;> linarith) (by rcases he with he | he <;> rw [he] <;> linarith)
      have hm := minOf_mem (sqrt ((minDistEllipse tol cy.a cy.b (cy.rotation.trans.mulVec (point - cy.center)).x
          (cy.rotation.trans.mulVec (point - cy.center)).y).2 * (minDistEllipse tol cy.a cy.b (cy.rotation.trans.mulVec (point - cy.center)).x
          (cy.rotation.trans.mulVec (point - cy.center)).y).2 + abs ((cy.rotation.trans.mulVec (point - cy.center)).z - cy.height / nat 2) *
          abs ((cy.rotation.trans.mulVec (point - cy.center)).z - cy.height / nat 2)))
          [sqrt ((minDistEllipse tol cy.a cy.b (cy.rotation.trans.mulVec (point - cy.center)).x
          (cy.rotation.trans.mulVec (point - cy.center)).y).2 * (minDistEllipse tol cy.a cy.b (cy.rotation.trans.mulVec (point - cy.center)).x
          (cy.rotation.trans.mulVec (point - cy.center)).y).2 + abs ((cy.rotation.trans.mulVec (point - cy.center)).z + cy.height / nat 2) *
          abs ((cy.rotation.trans.mulVec (point - cy.center)).z + cy.height / nat 2))]
      simp only [List.mem_cons, List.not_mem_nil, or_false] at hm
      rcases hm with hm | hm <;> rw [hm] at hv
      · exact rim _ _ _ rfl iT (.inl rfl) hv
      · exact rim _ _ (-(h / 2)) rfl (by rwa [sub_neg_eq_add]) (.inr rfl) hv

theorem minDistEllipse_not_neg (hF : F.Exact) (tol xa xb xq yq : XF F) : Scalar.lt (minDistEllipse tol xa xb xq yq).2 (nat 0) = false := by
  unfold minDistEllipse
  simp only
  split_ifs <;> exact XF.sqrt_not_neg hF _

theorem minOf_not_neg {T : Type} [Scalar T] {z x : T} {l : List T} (h : ∀ y ∈ x :: l, Scalar.lt y z = false) :
    Scalar.lt (minOf x l) z = false := h _ (minOf_mem x l)

theorem cylDistance_not_neg (hF : F.Exact) (heps : 0 < F.eps) (isZ : XF F → XF F → Bool) (tol : XF F)
    (H : CylPoint cy point c a b h R p) : Scalar.lt (cylDistance isZ tol cy point) (nat 0) = false := by
  have i0 := XF.Is.zero hF (F := F)
  have i2 := two_is hF (F := F)
  have iq := H.rot.trans.mulVec hF (H.point.sub hF H.center)
  have ih := H.height.div hF i2 two_ne_zero
  have nT := XF.not_neg_of_is hF (iq.2.2.sub hF ih).abs (abs_nonneg _)
  have nB := XF.not_neg_of_is hF (iq.2.2.add hF ih).abs (abs_nonneg _)
  have nA := XF.not_neg_of_is hF H.isA H.a_pos.le
  have nb := XF.not_neg_of_is hF H.isB H.b_pos.le
  have iel := ellipseEquation_is hF H.isA H.isB H.a_pos H.b_pos iq.1 iq.2.1
  have nE := minDistEllipse_not_neg hF tol cy.a cy.b (cy.rotation.trans.mulVec (point - cy.center)).x
    (cy.rotation.trans.mulVec (point - cy.center)).y
  unfold cylDistance
  simp only
  split
  · split
    · exact minOf_not_neg (by simp [nT, nB])
    · exact minOf_not_neg (by simp [nT, nB, nA, nb])
  · split
    · split
      · unfold Scalar.min; split <;> assumption
      · exact XF.not_neg_of_is hF i0 le_rfl
    · rename_i k0
      split
      · split
        · exact nT
        · split
          · exact nB
          · exact minOf_not_neg (by simp [nT, nB, nE])
      · rename_i k1
        split
        · split
          · exact nE
          · exact minOf_not_neg (by simp [XF.sqrt_not_neg hF])
        · rename_i k2
          exfalso
          rw [iel.lt i0] at k1
          rw [iel.gt i0] at k2
          rw [iel.abs.lt XF.Is.eps] at k0
          have := le_antisymm (not_lt.1 k2) (not_lt.1 k1)
          rw [this, abs_zero] at k0
          exact k0 heps

end

end Blazert
