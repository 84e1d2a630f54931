/- Helper lemmas: infinities, NaN and zero directions in the primitive tests. -/
import Verif.Spec.Degenerate
import Verif.Proofs.Source
import Verif.Proofs.Limits
import Verif.Proofs.SceneBuild

set_option autoImplicit false
set_option linter.unusedSectionVars false

namespace Blazert
open Scalar

section
variable {K : Type} [Field K] [LinearOrder K] [FloorRing K] {F : Fmt K}

namespace XF

/-! ### Infinities and NaN -/

theorem NotFinite.add_left {x : XF F} (h : x.NotFinite) (y : XF F) : (x + y).NotFinite := by
  show (XF.add x y).NotFinite
  cases x <;> cases y <;> first | exact h.elim | trivial | skip
  simp only [XF.add]; split <;> trivial

theorem NotFinite.add_right {y : XF F} (h : y.NotFinite) (x : XF F) : (x + y).NotFinite := by
  show (XF.add x y).NotFinite
  cases x <;> cases y <;> first | exact h.elim | trivial | skip
  simp only [XF.add]; split <;> trivial

theorem NotFinite.neg {x : XF F} (h : x.NotFinite) : (-x).NotFinite := by
  show (XF.neg x).NotFinite
  cases x <;> first | exact h.elim | trivial

theorem NotFinite.sub_left {x : XF F} (h : x.NotFinite) (y : XF F) : (x - y).NotFinite := h.add_left (-y)

theorem NotFinite.sub_right {y : XF F} (h : y.NotFinite) (x : XF F) : (x - y).NotFinite := h.neg.add_right x

theorem NotFinite.mul_left {x : XF F} (h : x.NotFinite) (y : XF F) : (x * y).NotFinite := by
  show (XF.mul x y).NotFinite
  cases x <;> cases y <;> first | exact h.elim | trivial | skip
  simp only [XF.mul]; split <;> trivial

theorem NotFinite.mul_right {y : XF F} (h : y.NotFinite) (x : XF F) : (x * y).NotFinite := by
  show (XF.mul x y).NotFinite
  cases x <;> cases y <;> first | exact h.elim | trivial | skip
  simp only [XF.mul]; split <;> trivial

theorem NotFinite.div_left {x : XF F} (h : x.NotFinite) (y : XF F) : (x / y).NotFinite := by
  show (XF.div x y).NotFinite
  cases x <;> cases y <;> first | exact h.elim | trivial

theorem NotFinite.between {t : XF F} (h : t.NotFinite) (a b : XF F) : (Scalar.gt t a && Scalar.lt t b) = false := by
  show (XF.lt a t && XF.lt t b) = false
  cases t with
  | fin v s => exact h.elim
  | inf s => cases a <;> cases b <;> cases s <;> simp [XF.lt]
  | nan => cases a <;> cases b <;> rfl

theorem NotFinite.sqrt_lt {x : XF F} (h : x.NotFinite) (b : XF F) : Scalar.lt (Scalar.sqrt x) b = false := by
  show XF.lt (XF.sqrt x) b = false
  cases x with
  | fin v s => exact h.elim
  | inf s => cases s <;> cases b <;> simp [XF.sqrt, XF.lt]
  | nan => cases b <;> rfl

/-! ### Zero or NaN -/

/-- a zero or NaN -/
def Nil : XF F → Prop
  | .fin v _ => v = 0
  | .inf _ => False
  | .nan => True

variable (hz : F.post 0 = some 0)
include hz

theorem mk_zero (s : Bool) : (XF.mk F s 0) = .fin 0 s := by unfold XF.mk; rw [hz]; simp

theorem nat_zero : (nat 0 : XF F) = .fin 0 false := by
  show XF.mk F false (((0 : ℕ) : ℚ) : K) = _
  rw [Nat.cast_zero, Rat.cast_zero, mk_zero hz]

theorem Nil.mul_left {x : XF F} (h : x.Nil) (y : XF F) : (x * y).Nil := by
  show (XF.mul x y).Nil
  cases x with
  | fin v s =>
    obtain rfl : v = 0 := h
    cases y with
    | fin w t => dsimp only [XF.mul]; rw [zero_mul, mk_zero hz]; rfl
    | inf t => dsimp only [XF.mul]; rw [if_pos rfl]; trivial
    | nan => trivial
  | inf s => exact h.elim
  | nan => cases y <;> trivial

theorem Nil.mul_right {y : XF F} (h : y.Nil) (x : XF F) : (x * y).Nil := by
  show (XF.mul x y).Nil
  cases y with
  | fin v s =>
    obtain rfl : v = 0 := h
    cases x with
    | fin w t => dsimp only [XF.mul]; rw [mul_zero, mk_zero hz]; rfl
    | inf t => dsimp only [XF.mul]; rw [if_pos rfl]; trivial
    | nan => trivial
  | inf s => exact h.elim
  | nan => cases x <;> trivial

theorem Nil.add {x y : XF F} (h : x.Nil) (h' : y.Nil) : (x + y).Nil := by
  show (XF.add x y).Nil
  cases x with
  | fin v s =>
    obtain rfl : v = 0 := h
    cases y with
    | fin w t => obtain rfl : w = 0 := h'; dsimp only [XF.add]; rw [add_zero, mk_zero hz]; rfl
    | inf t => exact h'.elim
    | nan => trivial
  | inf s => exact h.elim
  | nan => cases y <;> first | trivial | exact h'.elim

omit hz in
theorem Nil.neg {x : XF F} (h : x.Nil) : (-x).Nil := by
  show (XF.neg x).Nil
  cases x with
  | fin v s => obtain rfl : v = 0 := h; exact neg_zero
  | inf s => exact h.elim
  | nan => trivial

theorem Nil.sub {x y : XF F} (h : x.Nil) (h' : y.Nil) : (x - y).Nil := h.add hz h'.neg

omit hz in
theorem Nil.sqrt {x : XF F} (h : x.Nil) : (Scalar.sqrt x : XF F).Nil := by
  show (XF.sqrt x).Nil
  cases x with
  | fin v s => obtain rfl : v = 0 := h; dsimp only [XF.sqrt]; rw [if_pos rfl]; rfl
  | inf s => exact h.elim
  | nan => trivial

omit hz in
theorem Nil.abs {x : XF F} (h : x.Nil) : (Scalar.abs x : XF F).Nil := by
  show (XF.abs x).Nil
  cases x with
  | fin v s => obtain rfl : v = 0 := h; show |(0 : K)| = 0; simp [_root_.abs]
  | inf s => exact h.elim
  | nan => trivial

omit hz in
/-- dividing by a zero gives an infinity or NaN -/
theorem Nil.div {y : XF F} (h : y.Nil) (x : XF F) : (x / y).NotFinite := by
  show (XF.div x y).NotFinite
  cases y with
  | fin v s =>
    obtain rfl : v = 0 := h
    cases x with
    | fin w t => dsimp only [XF.div]; rw [if_pos rfl]; split <;> trivial
    | inf t => trivial
    | nan => trivial
  | inf s => exact h.elim
  | nan => cases x <;> trivial

omit hz in
/-- infinity times zero is NaN -/
theorem NotFinite.mul_nil {x y : XF F} (h : x.NotFinite) (h' : y.Nil) : x * y = .nan := by
  show XF.mul x y = .nan
  cases x with
  | fin v s => exact h.elim
  | inf s =>
    cases y with
    | fin w t => obtain rfl : w = 0 := h'; dsimp only [XF.mul]; rw [if_pos rfl]
    | inf t => exact h'.elim
    | nan => rfl
  | nan => cases y <;> rfl

theorem Nil.not_lt {x : XF F} (h : x.Nil) : Scalar.lt x (nat 0) = false := by
  rw [nat_zero hz]
  show XF.lt x _ = false
  cases x with
  | fin v s => obtain rfl : v = 0 := h; simp [XF.lt]
  | inf s => exact h.elim
  | nan => rfl

theorem Nil.not_gt {x : XF F} (h : x.Nil) : Scalar.gt x (nat 0) = false := by
  rw [nat_zero hz]
  show XF.lt _ x = false
  cases x with
  | fin v s => obtain rfl : v = 0 := h; simp [XF.lt]
  | inf s => exact h.elim
  | nan => rfl

theorem Nil.eq_zero {x : XF F} (h : x.Nil) : Scalar.eq x (nat 0) = true ∨ x = .nan := by
  rw [nat_zero hz]
  cases x with
  | fin v s => obtain rfl : v = 0 := h; exact .inl (by show XF.eq _ _ = true; simp [XF.eq])
  | inf s => exact h.elim
  | nan => exact .inr rfl

omit hz in
/-- nothing is at least zero and less than zero -/
theorem Nil.window {x y : XF F} (h : x.Nil) (h' : y.Nil) (t : XF F) : (Scalar.ge t x && Scalar.gt y t) = false := by
  show (XF.le x t && XF.lt t y) = false
  cases x with
  | fin v s =>
    obtain rfl : v = 0 := h
    cases y with
    | fin w s' =>
      obtain rfl : w = 0 := h'
      cases t with
      | fin u s'' =>
        simp only [XF.le, XF.lt, Bool.and_eq_false_iff, decide_eq_false_iff_not, not_le]
        exact em (u < 0)
      | inf s'' => cases s'' <;> rfl
      | nan => rfl
    | inf s => exact h'.elim
    | nan => cases t <;> simp [XF.lt]
  | inf s => exact h.elim
  | nan => cases t <;> rfl

end XF

/-! ### Vectors -/

/-- all components are infinities or NaN -/
def AllBad (v : Vec3 (XF F)) : Prop := v.x.NotFinite ∧ v.y.NotFinite ∧ v.z.NotFinite

/-- all components are zero or NaN -/
def AllNil (v : Vec3 (XF F)) : Prop := v.x.Nil ∧ v.y.Nil ∧ v.z.Nil

theorem NotFiniteV.dot {v : Vec3 (XF F)} (h : NotFiniteV v) (w : Vec3 (XF F)) : (Vec3.dot w v).NotFinite := by
  unfold Vec3.dot
  rcases h with h | h | h
  · exact ((h.mul_right _).add_left _).add_left _
  · exact ((h.mul_right _).add_right _).add_left _
  · exact (h.mul_right _).add_right _

theorem NotFiniteV.dot_left {v : Vec3 (XF F)} (h : NotFiniteV v) (w : Vec3 (XF F)) : (Vec3.dot v w).NotFinite := by
  unfold Vec3.dot
  rcases h with h | h | h
  · exact ((h.mul_left _).add_left _).add_left _
  · exact ((h.mul_left _).add_right _).add_left _
  · exact (h.mul_left _).add_right _

theorem NotFiniteV.mulVec {v : Vec3 (XF F)} (h : NotFiniteV v) (m : Mat3 (XF F)) : AllBad (m.mulVec v) :=
  ⟨h.dot _, h.dot _, h.dot _⟩

theorem NotFiniteV.sub {v : Vec3 (XF F)} (h : NotFiniteV v) (w : Vec3 (XF F)) : NotFiniteV (v - w) := by
  rcases h with h | h | h
  · exact .inl (h.sub_left _)
  · exact .inr (.inl (h.sub_left _))
  · exact .inr (.inr (h.sub_left _))

theorem NotFiniteV.sub_right {v : Vec3 (XF F)} (h : NotFiniteV v) (w : Vec3 (XF F)) : NotFiniteV (w - v) := by
  rcases h with h | h | h
  · exact .inl (h.sub_right _)
  · exact .inr (.inl (h.sub_right _))
  · exact .inr (.inr (h.sub_right _))

theorem NotFiniteV.cross_left {v : Vec3 (XF F)} (h : NotFiniteV v) (w : Vec3 (XF F)) : NotFiniteV (Vec3.cross v w) := by
  rcases h with h | h | h
  · exact .inr (.inl ((h.mul_left _).sub_right _))
  · exact .inl ((h.mul_left _).sub_left _)
  · exact .inl ((h.mul_left _).sub_right _)

theorem NotFiniteV.cross_right {v : Vec3 (XF F)} (h : NotFiniteV v) (w : Vec3 (XF F)) : NotFiniteV (Vec3.cross w v) := by
  rcases h with h | h | h
  · exact .inr (.inl ((h.mul_right _).sub_left _))
  · exact .inl ((h.mul_right _).sub_right _)
  · exact .inl ((h.mul_right _).sub_left _)

theorem AllNil.dot (hz : F.post 0 = some 0) {v : Vec3 (XF F)} (h : AllNil v) (w : Vec3 (XF F)) : (Vec3.dot w v).Nil :=
  ((h.1.mul_right hz _).add hz (h.2.1.mul_right hz _)).add hz (h.2.2.mul_right hz _)

theorem AllNil.mulVec (hz : F.post 0 = some 0) {v : Vec3 (XF F)} (h : AllNil v) (m : Mat3 (XF F)) : AllNil (m.mulVec v) :=
  ⟨h.dot hz _, h.dot hz _, h.dot hz _⟩

/-- the length of `t * d` is no number -/
theorem norm_smul_lt {t : XF F} {d : Vec3 (XF F)} (h : t.NotFinite ∨ NotFiniteV d) (b : XF F) : lt (Vec3.norm (Vec3.smul t d)) b = false := by
  refine XF.NotFinite.sqrt_lt ?_ b
  refine NotFiniteV.dot ?_ _
  rcases h with h | h | h | h
  · exact .inl (h.mul_left _)
  · exact .inl (h.mul_right _)
  · exact .inr (.inl (h.mul_right _))
  · exact .inr (.inr (h.mul_right _))

/-! ### The tests -/

/-- not usable: no hit, or one at a distance that is no number -/
def Unusable (r : PlaneI (XF F) × Bool) : Prop := r.2 = true → ∀ b, lt r.1.hd b = false

theorem Unusable.none (s : PlaneI (XF F)) : Unusable (s, false) := fun h => by simp at h

theorem Unusable.record {t : XF F} {d : Vec3 (XF F)} (h : t.NotFinite ∨ NotFiniteV d) (s : PlaneI (XF F)) (n : Vec3 (XF F)) (id : Nat) :
    Unusable (s.record n t d id) := fun _ b => norm_smul_lt h b

theorem Unusable.ite {c : Prop} [Decidable c] {a b : PlaneI (XF F) × Bool} (ha : c → Unusable a) (hb : ¬ c → Unusable b) :
    Unusable (if c then a else b) := by
  split
  · exact ha ‹_›
  · exact hb ‹_›

/-- a distance to something that is no number: either the parameter or the direction is none, or the test fails -/
def Lost (org dir : Vec3 (XF F)) : Prop := AllBad org ∨ AllBad dir ∨ AllNil dir

theorem cylT_lost (hz : F.post 0 = some 0) {org dir : Vec3 (XF F)} (h : Lost org dir) (a b : XF F) :
    ((cylT0 a b (cylABC a b org dir).1 (cylABC a b org dir).2.1 (cylABC a b org dir).2.2).NotFinite ∨ NotFiniteV dir) ∧
    ((cylT1 a b (cylABC a b org dir).1 (cylABC a b org dir).2.1 (cylABC a b org dir).2.2).NotFinite ∨ NotFiniteV dir) := by
  rcases h with h | h | h
  · have hB : (cylABC a b org dir).2.1.NotFinite := (h.2.1.mul_right _).add_left _
    exact ⟨.inl ((hB.neg.add_left _).mul_right _), .inl ((hB.add_left _).mul_right _)⟩
  · exact ⟨.inr (.inl h.1), .inr (.inl h.1)⟩
  · obtain ⟨h1, h2, h3⟩ := h
    have hA : (cylABC a b org dir).1.Nil := (h2.mul_right hz _).add hz (h1.mul_right hz _)
    have hC : (cylABC a b org dir).2.2.Nil := by
      refine XF.Nil.sub hz (XF.Nil.add hz (XF.Nil.sub hz hA ?_) ?_) ?_
      · exact ((h1.mul_left hz _).mul_left hz _).mul_left hz _
      · exact (((h1.mul_right hz _).mul_left hz _).mul_left hz _).mul_left hz _
      · exact ((h2.mul_left hz _).mul_left hz _).mul_left hz _
    have hB : (cylABC a b org dir).2.1.Nil :=
      ((h2.mul_right hz _).mul_left hz _).add hz ((h1.mul_right hz _).mul_left hz _)
    refine ⟨.inl ?_, .inl ?_⟩
    · exact (hA.div _).mul_left _
    · exact (hA.div _).mul_left _

theorem cylLateral_lost (hz : F.post 0 = some 0) {org dir : Vec3 (XF F)} (h : Lost org dir) (s : PlaneI (XF F)) (cy : Cylinder (XF F)) :
    Unusable (cylLateralOutside s cy org dir) := by
  obtain ⟨h0, h1⟩ := cylT_lost hz h cy.a cy.b
  exact .ite (fun _ => .none _) fun _ => .ite (fun _ => .record h1 _ _ _) fun _ => .ite (fun _ => .record h0 _ _ _) fun _ => .none _

/-- the parameter of a cap -/
theorem cylCap_lost (hz : F.post 0 = some 0) {org dir : Vec3 (XF F)} (h : Lost org dir) (x : XF F) :
    ((x - org.z) / dir.z).NotFinite ∨ NotFiniteV dir := by
  rcases h with h | h | h
  · exact .inl ((h.2.2.sub_right _).div_left _)
  · exact .inr (.inl h.1)
  · exact .inl (h.2.2.div _)

theorem cylAboveBelow_lost (hz : F.post 0 = some 0) {org dir : Vec3 (XF F)} (h : Lost org dir) (s : PlaneI (XF F)) (cy : Cylinder (XF F))
    (cap nz : XF F) : Unusable (cylAboveBelow s cy org dir cap nz) :=
  .ite (fun _ => .none _) fun _ => .ite (fun _ => .none _) fun _ => .ite (fun _ => .record (cylCap_lost hz h _) _ _ _) fun _ =>
    cylLateral_lost hz h s cy

theorem cylCapsInside_lost (hz : F.post 0 = some 0) {org dir : Vec3 (XF F)} (h : Lost org dir) (s : PlaneI (XF F)) (cy : Cylinder (XF F)) :
    Unusable (cylCapsInside s cy org dir) :=
  .ite (fun _ => .record (cylCap_lost hz h _) _ _ _) fun _ => .ite (fun _ => .record (cylCap_lost hz h _) _ _ _) fun _ => .none _

theorem cylInside_lost (hz : F.post 0 = some 0) {org dir : Vec3 (XF F)} (h : Lost org dir) (s : PlaneI (XF F)) (cy : Cylinder (XF F)) :
    Unusable (cylInside s cy org dir) := by
  obtain ⟨h0, h1⟩ := cylT_lost hz h cy.a cy.b
  refine .ite (fun _ => .ite (fun _ => .none _) fun _ => .ite (fun _ => .none _) fun _ => .ite (fun _ => .record h1 _ _ _) fun _ =>
    .ite (fun _ => .record h0 _ _ _) fun _ => .none _) fun _ => .ite (fun _ => .ite (fun _ => .none _) fun _ => cylCapsInside_lost hz h s cy)
    fun _ => .ite (fun _ => .none _) fun _ => .ite (fun _ => .record h1 _ _ _) fun _ => .ite (fun _ => .record h0 _ _ _) fun _ =>
    cylCapsInside_lost hz h s cy

theorem lost_of {o d c : Vec3 (XF F)} (hz : F.post 0 = some 0) (m : Mat3 (XF F)) (h : NotFiniteV o ∨ NotFiniteV d ∨ AllNil d) :
    Lost (m.mulVec (o - c)) (m.mulVec d) := by
  rcases h with h | h | h
  · exact .inl ((h.sub c).mulVec m)
  · exact .inr (.inl (h.mulVec m))
  · exact .inr (.inr (h.mulVec hz m))

theorem cylIntersect_lost (hz : F.post 0 = some 0) (s : PlaneI (XF F)) (cy : Cylinder (XF F)) (ray : Ray (XF F))
    (h : NotFiniteV s.rayOrg ∨ NotFiniteV s.rayDir ∨ AllNil s.rayDir) : Unusable (cylIntersect s cy ray) := by
  have hl := lost_of (c := cy.center) hz cy.rotation.trans h
  have h4 : Unusable (if ge (cy.rotation.trans.mulVec (s.rayOrg - cy.center)).z (-cy.height / nat 2) &&
      le (cy.rotation.trans.mulVec (s.rayOrg - cy.center)).z (cy.height / nat 2) &&
      le ((cy.rotation.trans.mulVec (s.rayOrg - cy.center)).x * (cy.rotation.trans.mulVec (s.rayOrg - cy.center)).x * cy.b * cy.b +
        (cy.rotation.trans.mulVec (s.rayOrg - cy.center)).y * (cy.rotation.trans.mulVec (s.rayOrg - cy.center)).y * cy.a * cy.a)
        (cy.a * cy.a * cy.b * cy.b) then
      cylInside s cy (cy.rotation.trans.mulVec (s.rayOrg - cy.center)) (cy.rotation.trans.mulVec s.rayDir) else (s, false)) :=
    .ite (fun _ => cylInside_lost hz hl s cy) fun _ => .none _
  exact .ite (fun _ => .ite (fun _ => cylAboveBelow_lost hz hl s cy _ _) fun _ => h4) fun _ =>
    .ite (fun _ => .ite (fun _ => cylAboveBelow_lost hz hl s cy _ _) fun _ => h4) fun _ =>
    .ite (fun _ => .ite (fun _ => cylLateral_lost hz hl s cy) fun _ => h4) fun _ => h4

theorem planeIntersect_lost (hz : F.post 0 = some 0) (s : PlaneI (XF F)) (p : Plane (XF F)) (ray : Ray (XF F))
    (h : NotFiniteV s.rayOrg ∨ NotFiniteV s.rayDir ∨ AllNil s.rayDir) : Unusable (planeIntersect s p ray) := by
  have hl := lost_of (c := p.center) hz p.rotation.trans h
  have ht : (-(p.rotation.trans.mulVec (s.rayOrg - p.center)).z / (p.rotation.trans.mulVec s.rayDir).z).NotFinite ∨
      NotFiniteV (p.rotation.trans.mulVec s.rayDir) := by
    rcases hl with h | h | h
    · exact .inl (h.2.2.neg.div_left _)
    · exact .inr (.inl h.1)
    · exact .inl (h.2.2.div _)
  unfold planeIntersect
  repeat' first | exact .record ht _ _ _ | exact .none _ | refine .ite (fun _ => ?_) (fun _ => ?_)

theorem sphereIntersect_lost (hz : F.post 0 = some 0) (s : SphereI (XF F)) (p : Sphere (XF F)) (ray : Ray (XF F))
    (h : NotFiniteV s.rayOrg ∨ NotFiniteV s.rayDir ∨ AllNil s.rayDir) : sphereIntersect s p ray = (s, false) := by
  have ht : ∀ Q, (ofRat (1/2) * (nat 1 / Vec3.dot s.rayDir s.rayDir) * (-(nat 2 * Vec3.dot (s.rayOrg - p.center) s.rayDir) - Q) : XF F).NotFinite ∧
      (ofRat (1/2) * (nat 1 / Vec3.dot s.rayDir s.rayDir) * (-(nat 2 * Vec3.dot (s.rayOrg - p.center) s.rayDir) + Q) : XF F).NotFinite := by
    intro Q
    have hB : (Vec3.dot (s.rayOrg - p.center) s.rayDir).NotFinite ∨ AllNil s.rayDir := by
      rcases h with h | h | h
      · exact .inl ((h.sub _).dot_left _)
      · exact .inl (h.dot _)
      · exact .inr h
    rcases hB with hB | hd
    · have := (hB.mul_right (nat 2)).neg
      exact ⟨(this.sub_left _).mul_right _, (this.add_left _).mul_right _⟩
    · have := (XF.Nil.div (hd.dot hz s.rayDir) (nat 1)).mul_right (ofRat (1/2))
      exact ⟨this.mul_left _, this.mul_left _⟩
  unfold sphereIntersect
  simp only
  by_cases hD : lt ((nat 2 * Vec3.dot (s.rayOrg - p.center) s.rayDir) * (nat 2 * Vec3.dot (s.rayOrg - p.center) s.rayDir) -
      nat 4 * Vec3.dot s.rayDir s.rayDir * (Vec3.dot (s.rayOrg - p.center) (s.rayOrg - p.center) - p.radius * p.radius)) (nat 0) = true
  · rw [if_pos hD]
  · rw [if_neg hD, (ht _).1.between, if_neg Bool.false_ne_true, (ht _).2.between, if_neg Bool.false_ne_true]

theorem productSign_notFinite {x : XF F} (h : x.NotFinite) (y : XF F) : (productSign x y).NotFinite := by
  unfold productSign; split
  · exact h.neg
  · exact h

/-- if two of the barycentric coordinates are infinite, the third is not at least minus the tolerance -/
theorem third_coordinate {u v d tol : XF F} (hu : u.NotFinite) (hv : v.NotFinite) :
    (ge u (-tol) && ge v (-tol) && ge (d - u - v) (-tol)) = false ∨ (-tol) = .inf true := by
  show (XF.le (-tol) u && XF.le (-tol) v && XF.le (-tol) (XF.sub (XF.sub d u) v)) = false ∨ _
  generalize -tol = n
  cases u with
  | fin _ _ => exact hu.elim
  | nan => left; cases n <;> simp [XF.le]
  | inf su =>
    cases v with
    | fin _ _ => exact hv.elim
    | nan => left; cases n <;> simp [XF.le]
    | inf sv =>
      cases n with
      | nan => left; rfl
      | fin w s =>
        left
        cases su
        · cases sv
          · cases d with
            | fin _ _ => rfl
            | inf sd => cases sd <;> rfl
            | nan => rfl
          · rfl
        · rfl
      | inf s =>
        cases s
        · left
          cases su
          · cases sv
            · cases d with
              | fin _ _ => rfl
              | inf sd => cases sd <;> rfl
              | nan => rfl
            · rfl
          · rfl
        · right; rfl

theorem nil_window (hz : F.post 0 = some 0) {d : XF F} (h : d.Nil) (t a b : XF F) :
    (ge t (abs d * a) && gt (abs d * b) t) = false :=
  XF.Nil.window (h.abs.mul_left hz a) (h.abs.mul_left hz b) t

theorem triIntersect_lost (hz : F.post 0 = some 0) (ht : ¬ (nat 4 * eps : XF F).NotFinite) (s : TriI (XF F)) (p : Triangle (XF F))
    (ray : Ray (XF F)) (h : NotFiniteV ray.origin ∨ NotFiniteV ray.direction ∨ AllNil ray.direction) :
    triIntersect s p ray = (s, false) := by
  unfold triIntersect
  simp only
  have key : NotFiniteV (Vec3.cross ray.direction (p.a - ray.origin)) ∨ AllNil ray.direction := by
    rcases h with h | h | h
    · exact .inl ((h.sub_right _).cross_right _)
    · exact .inl (h.cross_left _)
    · exact .inr h
  rcases key with hr | hd
  · rcases third_coordinate (d := abs (Vec3.dot (Vec3.cross p.c p.b) ray.direction)) (tol := nat 4 * eps)
      (productSign_notFinite (hr.dot_left p.b) (Vec3.dot (Vec3.cross p.c p.b) ray.direction))
      (productSign_notFinite (hr.dot_left p.c) (Vec3.dot (Vec3.cross p.c p.b) ray.direction)) with h' | h'
    · rw [h', if_neg Bool.false_ne_true]
    · refine (ht ?_).elim
      have : (- -(nat 4 * eps) : XF F).NotFinite := by rw [h']; trivial
      revert this
      generalize (nat 4 * eps : XF F) = x
      cases x <;> exact id
  · rw [nil_window hz (hd.dot hz _), if_neg Bool.false_ne_true, ite_self]

theorem XF.Zero.nil {x : XF F} (h : x.Zero) : x.Nil := by
  cases x with
  | fin _ _ => exact h
  | inf _ => exact h.elim
  | nan => trivial

theorem XF.Nil.zero_or {x : XF F} (h : x.Nil) : x.Zero ∨ x.NotFinite := by
  cases x with
  | fin _ _ => exact .inl h
  | inf _ => exact h.elim
  | nan => exact .inr trivial

theorem noRay_iff {o d : Vec3 (XF F)} : NoRay o d ↔ NotFiniteV o ∨ NotFiniteV d ∨ AllNil d := by
  constructor
  · rintro (h | h | ⟨h1, h2, h3⟩)
    · exact .inl h
    · exact .inr (.inl h)
    · exact .inr (.inr ⟨h1.nil, h2.nil, h3.nil⟩)
  · rintro (h | h | ⟨h1, h2, h3⟩)
    · exact .inl h
    · exact .inr (.inl h)
    · rcases h1.zero_or with k1 | k1
      · rcases h2.zero_or with k2 | k2
        · rcases h3.zero_or with k3 | k3
          · exact .inr (.inr ⟨k1, k2, k3⟩)
          · exact .inr (.inl (.inr (.inr k3)))
        · exact .inr (.inl (.inr (.inl k2)))
      · exact .inr (.inl (.inl k1))

/-- normalizing a vector whose length is not a number other than zero -/
theorem normalize_lost (v : Vec3 (XF F)) (h : ¬ ∃ l, (Vec3.norm v).Is l ∧ l ≠ 0) : NotFiniteV v.normalize ∨ AllNil v.normalize := by
  cases e : Vec3.norm v with
  | fin l b =>
    have h0 : l = 0 := by
      by_contra h0
      exact h ⟨l, ⟨b, e⟩, h0⟩
    refine .inl (.inl ?_)
    show (v.x / Vec3.norm v).NotFinite
    rw [e]
    exact XF.Nil.div (y := .fin l b) h0 _
  | inf b =>
    right
    have key : ∀ x : XF F, (x / .inf b).Nil := by
      intro x
      show (XF.div x (.inf b)).Nil
      cases x <;> trivial
    refine ⟨?_, ?_, ?_⟩
    · show (v.x / Vec3.norm v).Nil; rw [e]; exact key _
    · show (v.y / Vec3.norm v).Nil; rw [e]; exact key _
    · show (v.z / Vec3.norm v).Nil; rw [e]; exact key _
  | nan =>
    refine .inl (.inl ?_)
    show (v.x / Vec3.norm v).NotFinite
    rw [e]
    show (XF.div v.x .nan).NotFinite
    cases v.x <;> trivial

theorem isV_of_finite {v : Vec3 (XF F)} (hv : ¬ NotFiniteV v) : ∃ w, IsV v w := by
  obtain ⟨x, y, z⟩ := v
  cases x with
  | fin a sa =>
    cases y with
    | fin b sb =>
      cases z with
      | fin c sc => exact ⟨⟨a, b, c⟩, ⟨sa, rfl⟩, ⟨sb, rfl⟩, ⟨sc, rfl⟩⟩
      | inf _ => exact (hv (.inr (.inr trivial))).elim
      | nan => exact (hv (.inr (.inr trivial))).elim
    | inf _ => exact (hv (.inr (.inl trivial))).elim
    | nan => exact (hv (.inr (.inl trivial))).elim
  | inf _ => exact (hv (.inl trivial)).elim
  | nan => exact (hv (.inl trivial)).elim

/-- no hit -/
theorem intersect1_lost (hz : F.post 0 = some 0) (ht : ¬ (nat 4 * eps : XF F).NotFinite) {s : Scene (XF F)} {rs : List Nat}
    (hist : History s rs) (hc : s.committed = true) (ray : Ray (XF F))
    (hl : NotFiniteV ray.origin ∨ NotFiniteV ray.direction ∨ AllNil ray.direction) (rh0 out : RayHit (XF F)) :
    s.intersect1 ray rh0 ≠ .ok (true, out) := by
  intro h
  rcases intersect1_reportedBy (XF.irreflLt F) hist.ok hc ray rh0 out h with ⟨q, -, p, s0, s', t, r, -, k1, k2, k3, k4, -⟩ |
    ⟨q, -, p, s0, s', t, r, -, k1, k2, k3, k4, -⟩ | ⟨q, -, p, s0, s', t, r, -, k1, k2, k3, k4, -⟩ |
    ⟨q, -, p, s0, s', t, r, -, k1, k2, k3, k4, -⟩
  · have e := triIntersect_lost hz ht s0 p ray hl
    rw [show (triIx q.coll).isect s0 p ray = triIntersect s0 p ray from rfl, e] at k2
    cases k2
  · have e := sphereIntersect_lost hz s0 p ray (by rw [k1.1, k1.2.1]; exact hl)
    rw [show (sphereIx q.coll).isect s0 p ray = sphereIntersect s0 p ray from rfl, e] at k2
    cases k2
  · have e := planeIntersect_lost hz s0 p ray (by rw [k1.1, k1.2.1]; exact hl)
    rw [show planeIntersect s0 p ray = (s', true) from k2] at e
    have := e rfl ray.maxHit
    rw [show s'.hd = out.hitDistance from k3, k4] at this
    cases this
  · have e := cylIntersect_lost hz s0 p ray (by rw [k1.1, k1.2.1]; exact hl)
    rw [show cylIntersect s0 p ray = (s', true) from k2] at e
    have := e rfl ray.maxHit
    rw [show s'.hd = out.hitDistance from k3, k4] at this
    cases this

end
end Blazert
