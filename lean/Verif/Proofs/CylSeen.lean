/- Helper lemmas: which tests lead to a recorded hit of a cylinder. -/
import Verif.Model.Embree
import Verif.Proofs.CylTaken

set_option autoImplicit false

namespace Blazert
open Scalar

theorem and2 {a b : Bool} (ha : a = true) (hb : b = true) : (a && b) = true := by rw [ha, hb]; rfl

theorem and3 {a b c : Bool} (ha : a = true) (hb : (b && c) = true) : (a && b && c) = true := by rw [Bool.and_assoc, ha, hb]; rfl

theorem and4 {a b c d : Bool} (ha : a = true) (hb : b = true) (hc : (c && d) = true) : (a && b && c && d) = true := by
  rw [Bool.and_assoc (a && b), ha, hb, hc]; rfl

theorem and4_second {a b c d : Bool} (hb : b = false) : (a && b && c && d) = false := by
  rw [hb, Bool.and_false, Bool.false_and, Bool.false_and]

section
variable {T : Type} [Scalar T]

/-- the tests of the tube from outside, passed by `t1` -/
structure RootSeen (P : T → Prop) (a b h : T) (org dir : Vec3 T) : Prop where
  disc : lt (cylABC a b org dir).2.2 (nat 0) = false
  pos : gt (cylT1 a b (cylABC a b org dir).1 (cylABC a b org dir).2.1 (cylABC a b org dir).2.2) (nat 0) = true
  first : lt (cylT1 a b (cylABC a b org dir).1 (cylABC a b org dir).2.1 (cylABC a b org dir).2.2)
    (cylT0 a b (cylABC a b org dir).1 (cylABC a b org dir).2.1 (cylABC a b org dir).2.2) = true
  last : lt (cylT0 a b (cylABC a b org dir).1 (cylABC a b org dir).2.1 (cylABC a b org dir).2.2)
    (cylT1 a b (cylABC a b org dir).1 (cylABC a b org dir).2.1 (cylABC a b org dir).2.2) = false
  level : cylInZ h (org + Vec3.muls dir (cylT1 a b (cylABC a b org dir).1 (cylABC a b org dir).2.1 (cylABC a b org dir).2.2)).z = true
  holds : P (cylT1 a b (cylABC a b org dir).1 (cylABC a b org dir).2.1 (cylABC a b org dir).2.2)

/-- the tests of a cap from outside, or those of the tube -/
structure CapSeen (P : T → Prop) (a b h cap : T) (org dir : Vec3 T) : Prop where
  cross : eq dir.z (nat 0) = false
  pos : lt ((cap - org.z) / dir.z) (nat 0) = false
  holds : P ((cap - org.z) / dir.z)
  seen : le (b * b * (org + Vec3.smul ((cap - org.z) / dir.z) dir).x * (org + Vec3.smul ((cap - org.z) / dir.z) dir).x +
      a * a * (org + Vec3.smul ((cap - org.z) / dir.z) dir).y * (org + Vec3.smul ((cap - org.z) / dir.z) dir).y) (a * a * b * b) = true ∨
    RootSeen P a b h org dir

/-- the tests which a ray from outside passes -/
inductive EntrySeen (P : T → Prop) (a b h : T) (org dir : Vec3 T) : Prop
  | top (h1 : gt org.z (h / nat 2) = true) (h2 : CapSeen P a b h (h / nat 2) org dir)
  | bottom (h0 : gt org.z (h / nat 2) = false) (h1 : lt org.z (-h / nat 2) = true) (h2 : CapSeen P a b h (-h / nat 2) org dir)
  | side (h1 : gt org.z (h / nat 2) = false) (h2 : lt org.z (-h / nat 2) = false) (h3 : gt org.z (-h / nat 2) = true)
      (h4 : lt org.z (h / nat 2) = true) (h5 : gt (org.x * org.x * b * b + org.y * org.y * a * a) (a * a * b * b) = true)
      (h6 : le (org.x * org.x * b * b + org.y * org.y * a * a) (a * a * b * b) = false) (h7 : RootSeen P a b h org dir)

/-- the tests which a ray from inside passes -/
structure InnerSeen (a b h : T) (org dir : Vec3 T) : Prop where
  h1 : gt org.z (h / nat 2) = false
  h2 : lt org.z (-h / nat 2) = false
  h3 : ge org.z (-h / nat 2) = true
  h4 : le org.z (h / nat 2) = true
  h5 : gt (org.x * org.x * b * b + org.y * org.y * a * a) (a * a * b * b) = false
  h6 : le (org.x * org.x * b * b + org.y * org.y * a * a) (a * a * b * b) = true
  h7 : (eq dir.z (nat 0) = true ∧ eq org.z (-h / nat 2) = false ∧ eq org.z (h / nat 2) = false ∧
      lt (cylABC a b org dir).2.2 (nat 0) = false ∧
      gt (cylT0 a b (cylABC a b org dir).1 (cylABC a b org dir).2.1 (cylABC a b org dir).2.2) (nat 0) = true ∧
      cylInZ h (org + Vec3.muls dir (cylT0 a b (cylABC a b org dir).1 (cylABC a b org dir).2.1 (cylABC a b org dir).2.2)).z = true) ∨
    (eq dir.z (nat 0) = false ∧ (lt dir.z (nat 0) = true ∨ gt dir.z (nat 0) = true) ∧
      (((eq dir.x (nat 0) && eq dir.y (nat 0)) = true ∧ eq (b * b * org.x * org.x + a * a * org.y * org.y) (a * a * b * b) = false) ∨
       ((eq dir.x (nat 0) && eq dir.y (nat 0)) = false ∧ lt (cylABC a b org dir).2.2 (nat 0) = false)))

theorem RootSeen.case {P : T → Prop} {a b h : T} {org dir : Vec3 T} (H : RootSeen P a b h org dir) :
    CylCase a b h org dir (cylT1 a b (cylABC a b org dir).1 (cylABC a b org dir).2.1 (cylABC a b org dir).2.2) :=
  .side H.disc (.inr rfl) H.pos H.level

/-! ### the native back-end -/

/-- a hit is recorded, at a parameter with the property `P` -/
def CylRec (P : T → Prop) (i : PlaneI T) (a b h : T) (org dir : Vec3 T) (id : Nat) (r : PlaneI T × Bool) : Prop :=
  ∃ t n, r = i.record n t dir id ∧ P t ∧ CylCase a b h org dir t

section
variable {P : T → Prop} {i : PlaneI T} {a b h : T} {org dir : Vec3 T} {id : Nat}

theorem CylRec.yes {n : Vec3 T} {t : T} (hP : P t) (ht : CylCase a b h org dir t) : CylRec P i a b h org dir id (i.record n t dir id) :=
  ⟨t, n, rfl, hP, ht⟩

theorem CylRec.pos {c : Bool} {x y : PlaneI T × Bool} (hc : c = true) (hx : CylRec P i a b h org dir id x) :
    CylRec P i a b h org dir id (if c = true then x else y) := by
  rw [if_pos hc]; exact hx

theorem CylRec.neg {c : Bool} {x y : PlaneI T × Bool} (hc : c = false) (hy : CylRec P i a b h org dir id y) :
    CylRec P i a b h org dir id (if c = true then x else y) := by
  rw [if_neg (by rw [hc]; simp)]; exact hy

theorem CylRec.ite {c : Bool} {x y : PlaneI T × Bool} (hx : c = true → CylRec P i a b h org dir id x)
    (hy : c = false → CylRec P i a b h org dir id y) : CylRec P i a b h org dir id (if c = true then x else y) := by
  cases hc : c
  · exact .neg rfl (hy hc)
  · exact .pos rfl (hx hc)

theorem CylRec.hit {r : PlaneI T × Bool} (hr : CylRec P i a b h org dir id r) : r.2 = true := by
  obtain ⟨t, n, rfl, -⟩ := hr
  rfl

theorem CylRec.or {r x : PlaneI T × Bool} (hr : CylRec P i a b h org dir id r) :
    CylRec P i a b h org dir id (if r.2 = true then r else x) := .pos hr.hit hr
end

theorem cylLateralOutside_seen {P : T → Prop} (i : PlaneI T) (cy : Cylinder T) (org dir : Vec3 T)
    (H : RootSeen P cy.a cy.b cy.height org dir) : CylRec P i cy.a cy.b cy.height org dir cy.primId (cylLateralOutside i cy org dir) := by
  unfold cylLateralOutside
  refine .neg H.disc (.pos ?_ (.yes H.holds H.case))
  simp only [Bool.and_eq_true]
  exact ⟨⟨H.pos, H.first⟩, H.level⟩

theorem cylCapsInside_seen (i : PlaneI T) (cy : Cylinder T) (org dir : Vec3 T) (H : lt dir.z (nat 0) = true ∨ gt dir.z (nat 0) = true)
    (hy : ∀ t, CapParam cy.height org.z dir.z t → CylCase cy.a cy.b cy.height org dir t) :
    CylRec (fun _ => True) i cy.a cy.b cy.height org dir cy.primId (cylCapsInside i cy org dir) := by
  unfold cylCapsInside
  refine .ite (fun h => .yes trivial (hy _ (.inl ⟨h, rfl⟩))) fun h => ?_
  have h' := H.resolve_left (by rw [h]; simp)
  exact .pos h' (.yes trivial (hy _ (.inr ⟨h', rfl⟩)))

theorem cylIntersect_enters {P : T → Prop} (i : PlaneI T) (cy : Cylinder T) (ray : Ray T)
    (H : EntrySeen P cy.a cy.b cy.height (cy.rotation.trans.mulVec (i.rayOrg - cy.center)) (cy.rotation.trans.mulVec i.rayDir)) :
    CylRec P i cy.a cy.b cy.height (cy.rotation.trans.mulVec (i.rayOrg - cy.center)) (cy.rotation.trans.mulVec i.rayDir) cy.primId
      (cylIntersect i cy ray) := by
  unfold cylIntersect
  cases H with
  | top h1 h2 =>
    refine .pos h1 (.or ?_)
    unfold cylAboveBelow
    refine .neg h2.cross (.neg h2.pos (.ite (fun h => .yes h2.holds (.top h1 h2.cross rfl h2.pos h)) fun h => ?_))
    exact cylLateralOutside_seen i cy _ _ (h2.seen.resolve_left fun h' => absurd (h'.symm.trans h) (by simp))
  | bottom h0 h1 h2 =>
    refine .neg h0 (.pos h1 (.or ?_))
    unfold cylAboveBelow
    refine .neg h2.cross (.neg h2.pos (.ite (fun h => .yes h2.holds (.bottom h1 h2.cross rfl h2.pos h)) fun h => ?_))
    exact cylLateralOutside_seen i cy _ _ (h2.seen.resolve_left fun h' => absurd (h'.symm.trans h) (by simp))
  | side h1 h2 h3 h4 h5 h6 h7 =>
    refine .neg h1 (.neg h2 (.pos ?_ (.or (cylLateralOutside_seen i cy _ _ h7))))
    simp only [Bool.and_eq_true]
    exact ⟨⟨h3, h4⟩, h5⟩

theorem cylIntersect_leaves (i : PlaneI T) (cy : Cylinder T) (ray : Ray T)
    (H : InnerSeen cy.a cy.b cy.height (cy.rotation.trans.mulVec (i.rayOrg - cy.center)) (cy.rotation.trans.mulVec i.rayDir)) :
    CylRec (fun _ => True) i cy.a cy.b cy.height (cy.rotation.trans.mulVec (i.rayOrg - cy.center)) (cy.rotation.trans.mulVec i.rayDir)
      cy.primId (cylIntersect i cy ray) := by
  unfold cylIntersect
  refine .neg H.h1 (.neg H.h2 (.neg ?_ (.pos ?_ ?_)))
  · rw [H.h5, Bool.and_false]
  · rw [H.h3, H.h4, H.h6]; rfl
  · unfold cylInside
    rcases H.h7 with ⟨e1, e2, e3, e4, e5, e6⟩ | ⟨e1, e2, ⟨e3, e4⟩ | ⟨e3, e4⟩⟩
    · refine .pos e1 (.neg (by rw [e2, e3]; rfl) (.neg e4 (.ite (fun h => ?_) fun _ => .pos (and2 e5 e6) (.yes trivial (.side e4 (.inl rfl) e5 e6)))))
      simp only [Bool.and_eq_true] at h
      exact .yes trivial (.side e4 (.inr rfl) h.1 h.2)
    · refine .neg e1 (.pos e3 (.neg e4 (cylCapsInside_seen i cy _ _ e2 fun t ht => ?_)))
      simp only [Bool.and_eq_true] at e3
      exact .inner H.h3 H.h4 H.h6 ht (.inl e3)
    · refine .neg e1 (.neg e3 (.neg e4 (.ite (fun h => ?_) fun _ => .ite (fun h => ?_) fun h => cylCapsInside_seen i cy _ _ e2 fun t ht => ?_)))
      · simp only [Bool.and_eq_true] at h
        exact .yes trivial (.side e4 (.inr rfl) h.1 h.2)
      · simp only [Bool.and_eq_true] at h
        exact .yes trivial (.side e4 (.inl rfl) h.1 h.2)
      · exact .inner H.h3 H.h4 H.h6 ht (.inr ⟨e4, h⟩)

/-! ### the Embree back-end -/

/-- a hit is recorded, at a parameter with the property `P` -/
def EmbRec (P : T → Prop) (c : EmbCyl T) (inst : Nat) (org dir : Vec3 T) (rh r : RtcRayHit T) : Prop :=
  ∃ t n, r = c.setAt inst rh n t dir ∧ P t ∧ CylCase c.a c.b c.height org dir t

section
variable {P : T → Prop} {c : EmbCyl T} {inst : Nat} {org dir : Vec3 T} {rh r : RtcRayHit T}

theorem EmbRec.yes {n : Vec3 T} {t : T} (hP : P t) (ht : CylCase c.a c.b c.height org dir t) :
    EmbRec P c inst org dir rh (c.setAt inst rh n t dir) := ⟨t, n, rfl, hP, ht⟩

theorem EmbRec.pos {b : Bool} {x y : RtcRayHit T} (hc : b = true) (hx : EmbRec P c inst org dir rh x) :
    EmbRec P c inst org dir rh (if b = true then x else y) := by
  rw [if_pos hc]; exact hx

theorem EmbRec.neg {b : Bool} {x y : RtcRayHit T} (hc : b = false) (hy : EmbRec P c inst org dir rh y) :
    EmbRec P c inst org dir rh (if b = true then x else y) := by
  rw [if_neg (by rw [hc]; simp)]; exact hy

theorem EmbRec.ite {b : Bool} {x y : RtcRayHit T} (hx : b = true → EmbRec P c inst org dir rh x)
    (hy : b = false → EmbRec P c inst org dir rh y) : EmbRec P c inst org dir rh (if b = true then x else y) := by
  cases hc : b
  · exact .neg rfl (hy hc)
  · exact .pos rfl (hx hc)

/-- what is recorded later hides what was recorded before -/
theorem EmbRec.over {x : RtcRayHit T} (hx : x = rh ∨ ∃ t n, x = c.setAt inst rh n t dir) (h : EmbRec P c inst org dir x r) :
    EmbRec P c inst org dir rh r := by
  obtain ⟨t, n, rfl, h1, h2⟩ := h
  rcases hx with rfl | ⟨t', n', rfl⟩
  · exact ⟨t, n, rfl, h1, h2⟩
  · exact ⟨t, n, rfl, h1, h2⟩

theorem setAt_or {b : Bool} {n : Vec3 T} {t : T} :
    (if b = true then c.setAt inst rh n t dir else rh) = rh ∨
      ∃ t' n', (if b = true then c.setAt inst rh n t dir else rh) = c.setAt inst rh n' t' dir := by
  cases b
  · exact .inl (if_neg (by simp))
  · exact .inr ⟨t, n, if_pos rfl⟩

end

theorem EmbCyl.lateral_seen {P : T → Prop} (c : EmbCyl T) (inst : Nat) (zlow : T) (swap : Bool) (org dir : Vec3 T) (rh : RtcRayHit T)
    (H : RootSeen P c.a c.b c.height org dir) : EmbRec P c inst org dir rh (c.lateral inst zlow swap org dir rh) := by
  unfold EmbCyl.lateral
  exact .neg H.disc (.neg (and4_second H.last) (.pos (and4 H.pos H.first H.level) (.yes H.holds H.case)))

theorem EmbCyl.caps_seen (c : EmbCyl T) (inst : Nat) (org dir : Vec3 T) (rh : RtcRayHit T)
    (H : lt dir.z (nat 0) = true ∨ gt dir.z (nat 0) = true)
    (hy : ∀ t, CapParam c.height org.z dir.z t → CylCase c.a c.b c.height org dir t) :
    EmbRec (fun _ => True) c inst org dir rh (c.caps inst org dir rh) := by
  unfold EmbCyl.caps
  refine .ite (fun h => ?_) fun h => ?_
  · exact .over setAt_or (.yes trivial (hy _ (.inr ⟨h, rfl⟩)))
  · have h' := H.resolve_right (by rw [h]; simp)
    exact .pos h' (.yes trivial (hy _ (.inl ⟨h', rfl⟩)))

theorem EmbCyl.intersect_enters {P : T → Prop} (c : EmbCyl T) (inst : Nat) (rh : RtcRayHit T)
    (H : EntrySeen P c.a c.b c.height (c.rot.trans.mulVec (rh.ray.org - c.center)) (c.rot.trans.mulVec rh.ray.dir)) :
    EmbRec P c inst (c.rot.trans.mulVec (rh.ray.org - c.center)) (c.rot.trans.mulVec rh.ray.dir) rh (c.intersect inst rh) := by
  unfold EmbCyl.intersect
  cases H with
  | top h1 h2 =>
    refine .pos h1 ?_
    unfold EmbCyl.aboveBelow
    refine .neg h2.cross (.neg h2.pos (.ite (fun h => .yes h2.holds (.top h1 h2.cross rfl h2.pos h)) fun h => ?_))
    exact c.lateral_seen inst _ _ _ _ rh (h2.seen.resolve_left fun h' => absurd (h'.symm.trans h) (by simp))
  | bottom h0 h1 h2 =>
    refine .neg h0 (.pos h1 ?_)
    unfold EmbCyl.aboveBelow
    refine .neg h2.cross (.neg h2.pos (.ite (fun h => .yes h2.holds (.bottom h1 h2.cross rfl h2.pos h)) fun h => ?_))
    exact c.lateral_seen inst _ _ _ _ rh (h2.seen.resolve_left fun h' => absurd (h'.symm.trans h) (by simp))
  | side h1 h2 h3 h4 h5 h6 h7 =>
    refine .neg h1 (.neg h2 (.neg ?_ (.pos ?_ (c.lateral_seen inst _ _ _ _ rh h7))))
    · rw [h6, Bool.and_false]
    · rw [h3, h4, h5]; rfl

theorem EmbCyl.inside_seen (c : EmbCyl T) (inst : Nat) (org dir : Vec3 T) (rh : RtcRayHit T) (H : InnerSeen c.a c.b c.height org dir) :
    EmbRec (fun _ => True) c inst org dir rh (c.inside inst org dir rh) := by
  unfold EmbCyl.inside
  rcases H.h7 with ⟨e1, e2, e3, e4, e5, e6⟩ | ⟨e1, e2, ⟨e3, e4⟩ | ⟨e3, e4⟩⟩
  · exact .pos e1 (.neg (by rw [e2, e3]; rfl) (.neg e4 (.pos (and3 e5 e6) (.over setAt_or (.yes trivial (.side e4 (.inl rfl) e5 e6))))))
  · refine .neg e1 (.pos e3 (.neg e4 (c.caps_seen inst _ _ rh e2 fun t ht => ?_)))
    simp only [Bool.and_eq_true] at e3
    exact .inner H.h3 H.h4 H.h6 ht (.inl e3)
  · refine .neg e1 (.neg e3 (.neg e4 (.ite (fun h => ?_) fun _ => .ite (fun h => ?_) fun h => c.caps_seen inst _ _ rh e2 fun t ht => ?_)))
    · rw [Bool.and_assoc, Bool.and_eq_true] at h
      exact .yes trivial (.side e4 (.inr rfl) h.1 h.2)
    · rw [Bool.and_assoc, Bool.and_eq_true] at h
      exact .yes trivial (.side e4 (.inl rfl) h.1 h.2)
    · rw [Bool.and_assoc] at h
      exact .inner H.h3 H.h4 H.h6 ht (.inr ⟨e4, h⟩)

theorem EmbCyl.intersect_leaves (c : EmbCyl T) (inst : Nat) (rh : RtcRayHit T)
    (H : InnerSeen c.a c.b c.height (c.rot.trans.mulVec (rh.ray.org - c.center)) (c.rot.trans.mulVec rh.ray.dir)) :
    EmbRec (fun _ => True) c inst (c.rot.trans.mulVec (rh.ray.org - c.center)) (c.rot.trans.mulVec rh.ray.dir) rh (c.intersect inst rh) := by
  unfold EmbCyl.intersect
  refine .neg H.h1 (.neg H.h2 (.pos ?_ (.over ?_ (c.inside_seen inst _ _ _ H))))
  · rw [H.h3, H.h4, H.h6]; rfl
  · exact .inl (if_neg (by rw [H.h5, Bool.and_false]; simp))

/-! ### shadow rays of Embree -/

theorem EmbCyl.isOccluded_enters {P : T → Prop} (c : EmbCyl T) (o d : Vec3 T)
    (H : EntrySeen P c.a c.b c.height (c.rot.trans.mulVec (o - c.center)) (c.rot.trans.mulVec d))
    (hlt : ∀ t : T, gt t (nat 0) = true → lt t (nat 0) = false) : c.isOccluded o d = true := by
  have root : ∀ org dir : Vec3 T, RootSeen P c.a c.b c.height org dir → c.lateralOccluded org dir = true := by
    intro org dir h
    unfold EmbCyl.lateralOccluded
    refine (if_neg (Bool.eq_false_iff.mp h.disc)).trans ?_
    exact Bool.or_eq_true _ _ |>.mpr (.inl (and4 h.pos h.first h.level))
  unfold EmbCyl.isOccluded
  cases H with
  | top h1 h2 =>
    refine (if_pos h1).trans ?_
    unfold EmbCyl.aboveBelowOccluded
    refine (if_neg (by rw [h2.cross]; simp)).trans ((if_neg (by rw [h2.pos]; simp)).trans ?_)
    rcases h2.seen with h | h
    · exact if_pos h
    · exact ite_eq_left_iff.mpr fun _ => root _ _ h
  | bottom h0 h1 h2 =>
    refine (if_neg (by rw [h0]; simp)).trans ((if_pos h1).trans ?_)
    unfold EmbCyl.aboveBelowOccluded
    refine (if_neg (by rw [h2.cross]; simp)).trans ((if_neg (by rw [h2.pos]; simp)).trans ?_)
    rcases h2.seen with h | h
    · exact if_pos h
    · exact ite_eq_left_iff.mpr fun _ => root _ _ h
  | side h1 h2 h3 h4 h5 h6 h7 =>
    refine (if_neg (by rw [h1]; simp)).trans ((if_neg (by rw [h2]; simp)).trans ?_)
    have hs : c.sideOccluded (c.rot.trans.mulVec (o - c.center)) (c.rot.trans.mulVec d) = true := by
      unfold EmbCyl.sideOccluded
      refine (if_neg (Bool.eq_false_iff.mp h7.disc)).trans ?_
      have := hlt _ h7.pos
      exact (congrArg (fun b => !(_ && b)) this).trans (by simp)
    simp only [h3, h4, h5, hs, Bool.and_self, Bool.true_or]

end
end Blazert
