/- Which branches of the cylinder test record a hit, and at which parameter. -/
import Verif.Model.Cylinder

set_option autoImplicit false

namespace Blazert
open Scalar

section
variable {T : Type} [Scalar T]

/-- the two parameters at which the caps are met -/
def CapParam (h z l t : T) : Prop :=
  (lt l (nat 0) = true ∧ t = (-h / nat 2 - z) / l) ∨ (gt l (nat 0) = true ∧ t = (h / nat 2 - z) / l)

/-- the tests which precede a recorded hit -/
inductive CylCase (a b h : T) (org dir : Vec3 T) (t : T) : Prop
  | top (h1 : gt org.z (h / nat 2) = true) (h2 : eq dir.z (nat 0) = false) (h3 : t = (h / nat 2 - org.z) / dir.z)
      (h4 : lt t (nat 0) = false)
      (h5 : le (b * b * (org + Vec3.smul t dir).x * (org + Vec3.smul t dir).x + a * a * (org + Vec3.smul t dir).y * (org + Vec3.smul t dir).y)
        (a * a * b * b) = true)
  | bottom (h1 : lt org.z (-h / nat 2) = true) (h2 : eq dir.z (nat 0) = false) (h3 : t = (-h / nat 2 - org.z) / dir.z)
      (h4 : lt t (nat 0) = false)
      (h5 : le (b * b * (org + Vec3.smul t dir).x * (org + Vec3.smul t dir).x + a * a * (org + Vec3.smul t dir).y * (org + Vec3.smul t dir).y)
        (a * a * b * b) = true)
  | side (h1 : lt (cylABC a b org dir).2.2 (nat 0) = false)
      (h2 : t = cylT0 a b (cylABC a b org dir).1 (cylABC a b org dir).2.1 (cylABC a b org dir).2.2 ∨
        t = cylT1 a b (cylABC a b org dir).1 (cylABC a b org dir).2.1 (cylABC a b org dir).2.2)
      (h3 : gt t (nat 0) = true) (h4 : cylInZ h (org + Vec3.muls dir t).z = true)
  | inner (h1 : ge org.z (-h / nat 2) = true) (h2 : le org.z (h / nat 2) = true)
      (h3 : le (org.x * org.x * b * b + org.y * org.y * a * a) (a * a * b * b) = true)
      (h4 : CapParam h org.z dir.z t)
      (h5 : (eq dir.x (nat 0) = true ∧ eq dir.y (nat 0) = true) ∨
        (lt (cylABC a b org dir).2.2 (nat 0) = false ∧
          (gt (cylT0 a b (cylABC a b org dir).1 (cylABC a b org dir).2.1 (cylABC a b org dir).2.2) (nat 0) &&
            cylInZ h (org + Vec3.muls dir (cylT0 a b (cylABC a b org dir).1 (cylABC a b org dir).2.1 (cylABC a b org dir).2.2)).z) = false))

/-- a recorded hit was recorded at a parameter which passed the tests -/
def CylTaken (i : PlaneI T) (a b h : T) (org dir : Vec3 T) (id : Nat) (r : PlaneI T × Bool) : Prop :=
  r.2 = true → ∃ t n, r = i.record n t dir id ∧ CylCase a b h org dir t

variable {i : PlaneI T} {a b h : T} {org dir : Vec3 T} {id : Nat}

theorem CylTaken.no : CylTaken i a b h org dir id (i, false) := fun h => absurd h (by simp)

theorem CylTaken.yes {n : Vec3 T} {t : T} (ht : CylCase a b h org dir t) : CylTaken i a b h org dir id (i.record n t dir id) :=
  fun _ => ⟨t, n, rfl, ht⟩

theorem CylTaken.ite {c : Bool} {x y : PlaneI T × Bool} (hx : c = true → CylTaken i a b h org dir id x)
    (hy : c = false → CylTaken i a b h org dir id y) : CylTaken i a b h org dir id (if c = true then x else y) := by
  cases c
  · rw [if_neg (by simp)]; exact hy rfl
  · rw [if_pos rfl]; exact hx rfl

theorem cylLateralOutside_taken (i : PlaneI T) (cy : Cylinder T) (org dir : Vec3 T) :
    CylTaken i cy.a cy.b cy.height org dir cy.primId (cylLateralOutside i cy org dir) := by
  unfold cylLateralOutside
  refine .ite (fun _ => .no) fun hC => ?_
  refine .ite (fun h1 => ?_) fun _ => .ite (fun h1 => ?_) fun _ => .no
  · simp only [Bool.and_eq_true] at h1
    exact .yes (.side hC (.inr rfl) h1.1.1 h1.2)
  · simp only [Bool.and_eq_true] at h1
    exact .yes (.side hC (.inl rfl) h1.1.1 h1.2)

theorem cylCapsInside_taken (i : PlaneI T) (cy : Cylinder T) (org dir : Vec3 T)
    (hy : ∀ t, CapParam cy.height org.z dir.z t → CylCase cy.a cy.b cy.height org dir t) :
    CylTaken i cy.a cy.b cy.height org dir cy.primId (cylCapsInside i cy org dir) := by
  unfold cylCapsInside
  exact .ite (fun h1 => .yes (hy _ (.inl ⟨h1, rfl⟩))) fun _ => .ite (fun h1 => .yes (hy _ (.inr ⟨h1, rfl⟩))) fun _ => .no

theorem cylInside_taken (i : PlaneI T) (cy : Cylinder T) (org dir : Vec3 T) (h1 : ge org.z (-cy.height / nat 2) = true)
    (h2 : le org.z (cy.height / nat 2) = true)
    (h3 : le (org.x * org.x * cy.b * cy.b + org.y * org.y * cy.a * cy.a) (cy.a * cy.a * cy.b * cy.b) = true) :
    CylTaken i cy.a cy.b cy.height org dir cy.primId (cylInside i cy org dir) := by
  unfold cylInside
  refine .ite (fun _ => .ite (fun _ => .no) fun _ => .ite (fun _ => .no) fun hC => .ite (fun h4 => ?_) fun _ => .ite (fun h4 => ?_) fun _ => .no)
    fun _ => .ite (fun h4 => .ite (fun _ => .no) fun _ => cylCapsInside_taken i cy org dir fun t ht => ?_)
      fun _ => .ite (fun _ => .no) fun hC => .ite (fun h4 => ?_) fun _ => .ite (fun h4 => ?_) fun h4 =>
        cylCapsInside_taken i cy org dir fun t ht => ?_
  · simp only [Bool.and_eq_true] at h4
    exact .yes (.side hC (.inr rfl) h4.1 h4.2)
  · simp only [Bool.and_eq_true] at h4
    exact .yes (.side hC (.inl rfl) h4.1 h4.2)
  · simp only [Bool.and_eq_true] at h4
    exact .inner h1 h2 h3 ht (.inl h4)
  · simp only [Bool.and_eq_true] at h4
    exact .yes (.side hC (.inr rfl) h4.1 h4.2)
  · simp only [Bool.and_eq_true] at h4
    exact .yes (.side hC (.inl rfl) h4.1 h4.2)
  · exact .inner h1 h2 h3 ht (.inr ⟨hC, h4⟩)

theorem cylIntersect_taken (i : PlaneI T) (cy : Cylinder T) (ray : Ray T) :
    CylTaken i cy.a cy.b cy.height (cy.rotation.trans.mulVec (i.rayOrg - cy.center)) (cy.rotation.trans.mulVec i.rayDir) cy.primId
      (cylIntersect i cy ray) := by
  unfold cylIntersect
  have h4 : CylTaken i cy.a cy.b cy.height (cy.rotation.trans.mulVec (i.rayOrg - cy.center)) (cy.rotation.trans.mulVec i.rayDir) cy.primId
      (if (ge (cy.rotation.trans.mulVec (i.rayOrg - cy.center)).z (-cy.height / nat 2) &&
          le (cy.rotation.trans.mulVec (i.rayOrg - cy.center)).z (cy.height / nat 2) &&
          le ((cy.rotation.trans.mulVec (i.rayOrg - cy.center)).x * (cy.rotation.trans.mulVec (i.rayOrg - cy.center)).x * cy.b * cy.b +
            (cy.rotation.trans.mulVec (i.rayOrg - cy.center)).y * (cy.rotation.trans.mulVec (i.rayOrg - cy.center)).y * cy.a * cy.a)
            (cy.a * cy.a * cy.b * cy.b)) = true then
        cylInside i cy (cy.rotation.trans.mulVec (i.rayOrg - cy.center)) (cy.rotation.trans.mulVec i.rayDir)
      else (i, false)) := by
    refine .ite (fun hc => ?_) fun _ => .no
    simp only [Bool.and_eq_true] at hc
    exact cylInside_taken i cy _ _ hc.1.1 hc.1.2 hc.2
  refine .ite (fun h1 => .ite (fun _ => ?_) fun _ => h4) fun _ => .ite (fun h1 => .ite (fun _ => ?_) fun _ => h4) fun _ =>
    .ite (fun h1 => .ite (fun _ => ?_) fun _ => h4) fun _ => h4
  · unfold cylAboveBelow
    exact .ite (fun _ => .no) fun h2 => .ite (fun _ => .no) fun h3 => .ite (fun h5 => .yes (.top h1 h2 rfl h3 h5)) fun _ =>
      cylLateralOutside_taken i cy _ _
  · unfold cylAboveBelow
    exact .ite (fun _ => .no) fun h2 => .ite (fun _ => .no) fun h3 => .ite (fun h5 => .yes (.bottom h1 h2 rfl h3 h5)) fun _ =>
      cylLateralOutside_taken i cy _ _
  · exact cylLateralOutside_taken i cy _ _

end
end Blazert
