/- Which normal the cylinder test records, with which parameter. -/
import Verif.Proofs.CylTaken

set_option autoImplicit false

namespace Blazert
open Scalar

section
variable {T : Type} [Scalar T]

/-- the tests which precede a hit on the lateral surface -/
structure SideTests (a b h : T) (org dir : Vec3 T) (t : T) : Prop where
  h1 : lt (cylABC a b org dir).2.2 (nat 0) = false
  h2 : t = cylT0 a b (cylABC a b org dir).1 (cylABC a b org dir).2.1 (cylABC a b org dir).2.2 ∨
    t = cylT1 a b (cylABC a b org dir).1 (cylABC a b org dir).2.1 (cylABC a b org dir).2.2
  h3 : gt t (nat 0) = true
  h4 : cylInZ h (org + Vec3.muls dir t).z = true

/-- the tests whether the origin is in the solid -/
structure InnerTests (a b h : T) (org : Vec3 T) : Prop where
  h1 : ge org.z (-h / nat 2) = true
  h2 : le org.z (h / nat 2) = true
  h3 : le (org.x * org.x * b * b + org.y * org.y * a * a) (a * a * b * b) = true

/-- the normal recorded, and what it goes with -/
inductive CylFace (rot : Mat3 T) (a b h : T) (org dir : Vec3 T) (t : T) (n : Vec3 T) : Prop
  | top (h1 : t = (h / nat 2 - org.z) / dir.z) (h2 : eq dir.z (nat 0) = false ∨ gt dir.z (nat 0) = true)
      (h3 : n = cylNg rot ⟨nat 0, nat 0, nat 1⟩)
  | bottom (h1 : t = (-h / nat 2 - org.z) / dir.z) (h2 : eq dir.z (nat 0) = false ∨ lt dir.z (nat 0) = true)
      (h3 : n = cylNg rot ⟨nat 0, nat 0, -nat 1⟩)
  | side (h1 : SideTests a b h org dir t) (h2 : n = cylNg rot (cylNormal a b (org + Vec3.muls dir t)))
  | bare (h1 : SideTests a b h org dir t) (h2 : InnerTests a b h org) (h3 : n = cylNormal a b (org + Vec3.muls dir t))

/-- a recorded hit comes with a parameter that passed the tests and the normal of that branch -/
def CylFaced (i : PlaneI T) (rot : Mat3 T) (a b h : T) (org dir : Vec3 T) (id : Nat) (r : PlaneI T × Bool) : Prop :=
  r.2 = true → ∃ t n, r = i.record n t dir id ∧ CylCase a b h org dir t ∧ CylFace rot a b h org dir t n

variable {i : PlaneI T} {rot : Mat3 T} {a b h : T} {org dir : Vec3 T} {id : Nat}

theorem CylFaced.no : CylFaced i rot a b h org dir id (i, false) := fun h => absurd h (by simp)

theorem CylFaced.yes {n : Vec3 T} {t : T} (ht : CylCase a b h org dir t) (hn : CylFace rot a b h org dir t n) :
    CylFaced i rot a b h org dir id (i.record n t dir id) :=
  fun _ => ⟨t, n, rfl, ht, hn⟩

theorem CylFaced.side {n : Vec3 T} {t : T} (ht : SideTests a b h org dir t) (hn : n = cylNg rot (cylNormal a b (org + Vec3.muls dir t))) :
    CylFaced i rot a b h org dir id (i.record n t dir id) :=
  .yes (.side ht.h1 ht.h2 ht.h3 ht.h4) (.side ht hn)

theorem CylFaced.ite {c : Bool} {x y : PlaneI T × Bool} (hx : c = true → CylFaced i rot a b h org dir id x)
    (hy : c = false → CylFaced i rot a b h org dir id y) : CylFaced i rot a b h org dir id (if c = true then x else y) := by
  cases c
  · rw [if_neg (by simp)]; exact hy rfl
  · rw [if_pos rfl]; exact hx rfl

theorem cylLateralOutside_faced (i : PlaneI T) (cy : Cylinder T) (org dir : Vec3 T) :
    CylFaced i cy.rotation cy.a cy.b cy.height org dir cy.primId (cylLateralOutside i cy org dir) := by
  unfold cylLateralOutside
  refine .ite (fun _ => .no) fun hC => ?_
  refine .ite (fun h1 => ?_) fun _ => .ite (fun h1 => ?_) fun _ => .no
  · simp only [Bool.and_eq_true] at h1
    exact .side ⟨hC, .inr rfl, h1.1.1, h1.2⟩ rfl
  · simp only [Bool.and_eq_true] at h1
    exact .side ⟨hC, .inl rfl, h1.1.1, h1.2⟩ rfl

theorem cylCapsInside_faced (i : PlaneI T) (cy : Cylinder T) (org dir : Vec3 T)
    (hy : ∀ t, CapParam cy.height org.z dir.z t → CylCase cy.a cy.b cy.height org dir t) :
    CylFaced i cy.rotation cy.a cy.b cy.height org dir cy.primId (cylCapsInside i cy org dir) := by
  unfold cylCapsInside
  exact .ite (fun h1 => .yes (hy _ (.inl ⟨h1, rfl⟩)) (.bottom rfl (.inr h1) rfl)) fun _ =>
    .ite (fun h1 => .yes (hy _ (.inr ⟨h1, rfl⟩)) (.top rfl (.inr h1) rfl)) fun _ => .no

theorem cylInside_faced (i : PlaneI T) (cy : Cylinder T) (org dir : Vec3 T) (hin : InnerTests cy.a cy.b cy.height org) :
    CylFaced i cy.rotation cy.a cy.b cy.height org dir cy.primId (cylInside i cy org dir) := by
  unfold cylInside
  refine .ite (fun _ => .ite (fun _ => .no) fun _ => .ite (fun _ => .no) fun hC => .ite (fun h4 => ?_) fun _ => .ite (fun h4 => ?_) fun _ => .no)
    fun _ => .ite (fun h4 => .ite (fun _ => .no) fun _ => cylCapsInside_faced i cy org dir fun t ht => ?_)
      fun _ => .ite (fun _ => .no) fun hC => .ite (fun h4 => ?_) fun _ => .ite (fun h4 => ?_) fun h4 =>
        cylCapsInside_faced i cy org dir fun t ht => ?_
  · simp only [Bool.and_eq_true] at h4
    exact .side ⟨hC, .inr rfl, h4.1, h4.2⟩ rfl
  · simp only [Bool.and_eq_true] at h4
    exact .side ⟨hC, .inl rfl, h4.1, h4.2⟩ rfl
  · simp only [Bool.and_eq_true] at h4
    exact .inner hin.h1 hin.h2 hin.h3 ht (.inl h4)
  · simp only [Bool.and_eq_true] at h4
    exact .side ⟨hC, .inr rfl, h4.1, h4.2⟩ rfl
  · simp only [Bool.and_eq_true] at h4
    exact .yes (.side hC (.inl rfl) h4.1 h4.2) (.bare ⟨hC, .inl rfl, h4.1, h4.2⟩ hin rfl)
  · exact .inner hin.h1 hin.h2 hin.h3 ht (.inr ⟨hC, h4⟩)

theorem cylIntersect_faced (i : PlaneI T) (cy : Cylinder T) (ray : Ray T) :
    CylFaced i cy.rotation cy.a cy.b cy.height (cy.rotation.trans.mulVec (i.rayOrg - cy.center)) (cy.rotation.trans.mulVec i.rayDir)
      cy.primId (cylIntersect i cy ray) := by
  unfold cylIntersect
  have h4 : CylFaced i cy.rotation cy.a cy.b cy.height (cy.rotation.trans.mulVec (i.rayOrg - cy.center))
      (cy.rotation.trans.mulVec i.rayDir) cy.primId
      (if (ge (cy.rotation.trans.mulVec (i.rayOrg - cy.center)).z (-cy.height / nat 2) &&
          le (cy.rotation.trans.mulVec (i.rayOrg - cy.center)).z (cy.height / nat 2) &&
          le ((cy.rotation.trans.mulVec (i.rayOrg - cy.center)).x * (cy.rotation.trans.mulVec (i.rayOrg - cy.center)).x * cy.b * cy.b +
            (cy.rotation.trans.mulVec (i.rayOrg - cy.center)).y * (cy.rotation.trans.mulVec (i.rayOrg - cy.center)).y * cy.a * cy.a)
            (cy.a * cy.a * cy.b * cy.b)) = true then
        cylInside i cy (cy.rotation.trans.mulVec (i.rayOrg - cy.center)) (cy.rotation.trans.mulVec i.rayDir)
      else (i, false)) := by
    refine .ite (fun hc => ?_) fun _ => .no
    simp only [Bool.and_eq_true] at hc
    exact cylInside_faced i cy _ _ ⟨hc.1.1, hc.1.2, hc.2⟩
  refine .ite (fun h1 => .ite (fun _ => ?_) fun _ => h4) fun _ => .ite (fun h1 => .ite (fun _ => ?_) fun _ => h4) fun _ =>
    .ite (fun h1 => .ite (fun _ => ?_) fun _ => h4) fun _ => h4
  · unfold cylAboveBelow
    exact .ite (fun _ => .no) fun h2 => .ite (fun _ => .no) fun h3 =>
      .ite (fun h5 => .yes (.top h1 h2 rfl h3 h5) (.top rfl (.inl h2) rfl)) fun _ => cylLateralOutside_faced i cy _ _
  · unfold cylAboveBelow
    exact .ite (fun _ => .no) fun h2 => .ite (fun _ => .no) fun h3 =>
      .ite (fun h5 => .yes (.bottom h1 h2 rfl h3 h5) (.bottom rfl (.inl h2) rfl)) fun _ => cylLateralOutside_faced i cy _ _
  · exact cylLateralOutside_faced i cy _ _

end
end Blazert
