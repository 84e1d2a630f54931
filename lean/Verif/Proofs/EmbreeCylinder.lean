/- The Embree callbacks of cylinders. -/
import Verif.Proofs.Embree
import Verif.Proofs.CylinderBox

set_option autoImplicit false
set_option linter.unusedSectionVars false

namespace Blazert
open Scalar

section
variable {T : Type} [Scalar T]

/-- the callback does what the native test does, possibly with another normal -/
structure CylAgree (rh : RtcRayHit T) (g : Nat) (i : PlaneI T) (a : PlaneI T × Bool) (b : RtcRayHit T) : Prop where
  miss : a.2 = false → b = rh ∧ a.1 = i
  hit : a.2 = true → ∃ n, Records rh b g a.1.hd n

/-- with the same normal, too -/
structure CylAgreeN (rh : RtcRayHit T) (g : Nat) (i : PlaneI T) (a : PlaneI T × Bool) (b : RtcRayHit T) : Prop where
  miss : a.2 = false → b = rh ∧ a.1 = i
  hit : a.2 = true → Records rh b g a.1.hd a.1.normal

theorem CylAgreeN.agree {rh : RtcRayHit T} {g : Nat} {i : PlaneI T} {a : PlaneI T × Bool} {b : RtcRayHit T}
    (h : CylAgreeN rh g i a b) : CylAgree rh g i a b := ⟨h.miss, fun hh => ⟨_, h.hit hh⟩⟩

variable {rh : RtcRayHit T} {g : Nat} {i : PlaneI T} {a a' : PlaneI T × Bool} {b b' : RtcRayHit T}

theorem CylAgree.refl : CylAgree rh g i (i, false) rh := ⟨fun _ => ⟨rfl, rfl⟩, fun h => (by cases h)⟩
theorem CylAgreeN.refl : CylAgreeN rh g i (i, false) rh := ⟨fun _ => ⟨rfl, rfl⟩, fun h => (by cases h)⟩

theorem CylAgree.ite {c c' : Bool} (hc : c = c') (h : CylAgree rh g i a b) (h' : CylAgree rh g i a' b') :
    CylAgree rh g i (if c then a else a') (if c' then b else b') := by subst hc; cases c <;> assumption
theorem CylAgreeN.ite {c c' : Bool} (hc : c = c') (h : CylAgreeN rh g i a b) (h' : CylAgreeN rh g i a' b') :
    CylAgreeN rh g i (if c then a else a') (if c' then b else b') := by subst hc; cases c <;> assumption

theorem CylAgree.set (c : EmbCyl T) (inst : Nat) (N n : Vec3 T) (t : T) (dir : Vec3 T) (k : Nat) :
    CylAgree rh c.geomID i (i.record N t dir k) (c.setAt inst rh n t dir) :=
  ⟨fun h => (by cases h), fun _ => ⟨_, ⟨rfl, rfl, rfl, rfl⟩⟩⟩
theorem CylAgreeN.set (c : EmbCyl T) (inst : Nat) (n : Vec3 T) (t : T) (dir : Vec3 T) (k : Nat) :
    CylAgreeN rh c.geomID i (i.record (cylNg c.rot n) t dir k) (c.setAt inst rh n t dir) :=
  ⟨fun h => (by cases h), fun _ => ⟨rfl, rfl, rfl, rfl⟩⟩

/-- the occlusion callback says `o` and the intersection callback makes `b` of `rh` -/
def OccAgree (rh : RtcRayHit T) (g : Nat) (o : Bool) (b : RtcRayHit T) : Prop :=
  (b = rh ∧ o = false) ∨ (∃ t n, Records rh b g t n) ∧ o = true

theorem OccAgree.set (c : EmbCyl T) (inst : Nat) (n : Vec3 T) (t : T) (dir : Vec3 T) :
    OccAgree rh c.geomID true (c.setAt inst rh n t dir) := .inr ⟨⟨_, _, ⟨rfl, rfl, rfl, rfl⟩⟩, rfl⟩

theorem OccAgree.refl : OccAgree rh g false rh := .inl ⟨rfl, rfl⟩

theorem OccAgree.ite {c o o' : Bool} (h : OccAgree rh g o b) (h' : OccAgree rh g o' b') :
    OccAgree rh g (if c then o else o') (if c then b else b') := by cases c <;> assumption

/-- the lateral test of areas 1 and 2, in any arithmetic -/
theorem EmbCyl.lateral_occluded (c : EmbCyl T) (inst : Nat) (swap : Bool) (org dir : Vec3 T) :
    OccAgree rh c.geomID (c.lateralOccluded org dir) (c.lateral inst (-c.height / nat 2) swap org dir rh) := by
  unfold EmbCyl.lateralOccluded EmbCyl.lateral
  extract_lets a b hh
  generalize cylABC a b org dir = x
  obtain ⟨A, B, C⟩ := x
  refine .ite .refl ?_
  simp only
  generalize (gt (cylT1 a b A B C) (nat 0) && lt (cylT1 a b A B C) (cylT0 a b A B C) &&
    le (org + Vec3.muls dir (cylT1 a b A B C)).z (hh / nat 2) && ge (org + Vec3.muls dir (cylT1 a b A B C)).z (-hh / nat 2)) = c1
  have e : -c.height / nat 2 = -hh / nat 2 := rfl
  rw [e]
  generalize (gt (cylT0 a b A B C) (nat 0) && lt (cylT0 a b A B C) (cylT1 a b A B C) &&
    le (org + Vec3.muls dir (cylT0 a b A B C)).z (hh / nat 2) && ge (org + Vec3.muls dir (cylT0 a b A B C)).z (-hh / nat 2)) = c2
  cases c1 <;> cases c2
  · exact .refl
  · exact .set ..
  · exact .set ..
  · exact .inr ⟨⟨_, _, ⟨rfl, rfl, rfl, rfl⟩⟩, rfl⟩

theorem EmbCyl.aboveBelow_occluded (c : EmbCyl T) (inst : Nat) (cap nz : T) (swap : Bool) (org dir : Vec3 T) :
    OccAgree rh c.geomID (c.aboveBelowOccluded cap org dir) (c.aboveBelow inst cap nz swap org dir rh) := by
  unfold EmbCyl.aboveBelowOccluded EmbCyl.aboveBelow
  exact .ite .refl (.ite .refl (.ite (.set ..) (c.lateral_occluded inst swap org dir)))

end

section
variable {F : Fmt ℝ}

theorem EmbCyl.For.native {y : EmbCyl (XF F)} {c : Vec3 ℝ} {a b h : ℝ} {R : Mat3 ℝ} (H : y.For c a b h R) : y.native.For c a b h R :=
  ⟨H.center, H.isA, H.isB, H.height, H.rot⟩

theorem EmbCyl.For.test {y : EmbCyl (XF F)} {c : Vec3 ℝ} {a b h : ℝ} {R : Mat3 ℝ} (H : y.For c a b h R) {r : RtcRay (XF F)} {o u : Vec3 ℝ}
    {m M : ℝ} (hr : r.For o u m M) : CylTest r.planeI y.native c a b h R o u :=
  ⟨H.center, H.isA, H.isB, H.height, H.rot, H.a_pos, H.b_pos, H.h_pos, H.orth, hr.org, hr.dir, hr.unit⟩

variable (hF : F.Exact) (i : PlaneI (XF F)) (y : EmbCyl (XF F)) (inst : Nat) (rh : RtcRayHit (XF F)) {c : Vec3 ℝ} {a b h : ℝ} {R : Mat3 ℝ}
  (hy : y.For c a b h R) {xg xe : Vec3 (XF F)} {g e : Vec3 ℝ} (ig : IsV xg g) (ie : IsV xe e) (he : sq e = 1)
include hF hy ig ie

/-- the roots are in order, or both are NaN -/
theorem EmbCyl.roots : let x := cylABC y.a y.b xg xe
    lt x.2.2 (nat 0) = false →
    lt (cylT0 y.a y.b x.1 x.2.1 x.2.2) (cylT1 y.a y.b x.1 x.2.1 x.2.2) = false ∧
    (cylE a b g e 0 ≤ 0 → gt (cylT1 y.a y.b x.1 x.2.1 x.2.2) (nat 0) = false) ∧
    (cylE a b g e 0 < 0 → le (cylT0 y.a y.b x.1 x.2.1 x.2.2) (nat 0) = false) := by
  intro x hC
  obtain ⟨iA, iB, iC⟩ := cylABC_is hF hy.isA hy.isB ig ie
  have i0 := XF.Is.zero hF (F := F)
  have hC : 0 ≤ latC a b g e := by
    by_contra hn
    have := (iC.lt i0).2 (not_le.1 hn)
    exact absurd this (by rw [hC]; simp)
  by_cases hxy : e.x = 0 ∧ e.y = 0
  · have hA0 : latA a b e = 0 := by unfold latA; rw [hxy.1, hxy.2]; ring
    have hB0 : latB a b g e = 0 := by unfold latB; rw [hxy.1, hxy.2]; ring
    have hC0 : latC a b g e = 0 := by unfold latC; rw [hxy.1, hxy.2]; ring
    rw [hA0] at iA; rw [hB0] at iB; rw [hC0] at iC
    obtain ⟨n0, n1⟩ := cylT_nan hF hy.isA hy.isB iA iB iC
    rw [n0, n1]
    obtain ⟨s, h0⟩ := i0
    rw [h0]
    exact ⟨rfl, fun _ => rfl, fun _ => rfl⟩
  · have hA : 0 < latA a b e := latA_pos hy.a_pos hy.b_pos (by tauto)
    obtain ⟨k0, k1⟩ := cylT_is hF hy.isA hy.isB iA iB iC hA hC
    have hle := latT1_le (g := g) hy.a_pos hy.b_pos hA
    have hfac := cylE_factor hA hC 0
    refine ⟨?_, fun h0 => ?_, fun h0 => ?_⟩
    · rw [Bool.eq_false_iff, ne_eq, k0.lt k1]; linarith
    · rw [Bool.eq_false_iff, ne_eq, k1.gt i0]
      intro hpos
      have : 0 < latA a b e * (0 - latT0 a b g e) * (0 - latT1 a b g e) :=
        mul_pos_of_neg_of_neg (mul_neg_of_pos_of_neg hA (by linarith)) (by linarith)
      linarith
    · rw [Bool.eq_false_iff, ne_eq, k0.le i0]
      intro hpos
      have := (cylE_neg_iff hy.a_pos hy.b_pos hA hC 0).1 h0
      linarith

theorem EmbCyl.lateral_agree (zlow : XF F) (swap : Bool) :
    CylAgreeN rh y.geomID i (cylLateralOutside i y.native xg xe) (y.lateral inst zlow swap xg xe rh) := by
  have hroots := EmbCyl.roots hF y hy ig ie
  unfold EmbCyl.lateral cylLateralOutside
  simp only [show y.native.a = y.a from rfl, show y.native.b = y.b from rfl, show y.native.height = y.height from rfl]
  generalize cylABC y.a y.b xg xe = x at hroots ⊢
  obtain ⟨A, B, C⟩ := x
  simp only at hroots ⊢
  cases hC : lt C (nat 0) with
  | true => simp only [if_true]; exact .refl
  | false =>
    obtain ⟨hlt, -, -⟩ := hroots hC
    simp only [Bool.false_eq_true, if_false, hlt, Bool.and_false, Bool.false_and]
    exact .ite (by simp [cylInZ, Bool.and_assoc]) (.set ..) .refl

theorem EmbCyl.aboveBelow_agree (cap nz : XF F) (swap : Bool) :
    CylAgreeN rh y.geomID i (cylAboveBelow i y.native xg xe cap nz) (y.aboveBelow inst cap nz swap xg xe rh) := by
  unfold EmbCyl.aboveBelow cylAboveBelow
  exact .ite rfl .refl (.ite rfl .refl (.ite rfl (.set ..) (EmbCyl.lateral_agree hF i y inst rh hy ig ie _ _)))

theorem EmbCyl.caps_agree : CylAgreeN rh y.geomID i (cylCapsInside i y.native xg xe) (y.caps inst xg xe rh) := by
  have i0 := XF.Is.zero hF (F := F)
  unfold EmbCyl.caps cylCapsInside
  extract_lets hh h2 rh'
  by_cases hlt : lt xe.z (nat 0) = true
  · have hgt : gt xe.z (nat 0) = false := by
      rw [Bool.eq_false_iff, ne_eq, ie.2.2.gt i0]
      have := (ie.2.2.lt i0).1 hlt
      linarith
    have e1 : rh' = y.setAt inst rh ⟨nat 0, nat 0, -nat 1⟩ ((-h2 / nat 2 - xg.z) / xe.z) xe := if_pos hlt
    rw [if_pos hlt, hgt, e1]
    simp only [Bool.false_eq_true, if_false]
    exact .set ..
  · have e1 : rh' = rh := if_neg hlt
    rw [if_neg hlt, e1]
    exact .ite rfl (.set ..) .refl

theorem EmbCyl.inside_agree (h0 : cylE a b g e 0 ≤ 0) :
    CylAgree rh y.geomID i (cylInside i y.native xg xe) (y.inside inst xg xe rh) := by
  have hroots := EmbCyl.roots hF y hy ig ie
  have hcaps := EmbCyl.caps_agree hF i y inst rh hy ig ie
  unfold EmbCyl.inside cylInside
  simp only [show y.native.a = y.a from rfl, show y.native.b = y.b from rfl, show y.native.height = y.height from rfl]
  generalize cylABC y.a y.b xg xe = x at hroots ⊢
  obtain ⟨A, B, C⟩ := x
  simp only at hroots ⊢
  refine .ite rfl (.ite rfl .refl ?_) (.ite rfl (.ite rfl .refl hcaps.agree) ?_)
  · cases hC : lt C (nat 0) with
    | true => simp only [if_true]; exact .refl
    | false =>
      obtain ⟨-, h1, -⟩ := hroots hC
      simp only [Bool.false_eq_true, if_false, h1 h0, Bool.false_and]
      exact .ite (by simp [cylInZ, Bool.and_assoc]) (.set ..) .refl
  · cases hC : lt C (nat 0) with
    | true => simp only [if_true]; exact .refl
    | false =>
      obtain ⟨-, h1, -⟩ := hroots hC
      simp only [Bool.false_eq_true, if_false, h1 h0, Bool.false_and]
      exact .ite (by simp [cylInZ, Bool.and_assoc]) (.set ..) hcaps.agree

end

section
variable {F : Fmt ℝ} (hF : F.Exact) (y : EmbCyl (XF F)) (inst : Nat) {rh : RtcRayHit (XF F)} {c : Vec3 ℝ} {a b h : ℝ} {R : Mat3 ℝ}
  (hy : y.For c a b h R) {o u : Vec3 ℝ} {m M : ℝ} (hr : rh.ray.For o u m M)
include hF hy hr

/-- which branch is taken: above or below; between the caps and outside; in the solid; outside in the plane of a cap -/
theorem EmbCyl.intersect_branches (ray : Ray (XF F)) :
    let g := R.trans.mulVec (o - c)
    let e := R.trans.mulVec u
    let xg := y.rot.trans.mulVec (rh.ray.org - y.center)
    let xe := y.rot.trans.mulVec rh.ray.dir
    (h / 2 < g.z ∧ y.intersect inst rh = y.aboveBelow inst (y.height / nat 2) (nat 1) false xg xe rh ∧
      cylIntersect rh.ray.planeI y.native ray = cylAboveBelow rh.ray.planeI y.native xg xe (y.height / nat 2) (nat 1) ∧
      y.isOccluded rh.ray.org rh.ray.dir = y.aboveBelowOccluded (y.height / nat 2) xg xe) ∨
    (g.z < -(h / 2) ∧ y.intersect inst rh = y.aboveBelow inst (-y.height / nat 2) (-nat 1) true xg xe rh ∧
      cylIntersect rh.ray.planeI y.native ray = cylAboveBelow rh.ray.planeI y.native xg xe (-y.height / nat 2) (-nat 1) ∧
      y.isOccluded rh.ray.org rh.ray.dir = y.aboveBelowOccluded (-y.height / nat 2) xg xe) ∨
    (-(h / 2) < g.z ∧ g.z < h / 2 ∧ 0 < cylE a b g e 0 ∧ y.intersect inst rh = y.lateral inst (-y.height / nat 20) false xg xe rh ∧
      cylIntersect rh.ray.planeI y.native ray = cylLateralOutside rh.ray.planeI y.native xg xe ∧
      y.isOccluded rh.ray.org rh.ray.dir = y.sideOccluded xg xe) ∨
    (-(h / 2) ≤ g.z ∧ g.z ≤ h / 2 ∧ cylE a b g e 0 ≤ 0 ∧ y.intersect inst rh = y.inside inst xg xe rh ∧
      cylIntersect rh.ray.planeI y.native ray = cylInside rh.ray.planeI y.native xg xe ∧
      y.isOccluded rh.ray.org rh.ray.dir = y.insideOccluded xg xe) ∨
    ((g.z = h / 2 ∨ g.z = -(h / 2)) ∧ 0 < cylE a b g e 0 ∧ y.intersect inst rh = rh ∧
      cylIntersect rh.ray.planeI y.native ray = (rh.ray.planeI, false) ∧ y.isOccluded rh.ray.org rh.ray.dir = false) := by
  intro g e xg xe
  have h2 := two_is hF (F := F)
  have ig : IsV xg g := hy.rot.trans.mulVec hF (hr.org.sub hF hy.center)
  have ie : IsV xe e := hy.rot.trans.mulVec hF hr.dir
  have hh := hy.h_pos
  have hb1 := hy.height.neg.div hF h2 two_ne_zero
  have hb2 := hy.height.div hF h2 two_ne_zero
  rw [neg_div] at hb1
  have lhs := (((ig.1.mul hF ig.1).mul hF hy.isB).mul hF hy.isB).add hF (((ig.2.1.mul hF ig.2.1).mul hF hy.isA).mul hF hy.isA)
  have rhs := ((hy.isA.mul hF hy.isA).mul hF hy.isB).mul hF hy.isB
  have hE := cylE_zero_eq a b g e
  have wrap : ∀ r : PlaneI (XF F) × Bool, (r.2 = false → r.1 = rh.ray.planeI) → (if r.2 = true then r else (rh.ray.planeI, false)) = r := by
    rintro ⟨r1, r2⟩ hm
    cases r2
    · rw [show r1 = rh.ray.planeI from hm rfl]; rfl
    · rfl
  have e1 := EmbCyl.aboveBelow_agree hF rh.ray.planeI y inst rh hy ig ie
  have e2 := EmbCyl.lateral_agree hF rh.ray.planeI y inst rh hy ig ie (-y.height / nat 20) false
  unfold EmbCyl.intersect cylIntersect EmbCyl.isOccluded
  simp only [show y.native.a = y.a from rfl, show y.native.b = y.b from rfl, show y.native.height = y.height from rfl,
    show y.native.rotation = y.rot from rfl, show y.native.center = y.center from rfl, show rh.ray.planeI.rayOrg = rh.ray.org from rfl,
    show rh.ray.planeI.rayDir = rh.ray.dir from rfl]
  change (h / 2 < g.z ∧ _) ∨ (g.z < -(h / 2) ∧ _) ∨ _
  have c1 : gt xg.z (y.height / nat 2) = true ↔ h / 2 < g.z := ig.2.2.gt hb2
  have c2 : lt xg.z (-y.height / nat 2) = true ↔ g.z < -(h / 2) := ig.2.2.lt hb1
  have c3 : ge xg.z (-y.height / nat 2) = true ↔ -(h / 2) ≤ g.z := ig.2.2.ge hb1
  have c4 : le xg.z (y.height / nat 2) = true ↔ g.z ≤ h / 2 := ig.2.2.le hb2
  have c5 : gt xg.z (-y.height / nat 2) = true ↔ -(h / 2) < g.z := ig.2.2.gt hb1
  have c6 : lt xg.z (y.height / nat 2) = true ↔ g.z < h / 2 := ig.2.2.lt hb2
  have c7 : gt (xg.x * xg.x * y.b * y.b + xg.y * xg.y * y.a * y.a) (y.a * y.a * y.b * y.b) = true ↔ 0 < cylE a b g e 0 := by
    rw [lhs.gt rhs, hE]; constructor <;> intro <;> linarith
  have c8 : le (xg.x * xg.x * y.b * y.b + xg.y * xg.y * y.a * y.a) (y.a * y.a * y.b * y.b) = true ↔ cylE a b g e 0 ≤ 0 := by
    rw [lhs.le rhs, hE]; constructor <;> intro <;> linarith
  have c0 : ∀ {x : Bool} {p : Prop}, (x = true ↔ p) → ¬ p → x = false := fun h hn => by
    rw [Bool.eq_false_iff]; exact fun hc => hn (h.1 hc)
  rcases lt_or_ge (h / 2) g.z with hz | hz
  · have d4 := c0 c4 (not_le.2 hz)
    simp only [show y.rot.trans.mulVec (rh.ray.org - y.center) = xg from rfl, show y.rot.trans.mulVec rh.ray.dir = xe from rfl,
      c1.2 hz, d4, if_true, Bool.and_false, Bool.false_and, Bool.false_eq_true, if_false]
    exact .inl ⟨hz, trivial, wrap _ fun hm => ((e1 _ _ false).miss hm).2, trivial⟩
  right
  rcases lt_or_ge g.z (-(h / 2)) with hz' | hz'
  · have d1 := c0 c1 (not_lt.2 hz)
    have d3 := c0 c3 (not_le.2 hz')
    simp only [show y.rot.trans.mulVec (rh.ray.org - y.center) = xg from rfl, show y.rot.trans.mulVec rh.ray.dir = xe from rfl,
      d1, d3, c2.2 hz', if_true, Bool.and_false, Bool.false_and, Bool.false_eq_true, if_false]
    exact .inl ⟨hz', trivial, wrap _ fun hm => ((e1 _ _ false).miss hm).2, trivial⟩
  right
  have d1 := c0 c1 (not_lt.2 hz)
  have d2 := c0 c2 (not_lt.2 hz')
  rcases le_or_gt (cylE a b g e 0) 0 with hc | hc
  · right; left
    have d7 := c0 c7 (not_lt.2 hc)
    simp only [show y.rot.trans.mulVec (rh.ray.org - y.center) = xg from rfl, show y.rot.trans.mulVec rh.ray.dir = xe from rfl,
      d1, d2, c3.2 hz', c4.2 hz, d7, c8.2 hc, if_true, Bool.and_false, Bool.false_and, Bool.false_eq_true, if_false, Bool.and_true,
      Bool.true_and, Bool.false_or]
    exact ⟨hz', hz, hc, trivial, trivial, trivial⟩
  have d8 := c0 c8 (not_le.2 hc)
  by_cases hcap : g.z = h / 2 ∨ g.z = -(h / 2)
  · right; right
    have d56 : (gt xg.z (-y.height / nat 2) && lt xg.z (y.height / nat 2)) = false := by
      rw [Bool.eq_false_iff, ne_eq, Bool.and_eq_true, c5, c6]
      rintro ⟨k1, k2⟩
      rcases hcap with k | k <;> linarith
    simp only [show y.rot.trans.mulVec (rh.ray.org - y.center) = xg from rfl, show y.rot.trans.mulVec rh.ray.dir = xe from rfl,
      d1, d2, d8, d56, Bool.and_false, Bool.false_and, Bool.false_eq_true, if_false, Bool.false_or]
    exact ⟨hcap, hc, trivial, trivial, trivial⟩
  · left
    push Not at hcap
    have z1 := lt_of_le_of_ne hz hcap.1
    have z2 := lt_of_le_of_ne hz' (Ne.symm hcap.2)
    simp only [show y.rot.trans.mulVec (rh.ray.org - y.center) = xg from rfl, show y.rot.trans.mulVec rh.ray.dir = xe from rfl,
      d1, d2, d8, c5.2 z2, c6.2 z1, c7.2 hc, if_true, Bool.and_false, Bool.false_and, Bool.false_eq_true, if_false, Bool.true_and,
      Bool.or_false]
    exact ⟨z2, z1, hc, trivial, wrap _ fun hm => (e2.miss hm).2, trivial⟩

/-- the callback agrees with the native test -/
theorem EmbCyl.agree (ray : Ray (XF F)) :
    CylAgree rh y.geomID rh.ray.planeI (cylIntersect rh.ray.planeI y.native ray) (y.intersect inst rh) := by
  have ig := hy.rot.trans.mulVec hF (hr.org.sub hF hy.center)
  have ie := hy.rot.trans.mulVec hF hr.dir
  rcases EmbCyl.intersect_branches hF y inst hy hr ray with ⟨_, h1, h2, _⟩ | ⟨_, h1, h2, _⟩ | ⟨_, _, _, h1, h2, _⟩ | ⟨_, _, h0, h1, h2, _⟩ |
    ⟨_, _, h1, h2, _⟩ <;> rw [h1, h2]
  · exact (EmbCyl.aboveBelow_agree hF _ y inst rh hy ig ie _ _ _).agree
  · exact (EmbCyl.aboveBelow_agree hF _ y inst rh hy ig ie _ _ _).agree
  · exact (EmbCyl.lateral_agree hF _ y inst rh hy ig ie _ _).agree
  · exact EmbCyl.inside_agree hF _ y inst rh hy ig ie h0
  · exact .refl

/-- with the same normal if the origin is not in the solid -/
theorem EmbCyl.agree_outside (ray : Ray (XF F)) (h0 : ¬ InCyl c a b h R o) :
    CylAgreeN rh y.geomID rh.ray.planeI (cylIntersect rh.ray.planeI y.native ray) (y.intersect inst rh) := by
  have ig := hy.rot.trans.mulVec hF (hr.org.sub hF hy.center)
  have ie := hy.rot.trans.mulVec hF hr.dir
  rcases EmbCyl.intersect_branches hF y inst hy hr ray with ⟨_, h1, h2, _⟩ | ⟨_, h1, h2, _⟩ | ⟨_, _, _, h1, h2, _⟩ | ⟨z1, z2, hE, h1, h2, _⟩ |
    ⟨_, _, h1, h2, _⟩
  · rw [h1, h2]; exact EmbCyl.aboveBelow_agree hF _ y inst rh hy ig ie _ _ _
  · rw [h1, h2]; exact EmbCyl.aboveBelow_agree hF _ y inst rh hy ig ie _ _ _
  · rw [h1, h2]; exact EmbCyl.lateral_agree hF _ y inst rh hy ig ie _ _
  · refine absurd ?_ h0
    rw [← along_zero o u, inCyl_along hy.orth hy.a_pos hy.b_pos]
    exact ⟨hE, by simpa using z1, by simpa using z2⟩
  · rw [h1, h2]; exact .refl

end

/-! ### normals from inside -/

section
variable {F : Fmt ℝ} (hF : F.Exact) (y : EmbCyl (XF F)) (inst : Nat) (rh : RtcRayHit (XF F)) {c : Vec3 ℝ} {a b h : ℝ} {R : Mat3 ℝ}
  (hy : y.For c a b h R) {xg xe : Vec3 (XF F)} {g e : Vec3 ℝ} (ig : IsV xg g) (ie : IsV xe e) (he : sq e = 1)

/-- a hit with the right normal was recorded -/
def NormalOk (rh : RtcRayHit (XF F)) (id : Nat) (a b h : ℝ) (R : Mat3 ℝ) (g e : Vec3 ℝ) (r : RtcRayHit (XF F)) : Prop :=
  ∃ t x n n', x.Is t ∧ Records rh r id x n ∧ IsV n (R.mulVec n') ∧ LNormal a b h g e t n'

include hF hy ig ie he

theorem EmbCyl.caps_normal (hl : e.z ≠ 0) (h0 : -(h / 2) ≤ g.z) (h1 : g.z ≤ h / 2) :
    NormalOk rh y.geomID a b h R g e (y.caps inst xg xe rh) := by
  obtain ⟨c1, c2, n, hd, c3, c4, hr⟩ := cylCapsInside_record hF rh.ray.planeI y.native hy.native ig ie he hl h0 h1
  have hag := EmbCyl.caps_agree hF rh.ray.planeI y inst rh hy ig ie
  rw [hr] at hag
  refine ⟨_, hd, n, _, c4, hag.hit rfl, c3, .inr ?_⟩
  rw [c2]
  split <;> simp

theorem EmbCyl.set_normal {x : XF F} {t : ℝ} (hx : x.Is t) (ht : 0 ≤ t) (hE : cylE a b g e t = 0) :
    NormalOk rh y.geomID a b h R g e (y.setAt inst rh (cylNormal y.a y.b (xg + Vec3.muls xe x)) x xe) := by
  have p := ig.add hF (.muls hF hx ie)
  have ea : g + Vec3.muls e t = along g e t := by unfold along; congr 1; ext <;> simp [mul_comm]
  rw [ea] at p
  have hn := (IsV.smul hF hx ie).norm hF
  rw [len_smul_unit he ht] at hn
  have hng := cylNg_is hF hy.rot (cylNormal_is hF hy.isA hy.isB hy.a_pos hy.b_pos p) (latNormal_ne hy.a_pos hy.b_pos hE)
  rw [mulVec_divs] at hng
  exact ⟨t, _, _, _, hn, ⟨rfl, rfl, rfl, rfl⟩, hng, .inl ⟨hE, rfl⟩⟩

theorem EmbCyl.inside_normal (H : Entering a b g e) (h0 : -(h / 2) ≤ g.z) (h1 : g.z ≤ h / 2) :
    y.inside inst xg xe rh = rh ∨ NormalOk rh y.geomID a b h R g e (y.inside inst xg xe rh) := by
  have i0 := XF.Is.zero hF (F := F)
  obtain ⟨iA, iB, iC⟩ := cylABC_is hF hy.isA hy.isB ig ie
  have hset : ∀ {A B C : XF F}, A.Is (latA a b e) → B.Is (latB a b g e) → C.Is (latC a b g e) → 0 < latA a b e →
      gt (cylT1 y.a y.b A B C) (nat 0) = false ∧ lt C (nat 0) = false ∧
      NormalOk rh y.geomID a b h R g e (y.setAt inst rh (cylNormal y.a y.b (xg + Vec3.muls xe (cylT0 y.a y.b A B C)))
        (cylT0 y.a y.b A B C) xe) := by
    intro A B C hA hB hC hpos
    obtain ⟨hnn, r1, r2⟩ := H.roots hy.a_pos hy.b_pos hpos
    obtain ⟨k0, k1⟩ := cylT_is hF hy.isA hy.isB hA hB hC hpos hnn
    refine ⟨?_, ?_, EmbCyl.set_normal hF y inst rh hy ig ie he k0 r2.le (cylE_T0 hpos hnn)⟩
    · rw [Bool.eq_false_iff, ne_eq, k1.gt i0]; linarith
    · rw [Bool.eq_false_iff, ne_eq, hC.lt i0]; linarith
  unfold EmbCyl.inside
  extract_lets xa xb hh x0 y0 z0 j k l
  have eabc : cylABC xa xb xg xe = cylABC y.a y.b xg xe := rfl
  rw [eabc]
  generalize cylABC y.a y.b xg xe = x at iA iB iC
  obtain ⟨A, B, C⟩ := x
  simp only at iA iB iC ⊢
  by_cases hl : e.z = 0
  · rw [if_pos ((ie.2.2.eq i0).2 hl)]
    have hA : 0 < latA a b e := by
      apply latA_pos hy.a_pos hy.b_pos
      by_contra hn
      push Not at hn
      rw [sq, Vec3.dot, hn.1, hn.2, hl] at he
      norm_num at he
    obtain ⟨s1, s2, s3⟩ := hset iA iB iC hA
    have s1' : gt (cylT1 xa xb A B C) (nat 0) = false := s1
    rw [s2, s1']
    simp only [Bool.false_and, Bool.false_eq_true, if_false]
    split
    · exact .inl rfl
    · split
      · exact .inr s3
      · exact .inl rfl
  · rw [if_neg (fun hc => hl ((ie.2.2.eq i0).1 hc))]
    have hcaps := EmbCyl.caps_normal hF y inst rh hy ig ie he hl h0 h1
    by_cases hjk : e.x = 0 ∧ e.y = 0
    · rw [if_pos (show (eq xe.x (nat 0) && eq xe.y (nat 0)) = true by rw [Bool.and_eq_true, ie.1.eq i0, ie.2.1.eq i0]; exact hjk)]
      split
      · exact .inl rfl
      · exact .inr hcaps
    · rw [if_neg (show ¬ (eq xe.x (nat 0) && eq xe.y (nat 0)) = true by rw [Bool.and_eq_true, ie.1.eq i0, ie.2.1.eq i0]; exact hjk)]
      obtain ⟨s1, s2, s3⟩ := hset iA iB iC (latA_pos hy.a_pos hy.b_pos (by tauto))
      have s1' : gt (cylT1 xa xb A B C) (nat 0) = false := s1
      rw [s2, s1']
      simp only [Bool.false_and, Bool.false_eq_true, if_false]
      split
      · exact .inr s3
      · exact .inr hcaps

end

/-! ### occlusion -/

theorem xf_lt_asymm {K : Type} [Field K] [LinearOrder K] [FloorRing K] {F : Fmt K} {x y : XF F} (h : lt x y = true) : lt y x = false := by
  change XF.lt x y = true at h
  change XF.lt y x = false
  cases x with
  | nan => cases h
  | inf s => cases y with
    | nan => cases h
    | inf t => revert h; cases s <;> cases t <;> simp [XF.lt]
    | fin w t => revert h; cases s <;> simp [XF.lt]
  | fin v s => cases y with
    | nan => cases h
    | inf t => revert h; cases t <;> simp [XF.lt]
    | fin w t => simp only [XF.lt, decide_eq_true_eq] at h; simp [XF.lt, h.le]

/-- from the side: without an occlusion there is no hit -/
theorem EmbCyl.side_occluded {K : Type} [Field K] [LinearOrder K] [FloorRing K] {F : Fmt K} (y : EmbCyl (XF F)) (inst : Nat)
    (rh : RtcRayHit (XF F)) (zlow : XF F) (swap : Bool) (org dir : Vec3 (XF F)) (h : y.sideOccluded org dir = false) :
    y.lateral inst zlow swap org dir rh = rh := by
  unfold EmbCyl.sideOccluded at h
  unfold EmbCyl.lateral
  extract_lets a b hh
  have e1 : cylABC y.a y.b org dir = cylABC a b org dir := rfl
  rw [e1] at h
  generalize cylABC a b org dir = x at h ⊢
  obtain ⟨A, B, C⟩ := x
  simp only at h ⊢
  by_cases hC : lt C (nat 0) = true
  · rw [if_pos hC]
  · rw [if_neg hC] at h ⊢
    simp only [Bool.not_eq_false', Bool.and_eq_true] at h
    have g0 : gt (cylT0 a b A B C) (nat 0) = false := xf_lt_asymm h.1
    have g1 : gt (cylT1 a b A B C) (nat 0) = false := xf_lt_asymm h.2
    simp [g0, g1]

/-- strictly inside: always occluded -/
theorem EmbCyl.inside_occluded {F : Fmt ℝ} (hF : F.Exact) {y : EmbCyl (XF F)} {c : Vec3 ℝ} {a b h : ℝ} {R : Mat3 ℝ} (hy : y.For c a b h R)
    {xg xe : Vec3 (XF F)} {g e : Vec3 ℝ} (ig : IsV xg g) (ie : IsV xe e) (h0 : -(h / 2) < g.z) (h1 : g.z < h / 2)
    (hE : cylE a b g e 0 < 0) : y.insideOccluded xg xe = true := by
  have h2 := two_is hF (F := F)
  have i0 := XF.Is.zero hF (F := F)
  have hb1 := hy.height.neg.div hF h2 two_ne_zero
  have hb2 := hy.height.div hF h2 two_ne_zero
  rw [neg_div] at hb1
  obtain ⟨iA, iB, iC⟩ := cylABC_is hF hy.isA hy.isB ig ie
  have hroots := EmbCyl.roots hF y hy ig ie
  have hC : 0 ≤ latC a b g e := by
    by_contra hn
    linarith [cylE_pos_of_latC_neg (g := g) hy.a_pos hy.b_pos (not_le.1 hn) 0]
  have e1 : eq xg.z (-y.height / nat 2) = false := by rw [Bool.eq_false_iff, ne_eq, ig.2.2.eq hb1]; linarith
  have e2 : eq xg.z (y.height / nat 2) = false := by rw [Bool.eq_false_iff, ne_eq, ig.2.2.eq hb2]; linarith
  have e3 : lt (cylABC y.a y.b xg xe).2.2 (nat 0) = false := by rw [Bool.eq_false_iff, ne_eq, iC.lt i0]; linarith
  obtain ⟨-, -, h3⟩ := hroots e3
  unfold EmbCyl.insideOccluded
  simp only [e1, e2, Bool.false_and, Bool.or_false, Bool.false_eq_true, if_false]
  have h3 := h3 hE
  generalize cylABC y.a y.b xg xe = x at h3 e3 ⊢
  obtain ⟨A, B, C⟩ := x
  simp only at h3 e3 ⊢
  simp [e3, h3]

end Blazert
