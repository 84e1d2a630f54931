/- Helper lemmas: what the callback of a cylinder records, with rounding. -/
import Verif.Model.Embree
import Verif.Proofs.CylFace
import Verif.Proofs.CylHit
import Verif.Proofs.CylShade
import Verif.Proofs.EmbreeRound
import Verif.Proofs.Monotone

set_option autoImplicit false
set_option linter.unusedSectionVars false

namespace Blazert
open Scalar

section
variable {T : Type} [Scalar T]

/-- the vector from which the normal is computed, and what it goes with -/
inductive EmbFace (a b h : T) (org dir : Vec3 T) (t : T) (n : Vec3 T) : Prop
  | top (h1 : t = (h / nat 2 - org.z) / dir.z) (h2 : eq dir.z (nat 0) = false ∨ gt dir.z (nat 0) = true) (h3 : n = ⟨nat 0, nat 0, nat 1⟩)
  | bottom (h1 : t = (-h / nat 2 - org.z) / dir.z) (h2 : eq dir.z (nat 0) = false ∨ lt dir.z (nat 0) = true)
      (h3 : n = ⟨nat 0, nat 0, -nat 1⟩)
  | side (h1 : SideTests a b h org dir t) (h2 : n = cylNormal a b (org + Vec3.muls dir t))

/-- nothing is recorded, or something at a parameter which passed the tests -/
def EmbTaken (c : EmbCyl T) (inst : Nat) (org dir : Vec3 T) (rh r : RtcRayHit T) : Prop :=
  r = rh ∨ ∃ t n, r = c.setAt inst rh n t dir ∧ CylCase c.a c.b c.height org dir t ∧ EmbFace c.a c.b c.height org dir t n

/-- the smaller root comes first -/
def RootsOrdered (a b : T) (org dir : Vec3 T) : Prop :=
  lt (cylABC a b org dir).2.2 (nat 0) = false →
    gt (cylT0 a b (cylABC a b org dir).1 (cylABC a b org dir).2.1 (cylABC a b org dir).2.2) (nat 0) = true →
    lt (cylT0 a b (cylABC a b org dir).1 (cylABC a b org dir).2.1 (cylABC a b org dir).2.2)
      (cylT1 a b (cylABC a b org dir).1 (cylABC a b org dir).2.1 (cylABC a b org dir).2.2) = false

variable {c : EmbCyl T} {inst : Nat} {org dir : Vec3 T} {rh r r' : RtcRayHit T}

theorem EmbTaken.no : EmbTaken c inst org dir rh rh := .inl rfl

theorem EmbTaken.yes {t : T} {n : Vec3 T} (h1 : CylCase c.a c.b c.height org dir t) (h2 : EmbFace c.a c.b c.height org dir t n) :
    EmbTaken c inst org dir rh (c.setAt inst rh n t dir) := .inr ⟨t, n, rfl, h1, h2⟩

theorem EmbTaken.side {t : T} {n : Vec3 T} (h1 : SideTests c.a c.b c.height org dir t) (h2 : n = cylNormal c.a c.b (org + Vec3.muls dir t)) :
    EmbTaken c inst org dir rh (c.setAt inst rh n t dir) := .yes (.side h1.h1 h1.h2 h1.h3 h1.h4) (.side h1 h2)

theorem EmbTaken.trans (h : EmbTaken c inst org dir rh r) (h' : EmbTaken c inst org dir r r') : EmbTaken c inst org dir rh r' := by
  rcases h' with rfl | ⟨t, n, rfl, h1, h2⟩
  · exact h
  · rcases h with rfl | ⟨t', n', rfl, -⟩
    · exact .inr ⟨t, n, rfl, h1, h2⟩
    · exact .inr ⟨t, n, rfl, h1, h2⟩

theorem EmbTaken.ite {b : Bool} {x y : RtcRayHit T} (hx : b = true → EmbTaken c inst org dir rh x)
    (hy : b = false → EmbTaken c inst org dir rh y) : EmbTaken c inst org dir rh (if b = true then x else y) := by
  cases b
  · rw [if_neg (by simp)]; exact hy rfl
  · rw [if_pos rfl]; exact hx rfl

theorem inZ_of {h z : T} (h1 : le z (h / nat 2) = true) (h2 : ge z (-h / nat 2) = true) : cylInZ h z = true := by
  unfold cylInZ; rw [h1, h2]; rfl

theorem EmbCyl.lateral_taken (c : EmbCyl T) (inst : Nat) (zlow : T) (swap : Bool) (org dir : Vec3 T) (rh : RtcRayHit T)
    (hr : RootsOrdered c.a c.b org dir) : EmbTaken c inst org dir rh (c.lateral inst zlow swap org dir rh) := by
  unfold EmbCyl.lateral
  refine .ite (fun _ => .no) fun hC => ?_
  refine EmbTaken.trans (r := if (gt _ (nat 0) && lt _ _ && le _ _ && ge _ _) = true then c.setAt inst rh _ _ dir else rh)
    (.ite (fun h1 => ?_) fun _ => .no) (.ite (fun h1 => ?_) fun _ => .no)
  · simp only [Bool.and_eq_true] at h1
    exact .side ⟨hC, .inr rfl, h1.1.1.1, inZ_of h1.1.2 h1.2⟩ rfl
  · simp only [Bool.and_eq_true] at h1
    exact absurd (h1.1.1.2.symm.trans (hr hC h1.1.1.1)) (by simp)

theorem EmbCyl.caps_taken (c : EmbCyl T) (inst : Nat) (org dir : Vec3 T) (rh : RtcRayHit T)
    (hy : ∀ t, CapParam c.height org.z dir.z t → CylCase c.a c.b c.height org dir t) :
    EmbTaken c inst org dir rh (c.caps inst org dir rh) := by
  unfold EmbCyl.caps
  refine EmbTaken.trans (r := if lt dir.z (nat 0) = true then c.setAt inst rh _ _ dir else rh)
    (.ite (fun h1 => ?_) fun _ => .no) (.ite (fun h1 => ?_) fun _ => .no)
  · exact .yes (hy _ (.inl ⟨h1, rfl⟩)) (.bottom rfl (.inr h1) rfl)
  · exact .yes (hy _ (.inr ⟨h1, rfl⟩)) (.top rfl (.inr h1) rfl)

theorem EmbCyl.inside_taken (c : EmbCyl T) (inst : Nat) (org dir : Vec3 T) (rh : RtcRayHit T) (h1 : ge org.z (-c.height / nat 2) = true)
    (h2 : le org.z (c.height / nat 2) = true)
    (h3 : le (org.x * org.x * c.b * c.b + org.y * org.y * c.a * c.a) (c.a * c.a * c.b * c.b) = true) :
    EmbTaken c inst org dir rh (c.inside inst org dir rh) := by
  unfold EmbCyl.inside
  refine .ite (fun _ => .ite (fun _ => .no) fun _ => .ite (fun _ => .no) fun hC =>
      EmbTaken.trans (r := if (gt _ (nat 0) && le _ _ && ge _ _) = true then c.setAt inst rh _ _ dir else rh)
        (.ite (fun h4 => ?_) fun _ => .no) (.ite (fun h4 => ?_) fun _ => .no))
    fun _ => .ite (fun h4 => .ite (fun _ => .no) fun _ => c.caps_taken inst org dir rh fun t ht => ?_)
      fun _ => .ite (fun _ => .no) fun hC => .ite (fun h4 => ?_) fun _ => .ite (fun h4 => ?_) fun h4 =>
        c.caps_taken inst org dir rh fun t ht => ?_
  · simp only [Bool.and_eq_true] at h4
    exact .side ⟨hC, .inr rfl, h4.1.1, inZ_of h4.1.2 h4.2⟩ rfl
  · simp only [Bool.and_eq_true] at h4
    exact .side ⟨hC, .inl rfl, h4.1.1, inZ_of h4.1.2 h4.2⟩ rfl
  · simp only [Bool.and_eq_true] at h4
    exact .inner h1 h2 h3 ht (.inl h4)
  · simp only [Bool.and_eq_true] at h4
    exact .side ⟨hC, .inr rfl, h4.1.1, inZ_of h4.1.2 h4.2⟩ rfl
  · simp only [Bool.and_eq_true] at h4
    exact .side ⟨hC, .inl rfl, h4.1.1, inZ_of h4.1.2 h4.2⟩ rfl
  · refine .inner h1 h2 h3 ht (.inr ⟨hC, ?_⟩)
    unfold cylInZ
    rw [← Bool.and_assoc]
    exact h4

theorem EmbCyl.intersect_taken (c : EmbCyl T) (inst : Nat) (rh : RtcRayHit T)
    (hr : RootsOrdered c.a c.b (c.rot.trans.mulVec (rh.ray.org - c.center)) (c.rot.trans.mulVec rh.ray.dir)) :
    EmbTaken c inst (c.rot.trans.mulVec (rh.ray.org - c.center)) (c.rot.trans.mulVec rh.ray.dir) rh (c.intersect inst rh) := by
  unfold EmbCyl.intersect
  refine .ite (fun h1 => ?_) fun _ => .ite (fun h1 => ?_) fun _ =>
    EmbTaken.trans (r := if (gt _ _ && lt _ _ && gt _ _) = true then c.lateral inst _ _ _ _ rh else rh)
      (.ite (fun _ => c.lateral_taken inst _ _ _ _ rh hr) fun _ => .no) (.ite (fun h1 => ?_) fun _ => .no)
  · unfold EmbCyl.aboveBelow
    exact .ite (fun _ => .no) fun h2 => .ite (fun _ => .no) fun h3 =>
      .ite (fun h5 => .yes (.top h1 h2 rfl h3 h5) (.top rfl (.inl h2) rfl)) fun _ => c.lateral_taken inst _ _ _ _ rh hr
  · unfold EmbCyl.aboveBelow
    exact .ite (fun _ => .no) fun h2 => .ite (fun _ => .no) fun h3 =>
      .ite (fun h5 => .yes (.bottom h1 h2 rfl h3 h5) (.bottom rfl (.inl h2) rfl)) fun _ => c.lateral_taken inst _ _ _ _ rh hr
  · simp only [Bool.and_eq_true] at h1
    exact c.inside_taken inst _ _ _ h1.1.1 h1.1.2 h1.2

end

section
variable {K : Type} [Field K] [LinearOrder K] [IsStrictOrderedRing K] [FloorRing K] {F : Fmt K} {u η hi L ν μ ε : K}
variable {a' b' h' : XF F} {org dir : Vec3 (XF F)} {a b h : K} {p d : Vec3 K}

theorem XF.is_of_between {x y z : XF F} {k : K} (hz : z.Is k) (h1 : gt x z = true) (h2 : lt x y = true) : ∃ v, x.Is v := by
  obtain ⟨s, rfl⟩ := hz
  cases x with
  | fin v s => exact ⟨v, s, rfl⟩
  | nan => cases h2
  | inf s =>
    cases s
    · cases y with
      | fin v t => cases h2
      | nan => cases h2
      | inf t => cases t <;> cases h2
    · cases h1

/-- the roots are in order -/
theorem roots_ordered (H : CylFloat u η hi L ν μ a' b' h' org dir a b h p d) (hmono : F.Monotone) : RootsOrdered a' b' org dir := by
  intro hC hpos
  rw [Bool.eq_false_iff]
  intro hlt
  obtain ⟨T0, t0⟩ := XF.is_of_between H.rounds.nat0 hpos hlt
  obtain ⟨hjk, -⟩ := cyl_root_near H.rounds H.faith H.scale H.ha H.hb H.ho H.hd H.tubeIn H.aν H.bν H.sl.2 hC (.inl t0)
  obtain ⟨-, ⟨T1, t1, -⟩, A, B, s, hA, hB, hs, A0, s0⟩ := cyl_roots_finite H hjk hC
  have hle := (t0.lt t1).1 hlt
  obtain ⟨-, q0, N0, q01, q02, q03⟩ := cyl_root_inv t0 H.rounds.nat1 hA hB.neg hs
  obtain ⟨-, q1, N1, q11, q12, q13⟩ := cyl_root_inv t1 H.rounds.nat1.neg hA hB hs
  have hodd := H.odd
  have e1 : q1 = -q0 := by
    have := hodd (1 / A)
    rw [q01, ← neg_div, q11] at this
    simpa using this
  have e2 : F.post (-(B + s)) = some (-N1) := by rw [hodd, q12]; rfl
  have e3 : -N1 ≤ N0 := hmono _ _ _ _ (by linarith) e2 q02
  have hzero := H.rounds.toGradual.zero
  have e4 : 0 ≤ q0 := hmono _ _ _ _ (by positivity) hzero q01
  have e5 : T1 ≤ T0 := by
    rw [e1] at q13
    refine hmono _ _ _ _ ?_ q13 q03
    have := mul_le_mul_of_nonneg_left e3 e4
    linarith
  linarith

/-- what the callback of a cylinder records is near the surface -/
theorem EmbCyl.near (hF : F.Rounds u η hi) (hfa : F.Faithful u η) (hodd : F.Odd) (hord : F.Ordered) (hmono : F.Monotone)
    {q : EmbCyl (XF F)} {inst : Nat} {rh : RtcRayHit (XF F)} {g : Nat} {x : XF F} {n : Vec3 (XF F)} {o d c : Vec3 K} {R : Mat3 K}
    (ho : IsV rh.ray.org o) (hd : IsV rh.ray.dir d) (hN : |Vec3.dot d d - 1| ≤ 11 * u)
    (hq : CylWithin u η hi ε ν μ L o q.native rh.ray.dir c a b h R) (hε : ε ≤ 1 / 1000)
    (hne : q.intersect inst rh ≠ rh) (hrec : Records rh (q.intersect inst rh) g x n) :
    ∃ k, x.Is k ∧ 0 ≤ k ∧ k ≤ 4 * L ∧
      NearCylinder a b h ((700 * u + 40 * ε) * ((a ^ 2 + b ^ 2) * L ^ 2)) ((300 * u + 20 * ε) * L) (R.trans.mulVec (along o d k - c)) := by
  obtain ⟨p', d', -, H⟩ := hq.float hF hfa hodd ho hd hε hN
  rcases q.intersect_taken inst rh (roots_ordered H hmono) with h1 | ⟨t, n', h1, h2, -⟩
  · exact absurd h1 hne
  have hx : x = Vec3.norm (Vec3.smul t (q.rot.trans.mulVec rh.ray.dir)) := by
    have h3 := congrArg RtcRay.tfar hrec.ray
    rw [h1] at h3
    exact h3.symm
  rw [hx]
  exact cyl_case_hit hF hfa hodd hord ho hd hq hε hN h2

/-- ... and its normal is the one of the face -/
theorem EmbCyl.shade (hF : F.Rounds u η hi) (hfa : F.Faithful u η) (hodd : F.Odd) (hord : F.Ordered) (hmono : F.Monotone)
    {q : EmbCyl (XF F)} {inst : Nat} {rh : RtcRayHit (XF F)} {g : Nat} {x : XF F} {n : Vec3 (XF F)} {o d c : Vec3 K} {R : Mat3 K} {m : K}
    (ho : IsV rh.ray.org o) (hd : IsV rh.ray.dir d) (hN : |Vec3.dot d d - 1| ≤ 11 * u)
    (hq : CylWithin u η hi ε ν μ L o q.native rh.ray.dir c a b h R) (hε : ε ≤ 1 / 1000)
    (hs0 : Scale u η hi 1) (hs1 : Scale u η hi (1 / 2)) (hs2 : Scale u η hi 8)
    (m0 : 0 < m) (ma : m ≤ a) (mb : m ≤ b) (hl1 : Scale u η hi (1 / L)) (hl2 : Scale u η hi (8 * L / m ^ 2))
    (hsm : (3000 * u + 200 * ε) * L ^ 2 ≤ m ^ 2)
    (hne : q.intersect inst rh ≠ rh) (hrec : Records rh (q.intersect inst rh) g x n) :
    ∃ k n', x.Is k ∧ 0 ≤ k ∧ k ≤ 4 * L ∧ IsV n n' ∧ |Vec3.dot n' n' - 1| ≤ 120 * u + 4 * ε ∧
      NearOutward a b h ((700 * u + 40 * ε) * ((a ^ 2 + b ^ 2) * L ^ 2)) ((300 * u + 20 * ε) * L) (160 * u + ε)
        ((4300 * u + 260 * ε) * (L / m) ^ 2) R (R.trans.mulVec (along o d k - c)) n' := by
  obtain ⟨p', d', -, H⟩ := hq.float hF hfa hodd ho hd hε hN
  rcases q.intersect_taken inst rh (roots_ordered H hmono) with h1 | ⟨t, v, h1, h2, h3⟩
  · exact absurd h1 hne
  have hx : x = Vec3.norm (Vec3.smul t (q.rot.trans.mulVec rh.ray.dir)) := by
    have h3 := congrArg RtcRay.tfar hrec.ray
    rw [h1] at h3
    exact h3.symm
  have hn : n = cylNg q.rot v := by
    have h4 := hrec.normal
    rw [h1] at h4
    exact h4.symm
  obtain ⟨k, w, k1, k2, k3, rfl, ktop, kbot, kside, -⟩ :=
    cyl_case_shade hF hfa hodd hord ho hd hq hε hN hs1 hs2 m0 ma mb hl1 hl2 hsm rfl rfl h2
  rw [hx, hn]
  suffices hsuf : ∃ n', IsV (cylNg q.rot v) n' ∧ |Vec3.dot n' n' - 1| ≤ 120 * u + 4 * ε ∧
      NearOutward a b h ((700 * u + 40 * ε) * ((a ^ 2 + b ^ 2) * L ^ 2)) ((300 * u + 20 * ε) * L) (160 * u + ε)
        ((4300 * u + 260 * ε) * (L / m) ^ 2) R (R.trans.mulVec (along o d k - c)) n' by
    obtain ⟨n', s1, s2, s3⟩ := hsuf
    exact ⟨k, n', k1, k2, k3, s1, s2, s3⟩
  cases h3 with
  | top g1 g2 g3 =>
    obtain ⟨n', s1, s2, s3⟩ := cap_ng_near hF hq.rot hq.ortho hε hF.nat1 (.inl rfl) hs0
    exact ⟨n', by rw [g3]; exact s1, s2, .inl ⟨1, .inl rfl, ktop g1 g2, s3⟩⟩
  | bottom g1 g2 g3 =>
    obtain ⟨n', s1, s2, s3⟩ := cap_ng_near hF hq.rot hq.ortho hε hF.nat1.neg (.inr rfl) hs0
    exact ⟨n', by rw [g3]; exact s1, s2, .inl ⟨-1, .inr rfl, kbot g1 g2, s3⟩⟩
  | side g1 g2 =>
    obtain ⟨r1, -, ⟨n', s1, s2, s3⟩, -⟩ := kside g1
    exact ⟨n', by rw [g2]; exact s1, s2, .inr ⟨r1, s3⟩⟩

end
end Blazert
