/- Helper lemmas: clear hits of Embree scenes are found, with rounding. -/
import Verif.Spec.EmbreeFound
import Verif.Proofs.EmbreeRound
import Verif.Proofs.EmbreeTrace
import Verif.Proofs.PlaneFound
import Verif.Proofs.PlaneBox
import Verif.Proofs.SphereScan
import Verif.Props.SphereRound

set_option autoImplicit false
set_option linter.unusedSectionVars false

namespace Blazert
open Scalar

section
variable {T : Type} [Scalar T]

/-- geometry that records a hit for the ray as given, and is not skipped for it, is not the only one to do so at worst -/
theorem RtcTrace.recorded {process : Nat → RtcRayHit T → Run (RtcRayHit T)} {skip : Nat → RtcRay T → Prop} {order : List Nat}
    {rh0 rh : RtcRayHit T} {r : Run (RtcRayHit T)} (h : RtcTrace process skip order rh r) (i0 : Nat) (hmem : i0 ∈ order)
    (h0 : rh = rh0 ∨ rh.hit.geomID ≠ invalidId)
    (step : ∀ i ∈ order, ∀ a b, process i a = .ok b → b = a ∨ b.hit.geomID ≠ invalidId)
    (hgoal : ∀ b, process i0 rh0 = .ok b → b.hit.geomID ≠ invalidId) (hskip : ¬ skip i0 rh0.ray) :
    ∀ x, r = .ok x → x.hit.geomID ≠ invalidId := by
  have keep : ∀ {order : List Nat} {rh : RtcRayHit T} {r : Run (RtcRayHit T)}, RtcTrace process skip order rh r →
      (∀ i ∈ order, ∀ a b, process i a = .ok b → b = a ∨ b.hit.geomID ≠ invalidId) → rh.hit.geomID ≠ invalidId →
      ∀ x, r = .ok x → x.hit.geomID ≠ invalidId := by
    intro order rh r h step h0
    refine h.invariant (fun x => x.hit.geomID ≠ invalidId) h0 fun i hi a b ha hb => ?_
    rcases step i hi a b hb with rfl | h
    · exact ha
    · exact h
  induction h with
  | done rh => cases hmem
  | @call i is rh rh' r hp rest ih =>
    have step' : ∀ i ∈ is, ∀ a b, process i a = .ok b → b = a ∨ b.hit.geomID ≠ invalidId :=
      fun i hi => step i (List.mem_cons_of_mem _ hi)
    have hs := step i List.mem_cons_self _ _ hp
    by_cases hv : rh'.hit.geomID ≠ invalidId
    · exact keep rest step' hv
    have e := hs.resolve_right hv
    subst e
    have e0 := h0.resolve_right hv
    rcases List.mem_cons.1 hmem with rfl | hm
    · subst e0
      exact absurd (hgoal _ hp) hv
    · exact ih hm (.inl e0) step'
  | fail hp => intro x hx; cases hx
  | @skip i is rh r hs rest ih =>
    have step' : ∀ i ∈ is, ∀ a b, process i a = .ok b → b = a ∨ b.hit.geomID ≠ invalidId :=
      fun i hi => step i (List.mem_cons_of_mem _ hi)
    by_cases hv : rh.hit.geomID ≠ invalidId
    · exact keep rest step' hv
    have e0 := h0.resolve_right hv
    rcases List.mem_cons.1 hmem with rfl | hm
    · subst e0
      exact absurd hs hskip
    · exact ih hm (.inl e0) step'

end

section
variable {K : Type} [Field K] [LinearOrder K] [IsStrictOrderedRing K] [FloorRing K] {F : Fmt K} {u η hi L ε : K}

/-- the present upper limit, for the ray given -/
def LimitIs (ray : RtcRay (XF F)) (rh : RtcRayHit (XF F)) (k : K) : Prop := SameLine rh.ray ray ∧ rh.ray.tfar.Is k

/-- limits through a trace -/
theorem RtcTrace.limit {process : Nat → RtcRayHit (XF F) → Run (RtcRayHit (XF F))} {skip : Nat → RtcRay (XF F) → Prop}
    {order : List Nat} {ray : RtcRay (XF F)} {rh : RtcRayHit (XF F)} {r : Run (RtcRayHit (XF F))}
    (h : RtcTrace process skip order rh r) {e : K} (he : 0 ≤ e)
    (step : ∀ i ∈ order, ∀ a b k, process i a = .ok b → LimitIs ray a k → ∃ k', LimitIs ray b k' ∧ k' ≤ k + e) (k : K)
    (h0 : LimitIs ray rh k) : ∀ x, r = .ok x → ∃ k', LimitIs ray x k' ∧ k' ≤ k + order.length * e := by
  induction h generalizing k with
  | done rh => intro x hx; cases hx; exact ⟨k, h0, by simp⟩
  | @call i is rh rh' r hp rest ih =>
    intro x hx
    obtain ⟨k1, h1, h2⟩ := step i List.mem_cons_self _ _ k hp h0
    obtain ⟨k2, h3, h4⟩ := ih (fun i hi => step i (List.mem_cons_of_mem _ hi)) k1 h1 x hx
    refine ⟨k2, h3, ?_⟩
    push_cast [List.length_cons]
    linarith
  | fail hp => intro x hx; cases hx
  | @skip i is rh r hs rest ih =>
    intro x hx
    obtain ⟨k2, h3, h4⟩ := ih (fun i hi => step i (List.mem_cons_of_mem _ hi)) k h0 x hx
    refine ⟨k2, h3, ?_⟩
    push_cast [List.length_cons]
    linarith

/-- the limit once the geometry `i0` has been processed or skipped -/
theorem RtcTrace.limit_found {process : Nat → RtcRayHit (XF F) → Run (RtcRayHit (XF F))} {skip : Nat → RtcRay (XF F) → Prop}
    {order : List Nat} {ray : RtcRay (XF F)} {rh : RtcRayHit (XF F)} {r : Run (RtcRayHit (XF F))}
    (h : RtcTrace process skip order rh r) {e B : K} (he : 0 ≤ e)
    (step : ∀ i ∈ order, ∀ a b k, process i a = .ok b → LimitIs ray a k → ∃ k', LimitIs ray b k' ∧ k' ≤ k + e) (i0 : Nat)
    (hmem : i0 ∈ order) (hgoal : ∀ a b k, process i0 a = .ok b → LimitIs ray a k → ∃ k', LimitIs ray b k' ∧ k' ≤ B)
    (hskip : ∀ a k, LimitIs ray a k → skip i0 a.ray → k ≤ B) (k : K) (h0 : LimitIs ray rh k) :
    ∀ x, r = .ok x → ∃ k', LimitIs ray x k' ∧ k' ≤ B + order.length * e := by
  induction h generalizing k with
  | done rh => cases hmem
  | @call i is rh rh' r hp rest ih =>
    intro x hx
    have step' := fun i hi => step i (List.mem_cons_of_mem _ hi)
    rcases List.mem_cons.1 hmem with rfl | hm
    · obtain ⟨k1, h1, h2⟩ := hgoal _ _ k hp h0
      obtain ⟨k2, h3, h4⟩ := rest.limit he step' k1 h1 x hx
      refine ⟨k2, h3, ?_⟩
      push_cast [List.length_cons]
      linarith
    · obtain ⟨k1, h1, -⟩ := step i List.mem_cons_self _ _ k hp h0
      obtain ⟨k2, h3, h4⟩ := ih step' hm k1 h1 x hx
      refine ⟨k2, h3, ?_⟩
      push_cast [List.length_cons]
      linarith
  | fail hp => intro x hx; cases hx
  | @skip i is rh r hs rest ih =>
    intro x hx
    have step' := fun i hi => step i (List.mem_cons_of_mem _ hi)
    rcases List.mem_cons.1 hmem with rfl | hm
    · have h2 := hskip _ k h0 hs
      obtain ⟨k2, h3, h4⟩ := rest.limit he step' k h0 x hx
      refine ⟨k2, h3, ?_⟩
      push_cast [List.length_cons]
      linarith
    · obtain ⟨k2, h3, h4⟩ := ih step' hm k h0 x hx
      refine ⟨k2, h3, ?_⟩
      push_cast [List.length_cons]
      linarith

/-! ### spheres -/

/-- what recording a candidate leaves as the limit -/
theorem EmbSphere.hit_limit (hF : F.Rounds u η hi) (hs : Scale u η hi L) (s : EmbSphere (XF F)) (inst : Nat) {rh : RtcRayHit (XF F)}
    {d : Vec3 K} {m t : K} (hd : IsV rh.ray.dir d) (hm0 : 0 ≤ m) (hN : |Vec3.dot d d - 1| ≤ 11 * u) {x : XF F} (hx : x.Is t)
    (ht : |t| ≤ 38 / 10 * L) (hmt : m < t) :
    ∃ k, (s.hit inst rh x).ray.tfar.Is k ∧ |k - t| ≤ 110 * (u * L) := by
  obtain ⟨u0, u1, η0, ηu, ηL, ηLL, ηuLL, ηuL, L0, uL0, uLL0, uL1, uLL1, hi1, hiL, hiLL⟩ := hs.sizes
  obtain ⟨n1, n2⟩ := abs_le.1 hN
  have hN1 : Vec3.dot d d ≤ 5 / 4 := by linarith
  obtain ⟨k, k1, k2, k3⟩ := norm_scaled hF hs hx hd hN1 ht
  have k4 := dist_near hs k2 (by linarith) hN hs.eleven k3
  refine ⟨k, k1, k4.trans ?_⟩
  have := mul_le_mul_of_nonneg_left ((le_abs_self t).trans ht) u0.le
  have e : (11 * u + 13 * u) * t = 24 * (u * t) := by ring
  rw [e]; linarith

/-- the callback of a sphere: the limit is hardly raised; and if the sphere is entered before `τ`, it is hardly beyond `τ`
afterwards, and a hit is recorded unless it was closer before -/
theorem EmbSphere.limit (hF : F.Rounds u η hi) (hs : Scale u η hi L) (s : EmbSphere (XF F)) (inst : Nat) {rh : RtcRayHit (XF F)}
    {o d c : Vec3 K} {r m k : K} (ho : IsV rh.ray.org o) (hd : IsV rh.ray.dir d)
    (hm : rh.ray.tnear.Is m) (hm0 : 0 ≤ m) (hN : |Vec3.dot d d - 1| ≤ 11 * u) (hc : IsV s.center c) (hr : s.radius.Is r)
    (hL : |o.x - c.x| + |o.y - c.y| + |o.z - c.z| + |r| ≤ L) (hk : rh.ray.tfar.Is k) :
    (∃ k', (s.intersect inst rh).ray.tfar.Is k' ∧ k' ≤ k + 220 * (u * L)) ∧
    ∀ τ, m < τ → 400 * u * L ^ 2 ≤ power c r (along o d m) → power c r (along o d τ) ≤ -(400 * u * L ^ 2) →
      (∃ k', (s.intersect inst rh).ray.tfar.Is k' ∧ k' ≤ τ + 220 * (u * L)) ∧
      (τ ≤ k → (s.intersect inst rh).hit.geomID = s.geomID) := by
  obtain ⟨u0, u1, η0, ηu, ηL, ηLL, ηuLL, ηuL, L0, uL0, uLL0, uL1, uLL1, hi1, hiL, hiLL⟩ := hs.sizes
  obtain ⟨n1, n2⟩ := abs_le.1 hN
  have hN0 : 3 / 4 ≤ Vec3.dot d d := by linarith
  have hN1 : Vec3.dot d d ≤ 5 / 4 := by linarith
  obtain ⟨A, B, C, D, hcb, hA, hB, hC, hD, hneg, hpos⟩ := sphere_roots_run hF hs ho hd hc hr hN0 hN1 hL
  obtain ⟨A', B', C', -, -, -, -, -, -, hb, hc'⟩ := sphere_coeffs hF hs ho hd hc hr hN1 hL
  rcases lt_or_ge D 0 with hlt | hge
  · have e := EmbSphere.intersect_none (inst := inst) (hneg hlt)
    refine ⟨⟨k, by rw [e]; exact hk, by linarith⟩, fun τ hmτ hout hin => ?_⟩
    exfalso
    unfold power at hout hin
    rw [along_sq] at hin
    have hin' : Vec3.dot d d * τ ^ 2 + 2 * Vec3.dot (o - c) d * τ + (Vec3.dot (o - c) (o - c) - r * r) ≤ -(400 * (u * L ^ 2)) := by
      rw [← mul_assoc]; exact hin
    have hτ := inside_bound L0 hN0 hb hc' (by linarith) (hin'.trans (by linarith))
    have p1 := (abs_le.1 (poly_near hs hA hB hC (by linarith : 0 ≤ τ) hτ)).2
    have h1 : (2 * A * τ + B) ^ 2 = (B * B - 4 * A * C) + 4 * A * (A * τ ^ 2 + B * τ + C) := by ring
    have h2 : A * τ ^ 2 + B * τ + C ≤ -(274 * (u * L ^ 2)) := by linarith
    have h3 : 4 * A * (A * τ ^ 2 + B * τ + C) ≤ 4 * (74 / 100) * -(274 * (u * L ^ 2)) := by
      have := mul_le_mul_of_nonneg_left h2 (by linarith [hcb.A0] : 0 ≤ 4 * A)
      have h4 := mul_le_mul_of_nonneg_right hcb.A0 uLL0.le
      linarith
    have h5 := (abs_le.1 hD).1
    have h6 := pow_two_nonneg (2 * A * τ + B)
    linarith
  obtain ⟨Q, x0, x1, t0, t1, q1, q2, q3, e0, e1, f0, f1, g0, g1, heq⟩ := hpos hge
  have e := EmbSphere.intersect_some (inst := inst) heq
  have win : ∀ {ray : RtcRay (XF F)} {x : XF F} {t k : K}, ray.tnear.Is m → ray.tfar.Is k → x.Is t →
      (ray.within x = true ↔ m < t ∧ t < k) := by
    intro ray x t k a1 a2 a3
    unfold RtcRay.within
    rw [Bool.and_eq_true, XF.Is.gt a3 a1, XF.Is.lt a3 a2]
  rw [e]
  by_cases w0 : rh.ray.within x0 = true
  · obtain ⟨i1, i2⟩ := (win hm hk e0).1 w0
    obtain ⟨k0, j1, j2⟩ := s.hit_limit hF hs inst (rh := rh) hd hm0 hN e0 g0 i1
    have j3 := (abs_le.1 j2).2
    rw [if_pos w0]
    have key : (∃ k', (if (s.hit inst rh x0).ray.within x1 = true then s.hit inst (s.hit inst rh x0) x1 else s.hit inst rh x0).ray.tfar.Is k' ∧
        k' ≤ t0 + 220 * (u * L)) ∧ (if (s.hit inst rh x0).ray.within x1 = true then s.hit inst (s.hit inst rh x0) x1 else
          s.hit inst rh x0).hit.geomID = s.geomID := by
      by_cases w1 : (s.hit inst rh x0).ray.within x1 = true
      · obtain ⟨i3, i4⟩ := (win (ray := (s.hit inst rh x0).ray) hm j1 e1).1 w1
        obtain ⟨k1, j4, j5⟩ := s.hit_limit hF hs inst (rh := s.hit inst rh x0) hd hm0 hN e1 g1 i3
        have j6 := (abs_le.1 j5).2
        rw [if_pos w1]
        exact ⟨⟨k1, j4, by linarith⟩, rfl⟩
      · rw [if_neg w1]
        exact ⟨⟨k0, j1, by linarith⟩, rfl⟩
    obtain ⟨⟨k', a1, a2⟩, a3⟩ := key
    refine ⟨⟨k', a1, by linarith⟩, fun τ hmτ hout hin => ?_⟩
    unfold power at hout hin
    rw [along_sq] at hout hin
    obtain ⟨r1, r2⟩ := root_between hs hcb hA hB hC hN0 hb hc' q1 q2 q3 f0 hm0 hmτ (by rw [← mul_assoc]; exact hin)
      (by rw [← mul_assoc]; exact hout)
    exact ⟨⟨k', a1, by linarith⟩, fun _ => a3⟩
  · rw [if_neg w0]
    have key : ∃ k', (if rh.ray.within x1 = true then s.hit inst rh x1 else rh).ray.tfar.Is k' ∧ k' ≤ k + 110 * (u * L) := by
      by_cases w1 : rh.ray.within x1 = true
      · obtain ⟨i3, i4⟩ := (win hm hk e1).1 w1
        obtain ⟨k1, j4, j5⟩ := s.hit_limit hF hs inst (rh := rh) hd hm0 hN e1 g1 i3
        have j6 := (abs_le.1 j5).2
        rw [if_pos w1]
        exact ⟨k1, j4, by linarith⟩
      · rw [if_neg w1]
        exact ⟨k, hk, by linarith⟩
    obtain ⟨k', a1, a2⟩ := key
    refine ⟨⟨k', a1, by linarith⟩, fun τ hmτ hout hin => ?_⟩
    unfold power at hout hin
    rw [along_sq] at hout hin
    obtain ⟨r1, r2⟩ := root_between hs hcb hA hB hC hN0 hb hc' q1 q2 q3 f0 hm0 hmτ (by rw [← mul_assoc]; exact hin)
      (by rw [← mul_assoc]; exact hout)
    have : k ≤ t0 := not_lt.1 fun h => w0 ((win hm hk e0).2 ⟨r1, h⟩)
    exact ⟨⟨k', a1, by linarith⟩, fun h => by linarith⟩

/-- the bounds of the sphere contain the point inside it -/
theorem EmbSphere.bounds_met (hF : F.Rounds u η hi) (hs : Scale u η hi L) (s : EmbSphere (XF F)) {o d c : Vec3 K} {r τ : K}
    (hN : |Vec3.dot d d - 1| ≤ 11 * u) (hc : IsV s.center c) (hr : s.radius.Is r) (hr0 : 0 < r)
    (hL : |o.x| + |o.y| + |o.z| + |c.x| + |c.y| + |c.z| + |r| ≤ L) (hτ0 : 0 ≤ τ)
    (hin : power c r (along o d τ) ≤ -(400 * u * L ^ 2)) :
    ∃ mn mx, IsV s.bounds.1 mn ∧ IsV s.bounds.2 mx ∧ InBox mn mx (along o d τ) := by
  obtain ⟨u0, u1, η0, ηu, ηL, ηLL, ηuLL, ηuL, L0, uL0, uLL0, uL1, uLL1, hi1, hiL, hiLL⟩ := hs.sizes
  have hrL : r = |r| := (abs_of_pos hr0).symm
  have hsq : ∀ k, ((along o d τ).get k - c.get k) ^ 2 ≤ r ^ 2 - 400 * (u * L ^ 2) := by
    intro k
    have h := comp_sq_le (along o d τ - c)
    unfold power at hin
    have e : r ^ 2 - 400 * (u * L ^ 2) = r * r - 400 * u * L ^ 2 := by ring
    rw [e, pow_two]
    match k with
    | 0 => have := h.1; simp only [Vec3.get] at *; exact this.trans (by linarith)
    | 1 => have := h.2.1; simp only [Vec3.get] at *; exact this.trans (by linarith)
    | 2 => have := h.2.2; simp only [Vec3.get] at *; exact this.trans (by linarith)
  have a1 := abs_nonneg o.x; have a2 := abs_nonneg o.y; have a3 := abs_nonneg o.z
  have a4 := abs_nonneg c.x; have a5 := abs_nonneg c.y; have a6 := abs_nonneg c.z
  have hax : ∀ k, |(along o d τ).get k - c.get k| ≤ r - 2 * (u * L) := by
    intro k
    have h1 := hsq k
    have hr2 : 400 * (u * L ^ 2) ≤ r ^ 2 := by have := pow_two_nonneg ((along o d τ).get k - c.get k); linarith
    have hr6 : 2 * (u * L) ≤ r := by
      refine le_of_sq_le_sq (le_trans ?_ hr2) hr0.le
      have : u * (u * L ^ 2) ≤ 1 / 2 ^ 20 * (u * L ^ 2) := mul_le_mul_of_nonneg_right u1 uLL0.le
      have e : (2 * (u * L)) ^ 2 = 4 * (u * (u * L ^ 2)) := by ring
      rw [e]; linarith
    refine abs_le_of_sq_le_sq (h1.trans ?_) (by linarith)
    have e : (r - 2 * (u * L)) ^ 2 = r ^ 2 - 4 * (u * L * r) + (2 * (u * L)) ^ 2 := by ring
    have h5 : u * L * r ≤ u * L * L := mul_le_mul_of_nonneg_left (by linarith) uL0.le
    have h6 := pow_two_nonneg (2 * (u * L))
    have e2 : u * L * L = u * L ^ 2 := by ring
    rw [e]; linarith
  obtain ⟨x1, x2, b1, b2, b3, b4⟩ := sphere_box_axis hF hs hc.1 hr (by linarith) (hax 0)
  obtain ⟨y1, y2, b5, b6, b7, b8⟩ := sphere_box_axis hF hs hc.2.1 hr (by linarith) (hax 1)
  obtain ⟨z1, z2, b9, b10, b11, b12⟩ := sphere_box_axis hF hs hc.2.2 hr (by linarith) (hax 2)
  refine ⟨⟨x1, y1, z1⟩, ⟨x2, y2, z2⟩, ⟨b1, b5, b9⟩, ⟨b2, b6, b10⟩, ⟨b3, b4⟩, ⟨b7, b8⟩, ⟨b11, b12⟩⟩

/-! ### planes -/

/-- the callback of a plane: the limit is hardly raised -/
theorem EmbPlane.limit (hF : F.Rounds u η hi) (hfa : F.Faithful u η) (hodd : F.Odd) (hs : Scale u η hi L) (p : EmbPlane (XF F))
    (inst : Nat) {rh : RtcRayHit (XF F)} {o d c : Vec3 K} {a b m k : K} {R : Mat3 K} (ho : IsV rh.ray.org o) (hd : IsV rh.ray.dir d)
    (hm : rh.ray.tnear.Is m) (hm0 : 0 ≤ m) (hN : |Vec3.dot d d - 1| ≤ 11 * u) (hq : PlaneWithin ε o L p.native c a b R)
    (hε : ε ≤ 1 / 1000) (hk : rh.ray.tfar.Is k) :
    ∃ k', (p.intersect inst rh).ray.tfar.Is k' ∧ k' ≤ k + 152 * ((u + ε) * L) := by
  set ray : Ray (XF F) := ⟨rh.ray.org, rh.ray.dir, ⟨nat 0, nat 0, nat 0⟩, ⟨0, 0, 0⟩, rh.ray.tnear, rh.ray.tfar, false, false⟩
  have hag := p.agree inst rh ray
  have W0 : 0 ≤ (u + ε) * L := mul_nonneg (add_nonneg hs.u_pos.le hq.ortho.rows.nonneg) hs.pos.le
  cases hb : (planeIntersect rh.ray.planeI p.native ray).2 with
  | false => rw [(hag.miss hb).1]; exact ⟨k, hk, by linarith⟩
  | true =>
    obtain ⟨n, hrec, -⟩ := hag.hit hb
    obtain ⟨k', h1, h2⟩ := plane_drift hF hfa hodd hs (ray := ray) (s := rh.ray.planeI) ⟨ho, hd, hm, hm0, hN⟩ ⟨rfl, rfl, rfl⟩ hε hq
      (Prod.ext rfl hb : planeIntersect rh.ray.planeI p.native ray = (_, true))
    exact ⟨k', by rw [hrec.ray]; exact h1, h2 k hk⟩

/-- the callback of a plane that is met clearly -/
theorem EmbPlane.found (hF : F.Rounds u η hi) (hodd : F.Odd) (hs : Scale u η hi L) (p : EmbPlane (XF F))
    (inst : Nat) {rh : RtcRayHit (XF F)} {o d c : Vec3 K} {a b m k τ M κ : K} {R : Mat3 K} (ho : IsV rh.ray.org o)
    (hd : IsV rh.ray.dir d) (hm : rh.ray.tnear.Is m) (hm0 : 0 ≤ m) (hN : |Vec3.dot d d - 1| ≤ 11 * u)
    (hq : PlaneWithin ε o L p.native c a b R) (hε : ε ≤ 1 / 1000) (hk : rh.ray.tfar.Is k) (hmeet : MeetsRect c a b R o d m τ M κ)
    (hM : 200 * (u + ε) * L ≤ M * κ) :
    (∃ k', (p.intersect inst rh).ray.tfar.Is k' ∧ k' ≤ τ + M) ∧ (τ + M < k → (p.intersect inst rh).hit.geomID = p.geomID) := by
  set ray : Ray (XF F) := ⟨rh.ray.org, rh.ray.dir, ⟨nat 0, nat 0, nat 0⟩, ⟨0, 0, 0⟩, rh.ray.tnear, rh.ray.tfar, false, false⟩
  have hag := p.agree inst rh ray
  obtain ⟨-, -, k', h1, h2⟩ := plane_hit_found hF hodd hs ray (i := rh.ray.planeI) (q := p.native) ho hd hq hε hm hm0 hN hmeet hM
    (.inr ⟨k, hk⟩)
  cases hb : (planeIntersect rh.ray.planeI p.native ray).2 with
  | false =>
    obtain ⟨e1, e2⟩ := hag.miss hb
    rw [e2] at h1
    rw [e1]
    have e : k' = k := h1.unique hk
    exact ⟨⟨k', h1, h2⟩, fun h => absurd h (not_lt.2 (e ▸ h2))⟩
  | true =>
    obtain ⟨n, hrec, -⟩ := hag.hit hb
    exact ⟨⟨k', by rw [hrec.ray]; exact h1, h2⟩, fun _ => hrec.geom⟩

/-- the line meets the bounds of the plane near the point where it meets the plane -/
theorem EmbPlane.bounds_met (hF : F.Rounds u η hi) (hodd : F.Odd) (hs : Scale u η hi L) (htiny : |F.tiny| ≤ L) (p : EmbPlane (XF F))
    {rh : RtcRayHit (XF F)} {o d c : Vec3 K} {a b m k τ M κ : K} {R : Mat3 K} (ho : IsV rh.ray.org o)
    (hd : IsV rh.ray.dir d) (hm : rh.ray.tnear.Is m) (hm0 : 0 ≤ m) (hN : |Vec3.dot d d - 1| ≤ 11 * u)
    (hq : PlaneWithin ε o L p.native c a b R) (hL : |c.x| + |c.y| + |c.z| + |a| + |b| ≤ L) (hε : ε ≤ 1 / 1000)
    (hk : rh.ray.tfar.Is k) (hmeet : MeetsRect c a b R o d m τ M κ) (hM : 200 * (u + ε) * L ≤ M * κ) :
    0 < M ∧ ∃ t mn mx, |t - τ| ≤ M ∧ IsV p.bounds.1 mn ∧ IsV p.bounds.2 mx ∧ InBox mn mx (along o d t) := by
  set ray : Ray (XF F) := ⟨rh.ray.org, rh.ray.dir, ⟨nat 0, nat 0, nat 0⟩, ⟨0, 0, 0⟩, rh.ray.tnear, rh.ray.tfar, false, false⟩
  obtain ⟨u0, u1, η0, -⟩ := hs.sizes
  obtain ⟨hmar, hτL, -⟩ := plane_hit_found hF hodd hs ray (i := rh.ray.planeI) (q := p.native) ho hd hq hε hm hm0 hN hmeet hM
    (.inr ⟨k, hk⟩)
  have M0 := hmar.pos
  have ε0 := hq.ortho.rows.nonneg
  have hτ0 : 0 ≤ τ := by linarith [hmeet.late]
  have hκ1 : κ ≤ 101 / 100 := by
    refine hmeet.steep.trans ?_
    have e1 : |Vec3.dot (R.trans.mulVec d) (R.trans.mulVec d) - 1| ≤ 11 * u + 4 * ε := by
      have n1 := hq.ortho.norm d
      have n2 : 3 * ε * Vec3.dot d d ≤ 4 * ε := by
        have hd1 : Vec3.dot d d ≤ 101 / 100 := by have := (abs_le.1 hN).2; linarith
        have := mul_le_mul_of_nonneg_left hd1 ε0
        linarith
      exact (abs_near_trans n1 hN).trans (by linarith)
    exact (near_one_comp (e := R.trans.mulVec d) (e1.trans (by linarith))).2.2
  obtain ⟨t, mn, mx, t1, t2, t3, t4⟩ := plane_box_met (p := d) (n := 1) hF hs htiny (q := p.native) hq.center hq.dx hq.dy hq.rot hq.ortho
    hε hL hN (fun k => by
      rw [div_one, sub_self, abs_zero]
      exact add_nonneg (mul_nonneg u0.le (abs_nonneg _)) η0) hmeet hM hmar hκ1 hτ0 hτL
  rw [div_one] at t4
  exact ⟨M0, t, mn, mx, t1.trans (by linarith), t2, t3, t4⟩

/-! ### callbacks -/

theorem diff_size {o c : Vec3 K} {x : K} (h : |o.x| + |o.y| + |o.z| + |c.x| + |c.y| + |c.z| + x ≤ L) :
    |o.x - c.x| + |o.y - c.y| + |o.z - c.z| + x ≤ L := by
  have b1 := abs_sub_le' (le_refl |o.x|) (le_refl |c.x|)
  have b2 := abs_sub_le' (le_refl |o.y|) (le_refl |c.y|)
  have b3 := abs_sub_le' (le_refl |o.z|) (le_refl |c.z|)
  linarith

/-- the ray passed to Embree -/
structure LineNear (ray : RtcRay (XF F)) (o d : Vec3 K) (m u : K) : Prop where
  org : IsV ray.org o
  dir : IsV ray.dir d
  near : ray.tnear.Is m
  near0 : 0 ≤ m
  unit : |Vec3.dot d d - 1| ≤ 11 * u

theorem LineNear.same {x y : RtcRay (XF F)} {o d : Vec3 K} {m : K} (h : LineNear y o d m u) (hl : SameLine x y) : LineNear x o d m u :=
  ⟨hl.org ▸ h.org, hl.dir ▸ h.dir, hl.near ▸ h.near, h.near0, h.unit⟩

theorem UserGeom.intersect_line {T : Type} [Scalar T] (g : UserGeom T) (inst : Nat) (rh : RtcRayHit T) :
    SameLine (g.intersect inst rh).ray rh.ray := by
  rcases g.intersect_mayRecord inst rh with h | ⟨t, n, h⟩
  · rw [h]; exact ⟨rfl, rfl, rfl⟩
  · exact h.line

theorem UserGeom.limit (hF : F.Rounds u η hi) (hfa : F.Faithful u η) (hodd : F.Odd) (hs : Scale u η hi L) (ε0 : 0 ≤ ε)
    (hε : ε ≤ 1 / 1000) {g : UserGeom (XF F)} (inst : Nat) {rh : RtcRayHit (XF F)} {o d : Vec3 K} {m k : K}
    (hr : LineNear rh.ray o d m u) (hg : g.Within ε L o) (hk : rh.ray.tfar.Is k) :
    ∃ k', (g.intersect inst rh).ray.tfar.Is k' ∧ k' ≤ k + 220 * ((u + ε) * L) := by
  obtain ⟨u0, u1, η0, ηu, ηL, ηLL, ηuLL, ηuL, L0, uL0, -⟩ := hs.sizes
  have εL0 : 0 ≤ ε * L := mul_nonneg ε0 L0.le
  have e : (u + ε) * L = u * L + ε * L := by ring
  cases g with
  | sphere s =>
    obtain ⟨c, r, h1, h2, h3⟩ := hg
    obtain ⟨⟨k', h4, h5⟩, -⟩ := s.limit hF hs inst hr.org hr.dir hr.near hr.near0 hr.unit h1 h2 (diff_size h3) hk
    exact ⟨k', h4, by rw [e]; linarith⟩
  | plane p =>
    obtain ⟨c, a, b, R, h1, h2, h3, h4, h5, h6⟩ := hg
    have h6' := diff_size (L := L) (o := o) (c := c) (x := |a| + |b|) (by linarith)
    obtain ⟨k', h7, h8⟩ := p.limit hF hfa hodd hs inst hr.org hr.dir hr.near hr.near0 hr.unit ⟨h1, h2, h3, h4, h5, by linarith⟩ hε hk
    exact ⟨k', h7, by rw [e] at *; linarith⟩
  | cylinder c => exact hg.elim

theorem UserGeom.found (hF : F.Rounds u η hi) (hodd : F.Odd) (hs : Scale u η hi L) (ε0 : 0 ≤ ε)
    (hε : ε ≤ 1 / 1000) {g : UserGeom (XF F)} (inst : Nat) {rh : RtcRayHit (XF F)} {o d : Vec3 K} {m k τ M : K}
    (hr : LineNear rh.ray o d m u) (hg : g.Within ε L o) (hmet : g.ClearlyMet u ε L o d m τ M) (hk : rh.ray.tfar.Is k) :
    (∃ k', (g.intersect inst rh).ray.tfar.Is k' ∧ k' ≤ τ + M + 220 * ((u + ε) * L)) ∧
      (τ + M < k → (g.intersect inst rh).hit.geomID = g.geomID) := by
  obtain ⟨u0, u1, η0, ηu, ηL, ηLL, ηuLL, ηuL, L0, uL0, -⟩ := hs.sizes
  have εL0 : 0 ≤ ε * L := mul_nonneg ε0 L0.le
  have e : (u + ε) * L = u * L + ε * L := by ring
  cases g with
  | sphere s =>
    obtain ⟨c, r, h1, h2, h3⟩ := hg
    obtain ⟨c', r', h1', h2', hr0, hmτ, hM, hout, hin⟩ := hmet
    obtain rfl := h1.unique h1'
    obtain rfl := h2.unique h2'
    obtain ⟨⟨k', h4, h5⟩, h6⟩ := (s.limit hF hs inst hr.org hr.dir hr.near hr.near0 hr.unit h1 h2 (diff_size h3) hk).2 τ hmτ hout hin
    exact ⟨⟨k', h4, by rw [e]; linarith⟩, fun h => h6 (by linarith)⟩
  | plane p =>
    obtain ⟨c, a, b, R, h1, h2, h3, h4, h5, h6⟩ := hg
    obtain ⟨c', a', b', R', κ, h1', h2', h3', h4', hmeet, hM⟩ := hmet
    obtain rfl := h1.unique h1'
    obtain rfl := h2.unique h2'
    obtain rfl := h3.unique h3'
    obtain rfl := h4.only h4'
    have h6' := diff_size (L := L) (o := o) (c := c) (x := |a| + |b|) (by linarith)
    obtain ⟨⟨k', h7, h8⟩, h9⟩ := p.found hF hodd hs inst hr.org hr.dir hr.near hr.near0 hr.unit ⟨h1, h2, h3, h4, h5, by linarith⟩ hε hk
      hmeet hM
    exact ⟨⟨k', h7, by rw [e]; linarith⟩, h9⟩
  | cylinder c => exact hg.elim

/-- Embree calls the callback, unless something closer is known -/
theorem UserGeom.called (hF : F.Rounds u η hi) (hodd : F.Odd) (hs : Scale u η hi L) (htiny : |F.tiny| ≤ L)
    (hε : ε ≤ 1 / 1000) {rtc : Rtc (XF F)} (hrtc : rtc.Careful) {g : UserGeom (XF F)} {rh : RtcRayHit (XF F)} {o d : Vec3 K} {m k τ M : K}
    (hr : LineNear rh.ray o d m u) (hg : g.Within ε L o) (hmet : g.ClearlyMet u ε L o d m τ M) (hk : rh.ray.tfar.Is k)
    (hmiss : rtc.miss g.bounds rh.ray) : k ≤ τ + M := by
  by_contra hlt
  rw [not_le] at hlt
  cases g with
  | sphere s =>
    obtain ⟨c, r, h1, h2, h3⟩ := hg
    obtain ⟨c', r', h1', h2', hr0, hmτ, hM, hout, hin⟩ := hmet
    obtain rfl := h1.unique h1'
    obtain rfl := h2.unique h2'
    obtain ⟨mn, mx, b1, b2, b3⟩ := s.bounds_met hF hs hr.unit h1 h2 hr0 h3 (hr.near0.trans hmτ.le) hin
    exact hrtc.miss _ _ hmiss o d m k mn mx hr.org hr.dir hr.near hk b1 b2 τ hmτ.le (by linarith) b3
  | plane p =>
    obtain ⟨c, a, b, R, h1, h2, h3, h4, h5, h6⟩ := hg
    obtain ⟨c', a', b', R', κ, h1', h2', h3', h4', hmeet, hM⟩ := hmet
    obtain rfl := h1.unique h1'
    obtain rfl := h2.unique h2'
    obtain rfl := h3.unique h3'
    obtain rfl := h4.only h4'
    have h6' := diff_size (L := L) (o := o) (c := c) (x := |a| + |b|) (by linarith)
    have a1 := abs_nonneg o.x; have a2 := abs_nonneg o.y; have a3 := abs_nonneg o.z
    obtain ⟨M0, t, mn, mx, b1, b2, b3, b4⟩ := p.bounds_met hF hodd hs htiny hr.org hr.dir hr.near hr.near0 hr.unit
      ⟨h1, h2, h3, h4, h5, by linarith⟩ (by linarith) hε hk hmeet hM
    obtain ⟨c1, c2⟩ := abs_le.1 b1
    have hl := hmeet.late
    exact hrtc.miss _ _ hmiss o d m k mn mx hr.org hr.dir hr.near hk b2 b3 t (by linarith) (by linarith) b4
  | cylinder c => exact hg.elim

/-! ### scenes -/

theorem process_recorded {s : EmbScene (XF F)} {rtc : Rtc (XF F)} (hrtc : rtc.Careful) (hlen : s.attached.length ≤ invalidId)
    (hids : ∀ i g, s.HasUser i g → g.geomID = i) {i : Nat} (hi : i < s.attached.length) {x y : RtcRayHit (XF F)}
    (h : s.process rtc i x = .ok y) : y = x ∨ y.hit.geomID ≠ invalidId := by
  rcases process_cases h with ⟨g, hg, rfl⟩ | ⟨v, f, hm, rfl⟩
  · rcases g.intersect_mayRecord invalidId x with h | ⟨t, n, h⟩
    · exact .inl h
    · refine .inr ?_
      rw [h.geom, hids i g hg]
      omega
  · rcases hrtc.mesh v f i x with h | ⟨-, h, -⟩
    · exact .inl h
    · refine .inr ?_
      rw [h]
      omega

theorem process_limit (hF : F.Rounds u η hi) (hfa : F.Faithful u η) (hodd : F.Odd) (hs : Scale u η hi L) (ε0 : 0 ≤ ε)
    (hε : ε ≤ 1 / 1000) {s : EmbScene (XF F)} {rtc : Rtc (XF F)} (hrtc : rtc.Careful) {ray : RtcRay (XF F)} {o d : Vec3 K} {m : K}
    (hr : LineNear ray o d m u) (hg : ∀ i g, s.HasUser i g → g.Within ε L o) {i : Nat} {x y : RtcRayHit (XF F)} {k : K}
    (h : s.process rtc i x = .ok y) (hk : LimitIs ray x k) : ∃ k', LimitIs ray y k' ∧ k' ≤ k + 220 * ((u + ε) * L) := by
  rcases process_cases h with ⟨g, hg', rfl⟩ | ⟨v, f, hm, rfl⟩
  · obtain ⟨k', h1, h2⟩ := UserGeom.limit hF hfa hodd hs ε0 hε invalidId (hr.same hk.1) (hg i g hg') hk.2
    exact ⟨k', ⟨(g.intersect_line invalidId x).trans hk.1, h1⟩, h2⟩
  · have W0 : 0 ≤ (u + ε) * L := mul_nonneg (add_nonneg hs.u_pos.le ε0) hs.pos.le
    rcases hrtc.mesh v f i x with h | ⟨h1, -, h2⟩
    · rw [h]; exact ⟨k, hk, by linarith⟩
    · obtain ⟨k', h3, h4⟩ := h2 k hk.2
      exact ⟨k', ⟨h1.trans hk.1, h3⟩, by linarith⟩

/-- what both parts of C98 start from -/
theorem found_setup {u η hi : K} (hF : F.Rounds u η hi) {l : Layout} {calls : List (EmbCall (XF F))} {s : EmbScene (XF F)}
    (hrun : embRun l .init calls = .ok s) (hup : s.UpToDate) {rtc : Rtc (XF F)} {origin direction : Vec3 (XF F)}
    {minHit maxHit : XF F} {any : Bool} {o p d : Vec3 K} {m X : K} (ho : IsV origin o) (hdir : IsV direction p) (hmin : minHit.Is m)
    (hm : 0 ≤ m) (hscale : Scale u η hi (|p.x| + |p.y| + |p.z|)) (hmax : maxHit.Is X)
    (hd : IsV (Ray.make origin direction minHit maxHit any).direction d) {rayhit : RayHit (XF F)} {r : Run (Bool × RayHit (XF F))}
    (h : s.Intersect1 rtc (Ray.make origin direction minHit maxHit any) rayhit r) :
    ∃ bounds order z, (∀ i g, s.HasUser i g → bounds[i]? = some (some g.bounds)) ∧ order.Perm (List.range s.attached.length) ∧
      RtcTrace (s.process rtc) (EmbScene.MaySkip rtc bounds) order (Ray.make origin direction minHit maxHit any).toRtc (.ok z) ∧
      r = .ok (z.copyTo rayhit) ∧ LineNear (Ray.make origin direction minHit maxHit any).toRtc.ray o d m u ∧
      LimitIs (Ray.make origin direction minHit maxHit any).toRtc.ray (Ray.make origin direction minHit maxHit any).toRtc X := by
  obtain ⟨halive, b, h1, h2, h3, h4⟩ := upToDate_of_run hrun hup
  obtain ⟨order, r', h5, h6, h7⟩ := (intersect1_iff h1 h2).1 h
  obtain ⟨z, rfl⟩ := h6.ok_of fun i hi x => process_ok halive (List.mem_range.1 (h5.mem_iff.1 hi)) x
  obtain ⟨d', n, g1, g2, -⟩ := C68_direction _ _ _ hF origin direction minHit maxHit any p hdir hscale
  obtain rfl := g1.unique hd
  exact ⟨b, order, z, h3, h5, h6, h7, ⟨ho, hd, hmin, hm, g2⟩, ⟨rfl, rfl, rfl⟩, hmax⟩

end
end Blazert
