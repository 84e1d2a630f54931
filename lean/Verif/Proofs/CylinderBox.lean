/- The bounding box of a cylinder, and its outer normals. -/
import Verif.Proofs.Cylinder
import Verif.Spec.Cylinder

set_option autoImplicit false

namespace Blazert
open Scalar

variable {F : Fmt ℝ}

/-! ### the box -/

theorem mulVec_get (m : Mat3 ℝ) (v : Vec3 ℝ) (k : Fin 3) : (m.mulVec v).get k = Vec3.dot (m.row k) v := by
  match k with
  | 0 => rfl
  | 1 => rfl
  | 2 => rfl

/-- the half width of the box in the direction of axis `k` -/
noncomputable def boxExt (a b h : ℝ) (r : Vec3 ℝ) : ℝ := Max.max (Max.max |r.x * a| |r.y * b|) |r.z * (h / 2)|

theorem fold_max (p u v w : ℝ) :
    Max.max (Max.max (Max.max (Max.max (Max.max (p + u) (p + v)) (p - u)) (p - v)) (p + w)) (p - w) =
      p + Max.max (Max.max |u| |v|) |w| := by
  apply le_antisymm
  · refine max_le (max_le (max_le (max_le (max_le ?_ ?_) ?_) ?_) ?_) ?_
    · have := (le_abs_self u).trans ((le_max_left |u| |v|).trans (le_max_left _ |w|)); linarith
    · have := (le_abs_self v).trans ((le_max_right |u| |v|).trans (le_max_left _ |w|)); linarith
    · have := (neg_abs_le u); have := ((le_max_left |u| |v|).trans (le_max_left _ |w|)); linarith
    · have := (neg_abs_le v); have := ((le_max_right |u| |v|).trans (le_max_left _ |w|)); linarith
    · have := (le_abs_self w).trans (le_max_right (Max.max |u| |v|) |w|); linarith
    · have := neg_abs_le w; have := le_max_right (Max.max |u| |v|) |w|; linarith
  · rw [← max_add_add_left, ← max_add_add_left]
    refine max_le (max_le ?_ ?_) ?_
    · rcases abs_choice u with h | h <;> rw [h] <;> simp [le_max_iff, sub_eq_add_neg]
    · rcases abs_choice v with h | h <;> rw [h] <;> simp [le_max_iff, sub_eq_add_neg]
    · rcases abs_choice w with h | h <;> rw [h] <;> simp [le_max_iff, sub_eq_add_neg]

theorem fold_min (p u v w : ℝ) :
    Min.min (Min.min (Min.min (Min.min (Min.min (p + u) (p + v)) (p - u)) (p - v)) (p + w)) (p - w) =
      p - Max.max (Max.max |u| |v|) |w| := by
  have h := fold_max (-p) u v w
  have e1 : -p + u = -(p - u) := by ring
  have e2 : -p - u = -(p + u) := by ring
  have e3 : -p + v = -(p - v) := by ring
  have e4 : -p - v = -(p + v) := by ring
  have e5 : -p + w = -(p - w) := by ring
  have e6 : -p - w = -(p + w) := by ring
  rw [e1, e2, e3, e4, e5, e6, max_neg_neg, max_neg_neg, max_neg_neg, max_neg_neg, max_neg_neg] at h
  have h2 : Min.min (Min.min (Min.min (Min.min (Min.min (p + u) (p + v)) (p - u)) (p - v)) (p + w)) (p - w) =
      Min.min (Min.min (Min.min (Min.min (Min.min (p - u) (p - v)) (p + u)) (p + v)) (p - w)) (p + w) := by
    simp only [min_assoc, min_comm, min_left_comm]
  rw [h2]; linarith

theorem cylBox_is (hF : F.Exact) {center : Vec3 (XF F)} {xa xb xh : XF F} {rotation : Mat3 (XF F)} {c : Vec3 ℝ} {a b h : ℝ}
    {R : Mat3 ℝ} (hc : IsV center c) (ia : xa.Is a) (ib : xb.Is b) (ih : xh.Is h) (hr : IsM rotation R) :
    IsV (cylBox center xa xb xh rotation).1 (Vec3.ofFn fun k => c.get k - boxExt a b h (R.row k)) ∧
    IsV (cylBox center xa xb xh rotation).2 (Vec3.ofFn fun k => c.get k + boxExt a b h (R.row k)) := by
  have h2 := two_is hF (F := F)
  have z := XF.Is.zero hF (F := F)
  have u := hr.mulVec hF (v := ⟨xa, nat 0, nat 0⟩) (a := ⟨a, 0, 0⟩) ⟨ia, z, z⟩
  have v := hr.mulVec hF (v := ⟨nat 0, xb, nat 0⟩) (a := ⟨0, b, 0⟩) ⟨z, ib, z⟩
  have w := hr.mulVec hF (v := ⟨nat 0, nat 0, xh / nat 2⟩) (a := ⟨0, 0, h / 2⟩) ⟨z, z, ih.div hF h2 two_ne_zero⟩
  have e1 : ∀ k, ((R.mulVec ⟨a, 0, 0⟩).get k) = (R.row k).x * a := fun k => by rw [mulVec_get]; simp [Vec3.dot]
  have e2 : ∀ k, ((R.mulVec ⟨0, b, 0⟩).get k) = (R.row k).y * b := fun k => by rw [mulVec_get]; simp [Vec3.dot]
  have e3 : ∀ k, ((R.mulVec ⟨0, 0, h / 2⟩).get k) = (R.row k).z * (h / 2) := fun k => by rw [mulVec_get]; simp [Vec3.dot]
  have ga : ∀ (x y : Vec3 ℝ) k, (x + y).get k = x.get k + y.get k := by
    intro x y k; match k with
    | 0 => rfl
    | 1 => rfl
    | 2 => rfl
  have gs : ∀ (x y : Vec3 ℝ) k, (x - y).get k = x.get k - y.get k := by
    intro x y k; match k with
    | 0 => rfl
    | 1 => rfl
    | 2 => rfl
  have p1 := hc.add hF u; have p2 := hc.add hF v; have p3 := hc.sub hF u; have p4 := hc.sub hF v
  have p5 := hc.add hF w; have p6 := hc.sub hF w
  constructor
  · refine IsV.ofFn fun k => ?_
    have := (((((p1.get k).min (p2.get k)).min (p3.get k)).min (p4.get k)).min (p5.get k)).min (p6.get k)
    simp only [ga, gs, e1, e2, e3, fold_min] at this
    exact this
  · refine IsV.ofFn fun k => ?_
    have := (((((p1.get k).max (p2.get k)).max (p3.get k)).max (p4.get k)).max (p5.get k)).max (p6.get k)
    simp only [ga, gs, e1, e2, e3, fold_max] at this
    exact this

theorem boxExt_sound {a b h : ℝ} {r : Vec3 ℝ} (ha : 0 < a) (hb : 0 < b) (hh : 0 ≤ h)
    (hr : (r.y = 0 ∧ r.z = 0) ∨ (r.x = 0 ∧ r.z = 0) ∨ (r.x = 0 ∧ r.y = 0)) {x y z : ℝ} (h1 : x ^ 2 / a ^ 2 + y ^ 2 / b ^ 2 ≤ 1)
    (h2 : -(h / 2) ≤ z) (h3 : z ≤ h / 2) : |r.x * x + r.y * y + r.z * z| ≤ boxExt a b h r := by
  have hx : |x| ≤ a := by
    have : x ^ 2 / a ^ 2 ≤ 1 := by have : 0 ≤ y ^ 2 / b ^ 2 := by positivity
                                   linarith
    rw [div_le_one (by positivity)] at this
    exact abs_le_of_sq_le_sq this ha.le
  have hy : |y| ≤ b := by
    have : y ^ 2 / b ^ 2 ≤ 1 := by have : 0 ≤ x ^ 2 / a ^ 2 := by positivity
                                   linarith
    rw [div_le_one (by positivity)] at this
    exact abs_le_of_sq_le_sq this hb.le
  have hz : |z| ≤ h / 2 := abs_le.2 ⟨h2, h3⟩
  unfold boxExt
  rcases hr with ⟨k1, k2⟩ | ⟨k1, k2⟩ | ⟨k1, k2⟩ <;> rw [k1, k2] <;>
    simp only [zero_mul, add_zero, zero_add, abs_zero, abs_mul, abs_of_pos ha, abs_of_pos hb, abs_of_nonneg (div_nonneg hh two_pos.le)]
  · exact (mul_le_mul_of_nonneg_left hx (abs_nonneg _)).trans ((le_max_left _ _).trans (le_max_left _ _))
  · exact (mul_le_mul_of_nonneg_left hy (abs_nonneg _)).trans ((le_max_right _ _).trans (le_max_left _ _))
  · exact (mul_le_mul_of_nonneg_left hz (abs_nonneg _)).trans (le_max_right _ _)

theorem boxExt_lt {a b h : ℝ} {r : Vec3 ℝ} (ha : 0 < a) (hb : 0 < b) (hh : 0 < h)
    (hr : ¬ ((r.y = 0 ∧ r.z = 0) ∨ (r.x = 0 ∧ r.z = 0) ∨ (r.x = 0 ∧ r.y = 0))) :
    ∃ x y z, x ^ 2 / a ^ 2 + y ^ 2 / b ^ 2 ≤ 1 ∧ -(h / 2) ≤ z ∧ z ≤ h / 2 ∧ boxExt a b h r < r.x * x + r.y * y + r.z * z := by
  set u := r.x * a with hu
  set v := r.y * b with hv
  set w := r.z * (h / 2) with hw
  have u0 : u = 0 ↔ r.x = 0 := by rw [hu, mul_eq_zero, or_iff_left ha.ne']
  have v0 : v = 0 ↔ r.y = 0 := by rw [hv, mul_eq_zero, or_iff_left hb.ne']
  have w0 : w = 0 ↔ r.z = 0 := by rw [hw, mul_eq_zero, or_iff_left (by linarith : h / 2 ≠ 0)]
  rw [← u0, ← v0, ← w0] at hr
  set s := Real.sqrt (u ^ 2 + v ^ 2) with hs
  have hss : s * s = u ^ 2 + v ^ 2 := Real.mul_self_sqrt (by positivity)
  have hs0 : 0 ≤ s := Real.sqrt_nonneg _
  have hspos : 0 < s := by
    rcases hs0.lt_or_eq with h | h
    · exact h
    · exfalso
      rw [← h] at hss
      have h1 : u = 0 := by nlinarith [_root_.sq_nonneg u, _root_.sq_nonneg v]
      have h2 : v = 0 := by nlinarith [_root_.sq_nonneg u, _root_.sq_nonneg v]
      tauto
  -- the sign of w
  obtain ⟨σ, hσ, hσw⟩ : ∃ σ : ℝ, |σ| ≤ 1 ∧ σ * w = |w| := by
    rcases abs_choice w with h | h
    · exact ⟨1, by simp, by rw [h]; ring⟩
    · exact ⟨-1, by simp, by rw [h]; ring⟩
  have hσ' := abs_le.1 hσ
  refine ⟨a * (u / s), b * (v / s), σ * (h / 2), ?_, by nlinarith, by nlinarith, ?_⟩
  · have : (a * (u / s)) ^ 2 / a ^ 2 + (b * (v / s)) ^ 2 / b ^ 2 = (u ^ 2 + v ^ 2) / (s * s) := by field_simp
    rw [this, hss, div_self (by rw [← hss]; positivity)]
  · have e : r.x * (a * (u / s)) + r.y * (b * (v / s)) + r.z * (σ * (h / 2)) = s + |w| := by
      rw [← hσw]
      have : r.x * (a * (u / s)) + r.y * (b * (v / s)) + r.z * (σ * (h / 2)) = (u ^ 2 + v ^ 2) / s + σ * w := by
        rw [hu, hv, hw]; ring
      rw [this, ← hss, mul_self_div_self]
    rw [e]
    have hw0 : 0 ≤ |w| := abs_nonneg w
    have hu1 : |u| ≤ s := abs_le_of_sq_le_sq (by nlinarith [_root_.sq_nonneg v]) hs0
    have hv1 : |v| ≤ s := abs_le_of_sq_le_sq (by nlinarith [_root_.sq_nonneg u]) hs0
    have lt_of_ne : ∀ p q : ℝ, s * s = p ^ 2 + q ^ 2 → q ≠ 0 → |p| < s := by
      intro p q h1 h2
      have : 0 < q ^ 2 := by positivity
      exact abs_lt_of_sq_lt_sq (by nlinarith) hs0
    unfold boxExt
    refine max_lt (max_lt ?_ ?_) (by linarith)
    · by_cases h : w = 0
      · have : v ≠ 0 := by tauto
        linarith [lt_of_ne u v hss this]
      · linarith [abs_pos.2 h]
    · by_cases h : w = 0
      · have : u ≠ 0 := by tauto
        linarith [lt_of_ne v u (by rw [hss]; ring) this]
      · linarith [abs_pos.2 h]

/-! ### outer normals -/

theorem LNormal.outer {c o d : Vec3 ℝ} {a b h : ℝ} {R : Mat3 ℝ} (hR : Orthonormal R) (ha : 0 < a) (hb : 0 < b) {t : ℝ} {n : Vec3 ℝ}
    (hn : LNormal a b h (R.trans.mulVec (o - c)) (R.trans.mulVec d) t n) :
    OuterNormal (InCyl c a b h R) (along o d t) (R.mulVec n) := by
  have hl := trans_along R c o d t
  set g := R.trans.mulVec (o - c) with hg
  set e := R.trans.mulVec d with he
  have hp : along o d t = c + R.mulVec (along g e t) := (hR.local_iff _ _ _).2 hl
  have key : ∀ x y z, Vec3.dot (R.mulVec n) (c + R.mulVec ⟨x, y, z⟩ - along o d t) = Vec3.dot n (⟨x, y, z⟩ - along g e t) := by
    intro x y z
    rw [hp]
    have : c + R.mulVec ⟨x, y, z⟩ - (c + R.mulVec (along g e t)) = R.mulVec (⟨x, y, z⟩ - along g e t) := by
      rw [Mat3.mulVec_sub]; ext <;> simp
    rw [this, hR]
  refine ⟨?_, ?_⟩
  · rw [hR.len]
    rcases hn with ⟨hE, rfl⟩ | ⟨_, rfl⟩ | ⟨_, rfl⟩
    · exact len_divs_len (latNormal_ne ha hb hE)
    · simp [len, sq, Vec3.dot]
    · simp [len, sq, Vec3.dot]
  · rintro q ⟨x, y, z, k1, k2, k3, rfl⟩
    rw [key]
    rcases hn with ⟨hE, rfl⟩ | ⟨hz, rfl⟩ | ⟨hz, rfl⟩
    · set p := along g e t
      have hE' := (tube_iff ha hb g e t).2.2.2 hE
      have hlen := len_pos (latNormal_ne ha hb hE)
      have e1 : Vec3.dot (Vec3.divs (latNormal a b p) (len (latNormal a b p))) (⟨x, y, z⟩ - p) =
          2 * ((x * p.x / a ^ 2 + y * p.y / b ^ 2) - (p.x ^ 2 / a ^ 2 + p.y ^ 2 / b ^ 2)) / len (latNormal a b p) := by
        simp only [Vec3.dot, Vec3.divs, latNormal, Vec3.sub_x, Vec3.sub_y]
        field_simp; ring
      rw [e1]
      apply div_nonpos_of_nonpos_of_nonneg _ hlen.le
      have e2 : x * p.x / a ^ 2 + y * p.y / b ^ 2 ≤ ((x ^ 2 / a ^ 2 + y ^ 2 / b ^ 2) + (p.x ^ 2 / a ^ 2 + p.y ^ 2 / b ^ 2)) / 2 := by
        have h1 : 0 ≤ ((x - p.x) / a) ^ 2 + ((y - p.y) / b) ^ 2 := by positivity
        have h2 : ((x - p.x) / a) ^ 2 + ((y - p.y) / b) ^ 2 =
            (x ^ 2 / a ^ 2 + y ^ 2 / b ^ 2) + (p.x ^ 2 / a ^ 2 + p.y ^ 2 / b ^ 2) - 2 * (x * p.x / a ^ 2 + y * p.y / b ^ 2) := by
          field_simp; ring
        linarith
      linarith
    · simp only [Vec3.dot, Vec3.sub_x, Vec3.sub_y, Vec3.sub_z, along, Vec3.add_z, Vec3.smul_z]; linarith
    · simp only [Vec3.dot, Vec3.sub_x, Vec3.sub_y, Vec3.sub_z, along, Vec3.add_z, Vec3.smul_z]; linarith

/-! ### the test, in world coordinates -/

theorem inOpenCyl_along {c o d : Vec3 ℝ} {a b h : ℝ} {R : Mat3 ℝ} (hR : Orthonormal R) (ha : 0 < a) (hb : 0 < b) (t : ℝ) :
    InOpenCyl c a b h R (along o d t) ↔ LInt a b h (R.trans.mulVec (o - c)) (R.trans.mulVec d) t := by
  have hl := trans_along R c o d t
  have ti := tube_iff ha hb (R.trans.mulVec (o - c)) (R.trans.mulVec d) t
  unfold InOpenCyl LInt
  simp only [hR.local_iff, hl]
  constructor
  · rintro ⟨x, y, z, h1, h2, h3, h4⟩
    rw [h4] at ti
    have hz := congrArg Vec3.z h4
    simp only [along, Vec3.add_z, Vec3.smul_z] at hz
    exact ⟨ti.2.1.1 h1, by linarith, by linarith⟩
  · rintro ⟨h1, h2, h3⟩
    exact ⟨_, _, _, ti.2.1.2 h1, by simpa [along] using h2, by simpa [along] using h3, rfl⟩

theorem along_zero (o u : Vec3 ℝ) : along o u 0 = o := by unfold along; ext <;> simp

theorem CylTest.for {i : PlaneI (XF F)} {cy : Cylinder (XF F)} {c : Vec3 ℝ} {a b h : ℝ} {R : Mat3 ℝ} {o u : Vec3 ℝ}
    (H : CylTest i cy c a b h R o u) : cy.For c a b h R := ⟨H.center, H.isA, H.isB, H.height, H.rot⟩

section
variable {i : PlaneI (XF F)} {cy : Cylinder (XF F)} {c : Vec3 ℝ} {a b h : ℝ} {R : Mat3 ℝ} {o u : Vec3 ℝ}

theorem CylTest.outside (hF : F.Exact) (H : CylTest i cy c a b h R o u) (ray : Ray (XF F)) (h0 : ¬ InCyl c a b h R o)
    (hz : ¬ AtCapLevel c h R o) :
    OutsideOk i cy.primId a b h R (R.trans.mulVec (o - c)) (R.trans.mulVec u) (cylIntersect i cy ray) := by
  have hloc : o = c + R.mulVec (R.trans.mulVec (o - c)) := (H.orth.local_iff _ _ _).2 rfl
  refine cylIntersect_outside hF i cy ray H.for H.a_pos H.b_pos H.h_pos.le H.orth H.org H.dir H.unit rfl rfl ?_ ?_ ?_
  · rw [← inCyl_along H.orth H.a_pos H.b_pos, along_zero]; exact h0
  · exact fun hc => hz ⟨_, _, _, .inl hc, hloc⟩
  · exact fun hc => hz ⟨_, _, _, .inr hc, hloc⟩

/-- inside, or on the lateral surface and heading inside -/
theorem CylTest.entering (H : CylTest i cy c a b h R o u) (h0 : InCyl c a b h R o)
    (hlat : OnLateral c a b h R o → ∃ t, 0 < t ∧ InTube c a b R (along o u t)) :
    Entering a b (R.trans.mulVec (o - c)) (R.trans.mulVec u) := by
  have hloc : o = c + R.mulVec (R.trans.mulVec (o - c)) := (H.orth.local_iff _ _ _).2 rfl
  have hin : LIn a b h (R.trans.mulVec (o - c)) (R.trans.mulVec u) 0 := by
    rw [← inCyl_along H.orth H.a_pos H.b_pos, along_zero]; exact h0
  rcases hin.1.lt_or_eq with hE | hE
  · exact .inl hE
  · refine .inr ⟨hE, ?_⟩
    have ti := (tube_iff H.a_pos H.b_pos (R.trans.mulVec (o - c)) (R.trans.mulVec u) 0).2.2.2 hE
    rw [along_zero] at ti
    have z1 := hin.2.1; have z2 := hin.2.2
    rw [zero_mul, add_zero] at z1 z2
    obtain ⟨t, ht, x, y, z, hxy, hp⟩ := hlat ⟨_, _, _, ti, z1, z2, hloc⟩
    rw [H.orth.local_iff, trans_along] at hp
    have ti' := tube_iff H.a_pos H.b_pos (R.trans.mulVec (o - c)) (R.trans.mulVec u) t
    rw [hp] at ti'
    have hneg := ti'.2.1.1 hxy
    by_contra hB
    have hq : cylE a b (R.trans.mulVec (o - c)) (R.trans.mulVec u) t =
        latA a b (R.trans.mulVec u) * (t * t) + 2 * (latB a b (R.trans.mulVec (o - c)) (R.trans.mulVec u) * t) +
          cylE a b (R.trans.mulVec (o - c)) (R.trans.mulVec u) 0 := by
      unfold cylE latA latB; ring
    rw [hE] at hq
    have := mul_nonneg (latA_nonneg (a := a) (b := b) (e := R.trans.mulVec u)) (mul_self_nonneg t)
    have := mul_nonneg (not_lt.1 hB) ht.le
    linarith

theorem CylTest.inside (hF : F.Exact) (H : CylTest i cy c a b h R o u) (ray : Ray (XF F)) (h0 : InCyl c a b h R o)
    (hlat : OnLateral c a b h R o → ∃ t, 0 < t ∧ InTube c a b R (along o u t)) :
    InsideOk i cy.primId a b h R (R.trans.mulVec (o - c)) (R.trans.mulVec u) (cylIntersect i cy ray) := by
  have hin : LIn a b h (R.trans.mulVec (o - c)) (R.trans.mulVec u) 0 := by
    rw [← inCyl_along H.orth H.a_pos H.b_pos, along_zero]; exact h0
  exact cylIntersect_inside_ok hF i cy ray H.for H.a_pos H.b_pos H.h_pos.le H.orth H.org H.dir H.unit rfl rfl hin (H.entering h0 hlat)

/-- in the plane of a cap but not in the solid -/
theorem CylTest.cap_level (hF : F.Exact) (H : CylTest i cy c a b h R o u) (ray : Ray (XF F)) (h0 : ¬ InCyl c a b h R o)
    (hz : AtCapLevel c h R o) : cylIntersect i cy ray = (i, false) := by
  refine cylIntersect_cap_level hF i cy ray H.for H.a_pos H.b_pos H.h_pos.le H.orth H.org H.dir H.unit rfl
    (e := R.trans.mulVec u) rfl ?_ ?_
  · by_contra hn
    obtain ⟨x, y, z, hz, hp⟩ := hz
    apply h0
    rw [← along_zero o u, inCyl_along H.orth H.a_pos H.b_pos]
    have hp' := (H.orth.local_iff _ _ _).1 hp
    have : (R.trans.mulVec (o - c)).z = z := by rw [hp']
    have hh := H.h_pos
    refine ⟨not_lt.1 hn, ?_, ?_⟩ <;> rw [this] <;> rcases hz with hz | hz <;> rw [hz] <;> linarith
  · obtain ⟨x, y, z, hz, hp⟩ := hz
    have hp' := (H.orth.local_iff _ _ _).1 hp
    rw [hp']; exact hz

end

/-- `post_traversal` normalises a normal which is a unit vector already -/
theorem post_ok (hF : F.Exact) {S : Vec3 ℝ → Prop} {i : PlaneI (XF F)} (rh : RayHit (XF F)) {t : ℝ} {n : Vec3 ℝ} (h1 : i.hd.Is t)
    (h2 : IsV i.normal n) {o u : Vec3 ℝ} (hp : OuterNormal S (along o u t) n) :
    ∃ t rh' n, i.hd.Is t ∧ planePost i rh = .ok rh' ∧ IsV rh'.normal n ∧ OuterNormal S (along o u t) n := by
  have hne : n ≠ ⟨0, 0, 0⟩ := by
    intro h0
    have := hp.1
    rw [h0] at this
    simp [len, sq, Vec3.dot] at this
  have := h2.normalize hF hne
  rw [hp.1] at this
  refine ⟨t, _, _, h1, rfl, this, ?_⟩
  convert hp using 1
  ext <;> simp

/-! ### the limits are not used -/

section
variable {T : Type} [Scalar T] (i : PlaneI T) (x y : T)

/-- the result for an intersector with other limits -/
def withLimits (r : PlaneI T × Bool) : PlaneI T × Bool :=
  ({ r.1 with minHit := y, hd := if r.2 then r.1.hd else x }, r.2)

theorem cylLateralOutside_limits (cy : Cylinder T) (org dir : Vec3 T) :
    cylLateralOutside { i with hd := x, minHit := y } cy org dir = withLimits x y (cylLateralOutside i cy org dir) := by
  unfold cylLateralOutside
  simp only
  split_ifs <;> rfl

theorem cylAboveBelow_limits (cy : Cylinder T) (org dir : Vec3 T) (cap nz : T) :
    cylAboveBelow { i with hd := x, minHit := y } cy org dir cap nz = withLimits x y (cylAboveBelow i cy org dir cap nz) := by
  unfold cylAboveBelow
  simp only [cylLateralOutside_limits]
  split_ifs <;> rfl

theorem cylCapsInside_limits (cy : Cylinder T) (org dir : Vec3 T) :
    cylCapsInside { i with hd := x, minHit := y } cy org dir = withLimits x y (cylCapsInside i cy org dir) := by
  unfold cylCapsInside
  simp only
  split_ifs <;> rfl

theorem cylInside_limits (cy : Cylinder T) (org dir : Vec3 T) :
    cylInside { i with hd := x, minHit := y } cy org dir = withLimits x y (cylInside i cy org dir) := by
  unfold cylInside
  simp only [cylCapsInside_limits]
  split_ifs <;> rfl

theorem cylIntersect_limits (cy : Cylinder T) (ray : Ray T) :
    cylIntersect { i with hd := x, minHit := y } cy ray = withLimits x y (cylIntersect i cy ray) := by
  unfold cylIntersect
  simp only [cylAboveBelow_limits, cylLateralOutside_limits, cylInside_limits]
  have e : ∀ r : PlaneI T × Bool, (withLimits x y r).2 = r.2 := fun _ => rfl
  simp only [e]
  split_ifs <;> first | rfl | simp_all

end

end Blazert
