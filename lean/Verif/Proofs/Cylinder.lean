/- The cylinder test in exact arithmetic, in the coordinates of the cylinder. -/
import Verif.Model.Cylinder
import Verif.Proofs.Plane

set_option autoImplicit false

namespace Blazert
open Scalar

/-! ### the quadratic equation of the lateral surface -/

/-- negative inside the infinite elliptic cylinder, zero on it, positive outside (at the point with parameter `t`) -/
def cylE (a b : ℝ) (g e : Vec3 ℝ) (t : ℝ) : ℝ := b * b * (g.x + t * e.x) ^ 2 + a * a * (g.y + t * e.y) ^ 2 - a * a * b * b

/-- coefficients -/
def latA (a b : ℝ) (e : Vec3 ℝ) : ℝ := a * a * e.y * e.y + b * b * e.x * e.x
def latB (a b : ℝ) (g e : Vec3 ℝ) : ℝ := a * a * e.y * g.y + b * b * e.x * g.x
def latC (a b : ℝ) (g e : Vec3 ℝ) : ℝ :=
  a * a * e.y * e.y + b * b * e.x * e.x - e.x * e.x * g.y * g.y + 2 * e.x * e.y * g.x * g.y - e.y * e.y * g.x * g.x
noncomputable def latT0 (a b : ℝ) (g e : Vec3 ℝ) : ℝ := 1 / latA a b e * (-latB a b g e + a * b * Real.sqrt (latC a b g e))
noncomputable def latT1 (a b : ℝ) (g e : Vec3 ℝ) : ℝ := -1 / latA a b e * (latB a b g e + a * b * Real.sqrt (latC a b g e))

section
variable {a b : ℝ} {g e : Vec3 ℝ}

theorem cylE_sq (t : ℝ) : latA a b e * cylE a b g e t = (latA a b e * t + latB a b g e) ^ 2 - (a * b) ^ 2 * latC a b g e := by
  unfold latA cylE latB latC; ring

theorem latA_nonneg : 0 ≤ latA a b e := by unfold latA; nlinarith [mul_self_nonneg (a * e.y), mul_self_nonneg (b * e.x)]

theorem latA_pos (ha : 0 < a) (hb : 0 < b) (h : e.x ≠ 0 ∨ e.y ≠ 0) : 0 < latA a b e := by
  have h1 : latA a b e = (a * e.y) ^ 2 + (b * e.x) ^ 2 := by unfold latA; ring
  rw [h1]
  rcases h with h | h
  · have : b * e.x ≠ 0 := mul_ne_zero hb.ne' h
    positivity
  · have : a * e.y ≠ 0 := mul_ne_zero ha.ne' h
    positivity

theorem cylE_pos_of_latC_neg (ha : 0 < a) (hb : 0 < b) (h : latC a b g e < 0) (t : ℝ) : 0 < cylE a b g e t := by
  have hA : 0 < latA a b e := by
    apply latA_pos ha hb
    by_contra hne
    push Not at hne
    unfold latC at h
    rw [hne.1, hne.2] at h
    norm_num at h
  have h1 := cylE_sq (a := a) (b := b) (g := g) (e := e) t
  have h2 : 0 < (a * b) ^ 2 * -latC a b g e := mul_pos (by positivity) (by linarith)
  have h3 : 0 < latA a b e * cylE a b g e t := by nlinarith [_root_.sq_nonneg (latA a b e * t + latB a b g e)]
  exact pos_of_mul_pos_right h3 hA.le

theorem cylE_factor (hA : 0 < latA a b e) (hC : 0 ≤ latC a b g e) (t : ℝ) :
    cylE a b g e t = latA a b e * (t - latT0 a b g e) * (t - latT1 a b g e) := by
  have h1 := cylE_sq (a := a) (b := b) (g := g) (e := e) t
  have h2 : latA a b e * latT0 a b g e = -latB a b g e + a * b * Real.sqrt (latC a b g e) := by
    unfold latT0; rw [← mul_assoc, mul_one_div_cancel hA.ne', one_mul]
  have h3 : latA a b e * latT1 a b g e = -(latB a b g e + a * b * Real.sqrt (latC a b g e)) := by
    unfold latT1; rw [← mul_assoc, mul_div_cancel₀ _ hA.ne']; ring
  have h4 := Real.mul_self_sqrt hC
  apply mul_left_cancel₀ hA.ne'
  rw [h1]
  have : latA a b e * (latA a b e * (t - latT0 a b g e) * (t - latT1 a b g e)) =
    (latA a b e * t - latA a b e * latT0 a b g e) * (latA a b e * t - latA a b e * latT1 a b g e) := by ring
  rw [this, h2, h3]
  linear_combination (a * b) ^ 2 * h4

theorem latT1_le (ha : 0 < a) (hb : 0 < b) (hA : 0 < latA a b e) : latT1 a b g e ≤ latT0 a b g e := by
  have : latT0 a b g e - latT1 a b g e = 1 / latA a b e * (2 * (a * b * Real.sqrt (latC a b g e))) := by
    unfold latT0 latT1; ring
  have : 0 ≤ 1 / latA a b e * (2 * (a * b * Real.sqrt (latC a b g e))) := by positivity
  linarith

theorem cylE_const (h1 : e.x = 0) (h2 : e.y = 0) (t : ℝ) : cylE a b g e t = cylE a b g e 0 := by
  unfold cylE; rw [h1, h2]; ring

/-- inside exactly between the roots -/
theorem cylE_neg_iff (ha : 0 < a) (hb : 0 < b) (hA : 0 < latA a b e) (hC : 0 ≤ latC a b g e) (t : ℝ) :
    cylE a b g e t < 0 ↔ latT1 a b g e < t ∧ t < latT0 a b g e := by
  have hle := latT1_le (g := g) ha hb hA
  rw [cylE_factor hA hC, mul_assoc]
  constructor
  · intro h
    have h' : (t - latT0 a b g e) * (t - latT1 a b g e) < 0 := by
      by_contra hn
      exact absurd (mul_nonneg hA.le (not_lt.1 hn)) (not_le.2 h)
    rcases mul_neg_iff.1 h' with ⟨h1, h2⟩ | ⟨h1, h2⟩
    · linarith
    · exact ⟨by linarith, by linarith⟩
  · rintro ⟨h1, h2⟩
    exact mul_neg_of_pos_of_neg hA (mul_neg_of_neg_of_pos (by linarith) (by linarith))

theorem cylE_pos_of_lt (ha : 0 < a) (hb : 0 < b) (hA : 0 < latA a b e) (hC : 0 ≤ latC a b g e) {t : ℝ} (h : t < latT1 a b g e) :
    0 < cylE a b g e t := by
  have hle := latT1_le (g := g) ha hb hA
  rw [cylE_factor hA hC, mul_assoc]
  exact mul_pos hA (mul_pos_of_neg_of_neg (by linarith) (by linarith))

theorem cylE_T0 (hA : 0 < latA a b e) (hC : 0 ≤ latC a b g e) : cylE a b g e (latT0 a b g e) = 0 := by
  rw [cylE_factor hA hC]; ring
theorem cylE_T1 (hA : 0 < latA a b e) (hC : 0 ≤ latC a b g e) : cylE a b g e (latT1 a b g e) = 0 := by
  rw [cylE_factor hA hC]; ring

end

/-! ### the code -/

variable {F : Fmt ℝ}

/-- `cy` stands for the cylinder with center `c`, half axes `a`, `b`, height `h` and orientation `R` -/
structure Cylinder.For (cy : Cylinder (XF F)) (c : Vec3 ℝ) (a b h : ℝ) (R : Mat3 ℝ) : Prop where
  center : IsV cy.center c
  a : cy.a.Is a
  b : cy.b.Is b
  height : cy.height.Is h
  rot : IsM cy.rotation R

/-- direction of the normal of the lateral surface, in the coordinates of the cylinder -/
noncomputable def latNormal (a b : ℝ) (p : Vec3 ℝ) : Vec3 ℝ := ⟨2 * p.x / (a * a), 2 * p.y / (b * b), 0⟩

theorem two_is (hF : F.Exact) : (nat 2 : XF F).Is 2 := by simpa using XF.Is.nat hF 2

section
variable {xa xb : XF F} {xg xe : Vec3 (XF F)} {a b : ℝ} {g e : Vec3 ℝ}

theorem cylABC_is (hF : F.Exact) (ia : xa.Is a) (ib : xb.Is b) (ig : IsV xg g) (ie : IsV xe e) :
    (cylABC xa xb xg xe).1.Is (latA a b e) ∧ (cylABC xa xb xg xe).2.1.Is (latB a b g e) ∧
    (cylABC xa xb xg xe).2.2.Is (latC a b g e) := by
  obtain ⟨gx, gy, gz⟩ := ig
  obtain ⟨ex, ey, ez⟩ := ie
  have h1 := ((ia.mul hF ia).mul hF ey).mul hF ey
  have h2 := ((ib.mul hF ib).mul hF ex).mul hF ex
  refine ⟨h1.add hF h2, (((ia.mul hF ia).mul hF ey).mul hF gy).add hF (((ib.mul hF ib).mul hF ex).mul hF gx), ?_⟩
  exact (((h1.add hF h2).sub hF (((ex.mul hF ex).mul hF gy).mul hF gy)).add hF
    (((((two_is hF).mul hF ex).mul hF ey).mul hF gx).mul hF gy)).sub hF (((ey.mul hF ey).mul hF gx).mul hF gx)

theorem cylT_is (hF : F.Exact) {A B C : XF F} (ia : xa.Is a) (ib : xb.Is b) (hA : A.Is (latA a b e)) (hB : B.Is (latB a b g e))
    (hC : C.Is (latC a b g e)) (hpos : 0 < latA a b e) (hnn : 0 ≤ latC a b g e) :
    (cylT0 xa xb A B C).Is (latT0 a b g e) ∧ (cylT1 xa xb A B C).Is (latT1 a b g e) := by
  have i1 := XF.Is.one hF (F := F)
  have hs := (ia.mul hF ib).mul hF (hC.sqrt hF hnn)
  exact ⟨(i1.div hF hA hpos.ne').mul hF (hB.neg.add hF hs), (i1.neg.div hF hA hpos.ne').mul hF (hB.add hF hs)⟩

/-- If the ray is parallel to the axis, the two roots are NaN. -/
theorem cylT_nan (hF : F.Exact) {A B C : XF F} (ia : xa.Is a) (ib : xb.Is b) (hA : A.Is 0) (hB : B.Is 0) (hC : C.Is 0) :
    cylT0 xa xb A B C = .nan ∧ cylT1 xa xb A B C = .nan := by
  have i1 := XF.Is.one hF (F := F)
  have hs := (ia.mul hF ib).mul hF (hC.sqrt hF le_rfl)
  rw [Real.sqrt_zero, mul_zero] at hs
  have key : ∀ x y : XF F, ∀ r : ℝ, x.Is r → r ≠ 0 → y.Is 0 → x / A * y = .nan := by
    rintro x y r ⟨s, rfl⟩ hr ⟨s', rfl⟩
    obtain ⟨s'', rfl⟩ := hA
    show XF.mul (XF.div _ _) _ = _
    simp [XF.div, XF.mul, hr]
  constructor
  · exact key _ _ 1 i1 one_ne_zero (by simpa using hB.neg.add hF hs)
  · exact key _ _ (-1) i1.neg (by norm_num) (by simpa using hB.add hF hs)

theorem cylInZ_iff (hF : F.Exact) {xh z : XF F} {h w : ℝ} (ih : xh.Is h) (iz : z.Is w) :
    cylInZ xh z = true ↔ -(h / 2) ≤ w ∧ w ≤ h / 2 := by
  unfold cylInZ
  have h2 := two_is hF (F := F)
  rw [Bool.and_eq_true, iz.le (ih.div hF h2 two_ne_zero), iz.ge (ih.neg.div hF h2 two_ne_zero), neg_div]
  exact and_comm

theorem cylNg_is (hF : F.Exact) {rot : Mat3 (XF F)} {R : Mat3 ℝ} (hr : IsM rot R) {n : Vec3 (XF F)} {w : Vec3 ℝ} (hn : IsV n w)
    (hw : w ≠ ⟨0, 0, 0⟩) : IsV (cylNg rot n) (Vec3.divs (R.mulVec w) (len w)) :=
  (hn.norm hF |> fun h => IsV.divs hF h (len_pos hw).ne' (hr.mulVec hF hn))

theorem cylNormal_is (hF : F.Exact) (ia : xa.Is a) (ib : xb.Is b) (ha : 0 < a) (hb : 0 < b) {p : Vec3 (XF F)} {q : Vec3 ℝ}
    (hp : IsV p q) : IsV (cylNormal xa xb p) (latNormal a b q) := by
  have h2 := two_is hF (F := F)
  exact ⟨(h2.mul hF hp.1).div hF (ia.mul hF ia) (mul_pos ha ha).ne', (h2.mul hF hp.2.1).div hF (ib.mul hF ib) (mul_pos hb hb).ne',
    XF.Is.zero hF⟩

/-- a point of the lateral surface is not on the axis -/
theorem latNormal_ne (ha : 0 < a) (hb : 0 < b) {t : ℝ} (h : cylE a b g e t = 0) : latNormal a b (along g e t) ≠ ⟨0, 0, 0⟩ := by
  intro h0
  have hx := congrArg Vec3.x h0
  have hy := congrArg Vec3.y h0
  simp only [latNormal, along, Vec3.add_x, Vec3.add_y, Vec3.smul_x, Vec3.smul_y] at hx hy
  have hx' : g.x + t * e.x = 0 := by
    rcases div_eq_zero_iff.1 hx with h | h
    · linarith
    · exact absurd h (mul_pos ha ha).ne'
  have hy' : g.y + t * e.y = 0 := by
    rcases div_eq_zero_iff.1 hy with h | h
    · linarith
    · exact absurd h (mul_pos hb hb).ne'
  unfold cylE at h
  rw [hx', hy'] at h
  have : 0 < a * a * b * b := by positivity
  linarith

end

/-- the record of a hit at the parameter `t` with normal `N` -/
def CylRecord (i : PlaneI (XF F)) (primId : Nat) (t : ℝ) (N : Vec3 ℝ) (r : PlaneI (XF F) × Bool) : Prop :=
  ∃ n hd, IsV n N ∧ hd.Is t ∧ r = ({ i with normal := n, hd := hd, primId := primId }, true)

theorem record_is (hF : F.Exact) (i : PlaneI (XF F)) {n : Vec3 (XF F)} {N : Vec3 ℝ} (hn : IsV n N) {x : XF F} {t : ℝ} (hx : x.Is t)
    (ht : 0 ≤ t) {xe : Vec3 (XF F)} {e : Vec3 ℝ} (ie : IsV xe e) (he : sq e = 1) (primId : Nat) :
    CylRecord i primId t N (i.record n x xe primId) := by
  refine ⟨n, _, hn, ?_, rfl⟩
  have := (IsV.smul hF hx ie).norm hF
  rwa [len_smul_unit he ht] at this

section
variable (hF : F.Exact) (i : PlaneI (XF F)) (cy : Cylinder (XF F)) {c : Vec3 ℝ} {a b h : ℝ} {R : Mat3 ℝ} (hcy : cy.For c a b h R)
  (ha : 0 < a) (hb : 0 < b) {xg xe : Vec3 (XF F)} {g e : Vec3 ℝ} (ig : IsV xg g) (ie : IsV xe e) (he : sq e = 1)
include hF hcy ha hb ig ie he

/-- The lateral test from outside: it reports the first root, if it is positive, in range, and not a double root. -/
theorem cylLateralOutside_cases :
    (cylLateralOutside i cy xg xe = (i, false) ∧ ∀ t, cylE a b g e t < 0 →
      (∀ s, cylE a b g e s = cylE a b g e 0) ∨
      ∃ t1, t1 < t ∧ (∀ s, s < t1 → 0 < cylE a b g e s) ∧ (∀ s, t1 < s → s ≤ t → cylE a b g e s < 0) ∧
        ¬ (0 < t1 ∧ -(h / 2) ≤ g.z + t1 * e.z ∧ g.z + t1 * e.z ≤ h / 2)) ∨
    ∃ t, 0 < t ∧ -(h / 2) ≤ g.z + t * e.z ∧ g.z + t * e.z ≤ h / 2 ∧ cylE a b g e t = 0 ∧ (∀ s, s < t → 0 < cylE a b g e s) ∧
      CylRecord i cy.primId t (Vec3.divs (R.mulVec (latNormal a b (along g e t))) (len (latNormal a b (along g e t))))
        (cylLateralOutside i cy xg xe) := by
  obtain ⟨iA, iB, iC⟩ := cylABC_is hF hcy.a hcy.b ig ie
  have i0 := XF.Is.zero hF (F := F)
  unfold cylLateralOutside
  simp only
  by_cases hC : latC a b g e < 0
  · rw [if_pos ((iC.lt i0).2 hC)]
    exact .inl ⟨rfl, fun t ht => absurd ht (not_lt.2 (cylE_pos_of_latC_neg ha hb hC t).le)⟩
  rw [if_neg (fun hh => hC ((iC.lt i0).1 hh))]
  have hC := not_lt.1 hC
  by_cases hxy : e.x = 0 ∧ e.y = 0
  · have hA0 : latA a b e = 0 := by unfold latA; rw [hxy.1, hxy.2]; ring
    have hB0 : latB a b g e = 0 := by unfold latB; rw [hxy.1, hxy.2]; ring
    have hC0 : latC a b g e = 0 := by unfold latC; rw [hxy.1, hxy.2]; ring
    rw [hA0] at iA; rw [hB0] at iB; rw [hC0] at iC
    obtain ⟨n0, n1⟩ := cylT_nan hF hcy.a hcy.b iA iB iC
    rw [n0, n1]
    left
    refine ⟨?_, fun t _ => .inl fun s => cylE_const hxy.1 hxy.2 s⟩
    have : gt (XF.nan : XF F) (nat 0) = false := by
      obtain ⟨s, h⟩ := i0
      rw [h]; rfl
    simp [this]
  · have hA : 0 < latA a b e := latA_pos ha hb (by tauto)
    obtain ⟨k0, k1⟩ := cylT_is hF hcy.a hcy.b iA iB iC hA hC
    have hle := latT1_le (g := g) ha hb hA
    have p1 := ig.add hF (.muls hF k1 ie)
    have ez : (g + Vec3.muls e (latT1 a b g e)).z = g.z + latT1 a b g e * e.z := by
      simp only [Vec3.add_z, Vec3.muls_z]; ring
    by_cases hcond : 0 < latT1 a b g e ∧ latT1 a b g e < latT0 a b g e ∧
        (-(h / 2) ≤ g.z + latT1 a b g e * e.z ∧ g.z + latT1 a b g e * e.z ≤ h / 2)
    · rw [if_pos (by rw [Bool.and_eq_true, Bool.and_eq_true, k1.gt i0, k1.lt k0, cylInZ_iff hF hcy.height p1.2.2, ez]; tauto)]
      right
      have hz := cylE_T1 (g := g) hA hC
      refine ⟨_, hcond.1, hcond.2.2.1, hcond.2.2.2, hz, fun s hs => cylE_pos_of_lt ha hb hA hC hs, ?_⟩
      have ea : g + Vec3.muls e (latT1 a b g e) = along g e (latT1 a b g e) := by
        unfold along; congr 1; ext <;> simp [mul_comm]
      rw [ea] at p1
      exact record_is hF i (cylNg_is hF hcy.rot (cylNormal_is hF hcy.a hcy.b ha hb p1) (latNormal_ne ha hb hz)) k1 hcond.1.le ie he _
    · rw [if_neg (by rw [Bool.and_eq_true, Bool.and_eq_true, k1.gt i0, k1.lt k0, cylInZ_iff hF hcy.height p1.2.2, ez]; tauto),
        if_neg (by
          rw [Bool.and_eq_true, Bool.and_eq_true, k0.lt k1]
          rintro ⟨⟨_, h2⟩, _⟩
          linarith)]
      left
      refine ⟨rfl, fun t ht => .inr ?_⟩
      obtain ⟨h1, h2⟩ := (cylE_neg_iff ha hb hA hC t).1 ht
      refine ⟨latT1 a b g e, h1, fun s hs => cylE_pos_of_lt ha hb hA hC hs,
        fun s hs hst => (cylE_neg_iff ha hb hA hC s).2 ⟨hs, by linarith⟩, ?_⟩
      intro hh
      exact hcond ⟨hh.1, by linarith, hh.2⟩

end

/-! ### first entry from outside -/

/-- the point with parameter `t` is in the solid / in its interior / on its surface, in the coordinates of the cylinder -/
def LIn (a b h : ℝ) (g e : Vec3 ℝ) (t : ℝ) : Prop := cylE a b g e t ≤ 0 ∧ -(h / 2) ≤ g.z + t * e.z ∧ g.z + t * e.z ≤ h / 2
@[inherit_doc LIn]
def LInt (a b h : ℝ) (g e : Vec3 ℝ) (t : ℝ) : Prop := cylE a b g e t < 0 ∧ -(h / 2) < g.z + t * e.z ∧ g.z + t * e.z < h / 2
@[inherit_doc LIn]
def LOn (a b h : ℝ) (g e : Vec3 ℝ) (t : ℝ) : Prop :=
  (cylE a b g e t = 0 ∧ -(h / 2) ≤ g.z + t * e.z ∧ g.z + t * e.z ≤ h / 2) ∨
  (cylE a b g e t ≤ 0 ∧ (g.z + t * e.z = h / 2 ∨ g.z + t * e.z = -(h / 2)))

/-- `n` is the outer unit normal of the lateral surface or of a cap -/
def LNormal (a b h : ℝ) (g e : Vec3 ℝ) (t : ℝ) (n : Vec3 ℝ) : Prop :=
  (cylE a b g e t = 0 ∧ n = Vec3.divs (latNormal a b (along g e t)) (len (latNormal a b (along g e t)))) ∨
  (g.z + t * e.z = h / 2 ∧ n = ⟨0, 0, 1⟩) ∨ (g.z + t * e.z = -(h / 2) ∧ n = ⟨0, 0, -1⟩)

theorem mulVec_divs (m : Mat3 ℝ) (v : Vec3 ℝ) (c : ℝ) : Vec3.divs (m.mulVec v) c = m.mulVec (Vec3.divs v c) := by
  ext <;> simp [Mat3.mulVec, Vec3.dot] <;> ring

theorem capNg_is (hF : F.Exact) {rot : Mat3 (XF F)} {R : Mat3 ℝ} (hr : IsM rot R) {x : XF F} {s : ℝ} (hx : x.Is s) (hs : |s| = 1) :
    IsV (cylNg rot ⟨nat 0, nat 0, x⟩) (R.mulVec ⟨0, 0, s⟩) := by
  have hl : len (⟨0, 0, s⟩ : Vec3 ℝ) = 1 := by
    unfold len sq Vec3.dot
    simp only [mul_zero, add_zero, zero_add]
    rw [Real.sqrt_mul_self_eq_abs, hs]
  have hne : (⟨0, 0, s⟩ : Vec3 ℝ) ≠ ⟨0, 0, 0⟩ := by
    intro h0
    rw [h0] at hl
    simp [len, sq, Vec3.dot] at hl
  have := cylNg_is hF hr (n := ⟨nat 0, nat 0, x⟩) (w := ⟨0, 0, s⟩) ⟨XF.Is.zero hF, XF.Is.zero hF, hx⟩ hne
  rw [hl] at this
  convert this using 1
  ext <;> simp

section
variable (hF : F.Exact) (i : PlaneI (XF F)) (cy : Cylinder (XF F)) {c : Vec3 ℝ} {a b h : ℝ} {R : Mat3 ℝ} (hcy : cy.For c a b h R)
  (ha : 0 < a) (hb : 0 < b) {xg xe : Vec3 (XF F)} {g e : Vec3 ℝ} (ig : IsV xg g) (ie : IsV xe e) (he : sq e = 1)
include hF hcy ha hb ig ie he

/-- what an outside origin should see: the first point of the solid -/
def OutsideOk (i : PlaneI (XF F)) (primId : Nat) (a b h : ℝ) (R : Mat3 ℝ) (g e : Vec3 ℝ) (r : PlaneI (XF F) × Bool) : Prop :=
  (r = (i, false) ∧ ∀ t, 0 < t → ¬ LInt a b h g e t) ∨
  ∃ t n, 0 < t ∧ LOn a b h g e t ∧ (∀ s, 0 ≤ s → s < t → ¬ LIn a b h g e s) ∧ LNormal a b h g e t n ∧
    CylRecord i primId t (R.mulVec n) r

theorem cylAboveBelow_ok {cap nz : XF F} (top : Bool) (hcap : cap.Is (if top then h / 2 else -(h / 2)))
    (hnz : nz.Is (if top then 1 else -1)) (hpos : if top then h / 2 < g.z else g.z < -(h / 2)) :
    OutsideOk i cy.primId a b h R g e (cylAboveBelow i cy xg xe cap nz) := by
  have i0 := XF.Is.zero hF (F := F)
  unfold cylAboveBelow
  simp only
  by_cases hl : e.z = 0
  · rw [if_pos ((ie.2.2.eq i0).2 hl)]
    refine .inl ⟨rfl, fun t _ ht => ?_⟩
    unfold LInt at ht
    rw [hl] at ht
    cases top <;> simp at hpos <;> linarith [ht.2.1, ht.2.2]
  rw [if_neg (fun hc => hl ((ie.2.2.eq i0).1 hc))]
  have hT := (hcap.sub hF ig.2.2).div hF ie.2.2 hl
  set K : ℝ := if top then h / 2 else -(h / 2) with hK
  set tc := (K - g.z) / e.z with htc
  have hz : g.z + tc * e.z = K := by rw [htc]; field_simp; ring
  have htc0 : tc ≠ 0 := by
    intro h0
    rw [h0] at hz
    cases top <;> simp [hK] at hz hpos <;> linarith
  by_cases hneg : tc < 0
  · rw [if_pos ((hT.lt i0).2 hneg)]
    refine .inl ⟨rfl, fun t ht hI => ?_⟩
    unfold LInt at hI
    cases top
    · simp only [hK, Bool.false_eq_true, if_false] at hpos hz
      have : e.z < 0 := by
        by_contra hn
        nlinarith [mul_nonneg_of_nonpos_of_nonpos (sub_nonpos.2 hneg.le) (sub_nonpos.2 (not_lt.1 hn))]
      nlinarith [mul_neg_of_pos_of_neg ht this]
    · simp only [hK, if_true] at hpos hz
      have : 0 < e.z := by
        by_contra hn
        nlinarith [mul_nonneg_of_nonpos_of_nonpos hneg.le (not_lt.1 hn)]
      nlinarith [mul_pos ht this]
  rw [if_neg (fun hc => hneg ((hT.lt i0).1 hc))]
  have htp : 0 < tc := lt_of_le_of_ne (not_lt.1 hneg) (Ne.symm htc0)
  have hsl : if top then e.z < 0 else 0 < e.z := by
    cases top
    · simp only [hK, Bool.false_eq_true, if_false] at hpos hz ⊢
      exact pos_of_mul_pos_right (a := tc) (by linarith) htp.le
    · simp only [hK, if_true] at hpos hz ⊢
      exact neg_of_mul_neg_right (a := tc) (by linarith) htp.le
  have hbefore : ∀ s, s < tc → ¬ (-(h / 2) ≤ g.z + s * e.z ∧ g.z + s * e.z ≤ h / 2) := by
    intro s hs hin
    have hd : g.z + s * e.z = K + (s - tc) * e.z := by rw [← hz]; ring
    cases top
    · simp only [hK, Bool.false_eq_true, if_false] at hsl hd
      have := mul_neg_of_neg_of_pos (sub_neg.2 hs) hsl
      linarith [hin.1]
    · simp only [hK, if_true] at hsl hd
      have := mul_pos_of_neg_of_neg (sub_neg.2 hs) hsl
      linarith [hin.2]
  have ip := ig.add hF (IsV.smul hF hT ie)
  have lhs := (((hcy.b.mul hF hcy.b).mul hF ip.1).mul hF ip.1).add hF (((hcy.a.mul hF hcy.a).mul hF ip.2.1).mul hF ip.2.1)
  have rhs := ((hcy.a.mul hF hcy.a).mul hF hcy.b).mul hF hcy.b
  have hEt : cylE a b g e tc = b * b * (g + Vec3.smul tc e).x * (g + Vec3.smul tc e).x +
      a * a * (g + Vec3.smul tc e).y * (g + Vec3.smul tc e).y - a * a * b * b := by
    simp only [cylE, Vec3.add_x, Vec3.add_y, Vec3.smul_x, Vec3.smul_y]; ring
  by_cases hE : cylE a b g e tc ≤ 0
  · rw [if_pos ((lhs.le rhs).2 (by rw [hEt] at hE; linarith))]
    refine .inr ⟨tc, ⟨0, 0, if top then 1 else -1⟩, htp, .inr ⟨hE, ?_⟩, fun s _ hs hin => hbefore s hs hin.2, .inr ?_,
      record_is hF i (capNg_is hF hcy.rot hnz (by cases top <;> simp)) hT htp.le ie he _⟩
    · rw [hz, hK]; cases top <;> simp
    · rw [hz, hK]; cases top <;> simp
  · rw [if_neg (fun hc => hE (by have := (lhs.le rhs).1 hc; rw [hEt]; linarith))]
    have hE := not_le.1 hE
    rcases cylLateralOutside_cases hF i cy hcy ha hb ig ie he with ⟨hr, hm⟩ | ⟨t, ht, k1, k2, k3, k4, hr⟩
    · refine .inl ⟨hr, fun t ht hI => ?_⟩
      have htt : tc < t := by
        by_contra hn
        rcases (not_lt.1 hn).lt_or_eq with h1 | h1
        · exact hbefore t h1 ⟨hI.2.1.le, hI.2.2.le⟩
        · rw [h1] at hI; linarith [hI.1]
      rcases hm t hI.1 with hc | ⟨t1, h1, h2, h3, h4⟩
      · have e1 := hc t; have e2 := hc tc
        linarith [hI.1]
      · have h5 : tc ≤ t1 := by
          by_contra hn
          linarith [h3 tc (not_le.1 hn) htt.le]
        apply h4
        have hd1 : g.z + t1 * e.z = K + (t1 - tc) * e.z := by rw [← hz]; ring
        have hd2 : g.z + t1 * e.z = (g.z + t * e.z) - (t - t1) * e.z := by ring
        refine ⟨lt_of_lt_of_le htp h5, ?_⟩
        cases top
        · simp only [hK, Bool.false_eq_true, if_false] at hsl hd1
          have q1 := mul_nonneg (sub_nonneg.2 h5) hsl.le
          have q2 := mul_pos (sub_pos.2 h1) hsl
          exact ⟨by linarith, by linarith [hI.2.2]⟩
        · simp only [hK, if_true] at hsl hd1
          have q1 := mul_nonpos_of_nonneg_of_nonpos (sub_nonneg.2 h5) hsl.le
          have q2 := mul_neg_of_pos_of_neg (sub_pos.2 h1) hsl
          exact ⟨by linarith [hI.2.1], by linarith⟩
    · rw [mulVec_divs] at hr
      exact .inr ⟨t, _, ht, .inl ⟨k3, k1, k2⟩, fun s _ hs hin => absurd hin.1 (not_le.2 (k4 s hs)), .inl ⟨k3, rfl⟩, hr⟩

/-- beside the cylinder -/
theorem cylLateralOutside_ok (h1 : -(h / 2) < g.z) (h2 : g.z < h / 2) (h3 : 0 < cylE a b g e 0) :
    OutsideOk i cy.primId a b h R g e (cylLateralOutside i cy xg xe) := by
  rcases cylLateralOutside_cases hF i cy hcy ha hb ig ie he with ⟨hr, hm⟩ | ⟨t, ht, k1, k2, k3, k4, hr⟩
  · refine .inl ⟨hr, fun t ht hI => ?_⟩
    rcases hm t hI.1 with hc | ⟨t1, l1, l2, l3, l4⟩
    · linarith [hc t, hI.1]
    · have h5 : 0 ≤ t1 := by
        by_contra hn
        linarith [l3 0 (not_le.1 hn) ht.le]
      rcases h5.lt_or_eq with h5 | h5
      · apply l4
        have h6 : 0 < t1 / t := div_pos h5 ht
        have h7 : t1 / t < 1 := (div_lt_one ht).2 l1
        have hd : g.z + t1 * e.z = (1 - t1 / t) * g.z + t1 / t * (g.z + t * e.z) := by field_simp; ring
        refine ⟨h5, ?_, ?_⟩ <;> rw [hd] <;> nlinarith [hI.2.1, hI.2.2]
      · -- the surface would pass through the origin
        have hcont : ∃ s, 0 < s ∧ s ≤ t ∧ 0 < cylE a b g e s := by
          have : Continuous (cylE a b g e) := by unfold cylE; fun_prop
          have hn := (this.continuousAt (x := (0:ℝ))).eventually (lt_mem_nhds h3)
          obtain ⟨ε, hε, hb⟩ := Metric.eventually_nhds_iff.1 hn
          refine ⟨Min.min (ε / 2) t, lt_min (by linarith) ht, min_le_right _ _, hb ?_⟩
          rw [Real.dist_eq, sub_zero, abs_of_pos (lt_min (by linarith) ht)]
          exact lt_of_le_of_lt (min_le_left _ _) (by linarith)
        obtain ⟨s, q1, q2, q3⟩ := hcont
        linarith [l3 s (by linarith) q2]
  · rw [mulVec_divs] at hr
    exact .inr ⟨t, _, ht, .inl ⟨k3, k1, k2⟩, fun s _ hs hin => absurd hin.1 (not_le.2 (k4 s hs)), .inl ⟨k3, rfl⟩, hr⟩

end

/-! ### leaving from inside -/

/-- at the origin the ray is inside the infinite cylinder, or on it and heading inside -/
def Entering (a b : ℝ) (g e : Vec3 ℝ) : Prop := cylE a b g e 0 < 0 ∨ (cylE a b g e 0 = 0 ∧ latB a b g e < 0)

section
variable {a b h : ℝ} {g e : Vec3 ℝ}

theorem Entering.le (H : Entering a b g e) : cylE a b g e 0 ≤ 0 := by
  rcases H with h | h
  · exact h.le
  · exact h.1.le

theorem Entering.roots (H : Entering a b g e) (ha : 0 < a) (hb : 0 < b) (hA : 0 < latA a b e) :
    0 ≤ latC a b g e ∧ latT1 a b g e ≤ 0 ∧ 0 < latT0 a b g e := by
  have hC : 0 ≤ latC a b g e := by
    by_contra hn
    exact absurd H.le (not_le.2 (cylE_pos_of_latC_neg ha hb (not_le.1 hn) 0))
  have hle := latT1_le (g := g) ha hb hA
  have h0 := cylE_factor hA hC 0
  have hsum : latA a b e * (latT0 a b g e + latT1 a b g e) = -2 * latB a b g e := by
    unfold latT0 latT1; field_simp; ring
  have hp : 0 < latT0 a b g e := by
    by_contra hn
    have hn := not_lt.1 hn
    have h1 : 0 ≤ latA a b e * (0 - latT0 a b g e) * (0 - latT1 a b g e) :=
      mul_nonneg (mul_nonneg hA.le (by linarith)) (by linarith)
    rcases H with H | ⟨_, H⟩
    · linarith
    · have : latA a b e * (latT0 a b g e + latT1 a b g e) ≤ 0 := mul_nonpos_of_nonneg_of_nonpos hA.le (by linarith)
      linarith
  refine ⟨hC, ?_, hp⟩
  by_contra hn
  have : 0 < latA a b e * (0 - latT0 a b g e) * (0 - latT1 a b g e) :=
    mul_pos_of_neg_of_neg (mul_neg_of_pos_of_neg hA (by linarith)) (by linarith)
  linarith [H.le]

theorem Entering.neg (H : Entering a b g e) (ha : 0 < a) (hb : 0 < b) (hA : 0 < latA a b e) {t : ℝ} (h0 : 0 < t)
    (ht : t < latT0 a b g e) : cylE a b g e t < 0 := by
  obtain ⟨hC, h1, h2⟩ := H.roots ha hb hA
  exact (cylE_neg_iff ha hb hA hC t).2 ⟨by linarith, ht⟩

end

section
variable (hF : F.Exact) (i : PlaneI (XF F)) (cy : Cylinder (XF F)) {c : Vec3 ℝ} {a b h : ℝ} {R : Mat3 ℝ} (hcy : cy.For c a b h R)
  (ha : 0 < a) (hb : 0 < b) {xg xe : Vec3 (XF F)} {g e : Vec3 ℝ} (ig : IsV xg g) (ie : IsV xe e) (he : sq e = 1)

/-- the exit through a cap, going up or down -/
noncomputable def capT (h : ℝ) (g e : Vec3 ℝ) : ℝ := ((if e.z < 0 then -(h / 2) else h / 2) - g.z) / e.z

include hF hcy ie he ig in
theorem cylCapsInside_record (hl : e.z ≠ 0) (h0 : -(h / 2) ≤ g.z) (h1 : g.z ≤ h / 2) :
    0 ≤ capT h g e ∧ g.z + capT h g e * e.z = (if e.z < 0 then -(h / 2) else h / 2) ∧
    CylRecord i cy.primId (capT h g e) (R.mulVec ⟨0, 0, if e.z < 0 then -1 else 1⟩) (cylCapsInside i cy xg xe) := by
  have i0 := XF.Is.zero hF (F := F)
  have i1 := XF.Is.one hF (F := F)
  have h2 := two_is hF (F := F)
  have hz : g.z + capT h g e * e.z = (if e.z < 0 then -(h / 2) else h / 2) := by unfold capT; field_simp; ring
  unfold cylCapsInside
  simp only
  by_cases hneg : e.z < 0
  · rw [if_pos ((ie.2.2.lt i0).2 hneg)]
    have hT := ((hcy.height.neg.div hF h2 two_ne_zero).sub hF ig.2.2).div hF ie.2.2 hl
    have hk : capT h g e = (-h / 2 - g.z) / e.z := by unfold capT; rw [if_pos hneg, neg_div]
    have hp : 0 ≤ capT h g e := by rw [hk]; exact div_nonneg_of_nonpos (by linarith) hneg.le
    refine ⟨hp, hz, ?_⟩
    rw [← hk] at hT
    rw [if_pos hneg]
    exact record_is hF i (capNg_is hF hcy.rot i1.neg (by simp)) hT hp ie he _
  · have hpos : 0 < e.z := lt_of_le_of_ne (not_lt.1 hneg) (Ne.symm hl)
    rw [if_neg (fun hc => hneg ((ie.2.2.lt i0).1 hc)), if_pos ((ie.2.2.gt i0).2 hpos)]
    have hT := ((hcy.height.div hF h2 two_ne_zero).sub hF ig.2.2).div hF ie.2.2 hl
    have hk : capT h g e = (h / 2 - g.z) / e.z := by unfold capT; rw [if_neg hneg]
    have hp : 0 ≤ capT h g e := by rw [hk]; exact div_nonneg (by linarith) hpos.le
    refine ⟨hp, hz, ?_⟩
    rw [← hk] at hT
    rw [if_neg hneg]
    exact record_is hF i (capNg_is hF hcy.rot i1 (by simp)) hT hp ie he _

/-- between the caps until `capT` -/
theorem capT_between (hl : e.z ≠ 0) (h0 : -(h / 2) ≤ g.z) (h1 : g.z ≤ h / 2) {s : ℝ} (hs : 0 ≤ s) (hst : s ≤ capT h g e) :
    -(h / 2) ≤ g.z + s * e.z ∧ g.z + s * e.z ≤ h / 2 := by
  have hz : g.z + capT h g e * e.z = (if e.z < 0 then -(h / 2) else h / 2) := by unfold capT; field_simp; ring
  by_cases hneg : e.z < 0
  · rw [if_pos hneg] at hz
    have q1 := mul_nonpos_of_nonneg_of_nonpos hs hneg.le
    have q2 := mul_le_mul_of_nonpos_right hst hneg.le
    exact ⟨by linarith, by linarith⟩
  · rw [if_neg hneg] at hz
    have q1 := mul_nonneg hs (not_lt.1 hneg)
    have q2 := mul_le_mul_of_nonneg_right hst (not_lt.1 hneg)
    exact ⟨by linarith, by linarith⟩

theorem capT_between_lt (hl : e.z ≠ 0) (h0 : -(h / 2) < g.z) (h1 : g.z < h / 2) {s : ℝ} (hs : 0 ≤ s) (hst : s < capT h g e) :
    -(h / 2) < g.z + s * e.z ∧ g.z + s * e.z < h / 2 := by
  have hz : g.z + capT h g e * e.z = (if e.z < 0 then -(h / 2) else h / 2) := by unfold capT; field_simp; ring
  by_cases hneg : e.z < 0
  · rw [if_pos hneg] at hz
    have q1 := mul_nonpos_of_nonneg_of_nonpos hs hneg.le
    have q2 := mul_lt_mul_of_neg_right hst hneg
    exact ⟨by linarith, by linarith⟩
  · have hpos : 0 < e.z := lt_of_le_of_ne (not_lt.1 hneg) (Ne.symm hl)
    rw [if_neg hneg] at hz
    have q1 := mul_nonneg hs (not_lt.1 hneg)
    have q2 := mul_lt_mul_of_pos_right hst hpos
    exact ⟨by linarith, by linarith⟩

/-- beyond a cap only after `capT` -/
theorem capT_lt_of_out (hl : e.z ≠ 0) (h0 : -(h / 2) ≤ g.z) (h1 : g.z ≤ h / 2) {s : ℝ} (hs : 0 ≤ s)
    (hout : ¬ (-(h / 2) ≤ g.z + s * e.z ∧ g.z + s * e.z ≤ h / 2)) : capT h g e < s := by
  by_contra hn
  exact hout (capT_between hl h0 h1 hs (not_lt.1 hn))

/-- between two points between the caps -/
theorem between_of_between {z0 l s t h : ℝ} (h0 : -(h / 2) ≤ z0) (h1 : z0 ≤ h / 2) (ht : -(h / 2) ≤ z0 + t * l) (ht' : z0 + t * l ≤ h / 2)
    (hs : 0 ≤ s) (hst : s ≤ t) : -(h / 2) ≤ z0 + s * l ∧ z0 + s * l ≤ h / 2 := by
  rcases le_total 0 l with hl | hl
  · have q1 := mul_nonneg hs hl
    have q2 := mul_le_mul_of_nonneg_right hst hl
    exact ⟨by linarith, by linarith⟩
  · have q1 := mul_nonpos_of_nonneg_of_nonpos hs hl
    have q2 := mul_le_mul_of_nonpos_right hst hl
    exact ⟨by linarith, by linarith⟩

theorem between_of_between_lt {z0 l s t h : ℝ} (h0 : -(h / 2) < z0) (h1 : z0 < h / 2) (ht : -(h / 2) ≤ z0 + t * l) (ht' : z0 + t * l ≤ h / 2)
    (hs : 0 ≤ s) (hst : s < t) : -(h / 2) < z0 + s * l ∧ z0 + s * l < h / 2 := by
  rcases lt_trichotomy 0 l with hl | hl | hl
  · have q1 := mul_nonneg hs hl.le
    have q2 := mul_lt_mul_of_pos_right hst hl
    exact ⟨by linarith, by linarith⟩
  · subst hl; simp; exact ⟨h0, h1⟩
  · have q1 := mul_nonpos_of_nonneg_of_nonpos hs hl.le
    have q2 := mul_lt_mul_of_neg_right hst hl
    exact ⟨by linarith, by linarith⟩

/-- what an origin inside should see: the last point of the solid; the normal is wrong in one of the branches -/
def InsideOk (i : PlaneI (XF F)) (primId : Nat) (a b h : ℝ) (R : Mat3 ℝ) (g e : Vec3 ℝ) (r : PlaneI (XF F) × Bool) : Prop :=
  (r = (i, false) ∧ e.z = 0 ∧ (g.z = -(h / 2) ∨ g.z = h / 2)) ∨
  ∃ t N, 0 ≤ t ∧ LOn a b h g e t ∧ (∀ s, 0 ≤ s → s ≤ t → LIn a b h g e s) ∧
    (-(h / 2) < g.z → g.z < h / 2 → 0 < t ∧ ∀ s, 0 < s → s < t → LInt a b h g e s) ∧
    ((∃ n, LNormal a b h g e t n ∧ N = R.mulVec n) ∨
      (e.z ≠ 0 ∧ cylE a b g e t = 0 ∧ N = latNormal a b (along g e t))) ∧ CylRecord i primId t N r

include hF hcy ha hb ig ie he in
theorem cylInside_ok (H : Entering a b g e) (h0 : -(h / 2) ≤ g.z) (h1 : g.z ≤ h / 2) :
    InsideOk i cy.primId a b h R g e (cylInside i cy xg xe) := by
  obtain ⟨iA, iB, iC⟩ := cylABC_is hF hcy.a hcy.b ig ie
  have i0 := XF.Is.zero hF (F := F)
  have h2 := two_is hF (F := F)
  have hb1 := hcy.height.neg.div hF h2 two_ne_zero
  have hb2 := hcy.height.div hF h2 two_ne_zero
  rw [neg_div] at hb1
  -- the exit through the lateral surface
  have lateral : 0 < latA a b e → (-(h / 2) ≤ g.z + latT0 a b g e * e.z ∧ g.z + latT0 a b g e * e.z ≤ h / 2) →
      LOn a b h g e (latT0 a b g e) ∧ (∀ s, 0 ≤ s → s ≤ latT0 a b g e → LIn a b h g e s) ∧
      (-(h / 2) < g.z → g.z < h / 2 → 0 < latT0 a b g e ∧ ∀ s, 0 < s → s < latT0 a b g e → LInt a b h g e s) := by
    intro hA hr
    obtain ⟨hC, r1, r2⟩ := H.roots ha hb hA
    refine ⟨.inl ⟨cylE_T0 hA hC, hr⟩, fun s hs hst => ⟨?_, between_of_between h0 h1 hr.1 hr.2 hs hst⟩, fun k0 k1 => ⟨r2, fun s hs hst =>
      ⟨H.neg ha hb hA hs hst, between_of_between_lt k0 k1 hr.1 hr.2 hs.le hst⟩⟩⟩
    rcases hs.lt_or_eq with hs | rfl
    · rcases hst.lt_or_eq with hst | rfl
      · exact (H.neg ha hb hA hs hst).le
      · exact (cylE_T0 hA hC).le
    · exact H.le
  unfold cylInside
  simp only
  by_cases hl : e.z = 0
  · rw [if_pos ((ie.2.2.eq i0).2 hl)]
    by_cases hcap : g.z = -(h / 2) ∨ g.z = h / 2
    · rw [if_pos (by rw [Bool.or_eq_true, ig.2.2.eq hb1, ig.2.2.eq hb2]; exact hcap)]
      exact .inl ⟨rfl, hl, hcap⟩
    rw [if_neg (by rw [Bool.or_eq_true, ig.2.2.eq hb1, ig.2.2.eq hb2]; exact hcap)]
    have hA : 0 < latA a b e := by
      apply latA_pos ha hb
      by_contra hn
      push Not at hn
      rw [sq, Vec3.dot, hn.1, hn.2, hl] at he
      norm_num at he
    obtain ⟨hC, r1, r2⟩ := H.roots ha hb hA
    rw [if_neg (fun hc => absurd ((iC.lt i0).1 hc) (not_lt.2 hC))]
    obtain ⟨k0, k1⟩ := cylT_is hF hcy.a hcy.b iA iB iC hA hC
    rw [if_neg (by rw [Bool.and_eq_true, k1.gt i0]; intro hc; linarith [hc.1])]
    have p0 := ig.add hF (.muls hF k0 ie)
    have ez : (g + Vec3.muls e (latT0 a b g e)).z = g.z + latT0 a b g e * e.z := by
      simp only [Vec3.add_z, Vec3.muls_z]; ring
    have hr : -(h / 2) ≤ g.z + latT0 a b g e * e.z ∧ g.z + latT0 a b g e * e.z ≤ h / 2 := by rw [hl]; simp [h1]; linarith
    rw [if_pos (by rw [Bool.and_eq_true, k0.gt i0, cylInZ_iff hF hcy.height p0.2.2, ez]; exact ⟨r2, hr⟩)]
    obtain ⟨q1, q2, q3⟩ := lateral hA hr
    have ea : g + Vec3.muls e (latT0 a b g e) = along g e (latT0 a b g e) := by
      unfold along; congr 1; ext <;> simp [mul_comm]
    rw [ea] at p0
    have hrec := record_is hF i (cylNg_is hF hcy.rot (cylNormal_is hF hcy.a hcy.b ha hb p0) (latNormal_ne ha hb (cylE_T0 hA hC)))
      k0 r2.le ie he cy.primId
    rw [mulVec_divs] at hrec
    exact .inr ⟨_, _, r2.le, q1, q2, q3, .inl ⟨_, .inl ⟨cylE_T0 hA hC, rfl⟩, rfl⟩, hrec⟩
  rw [if_neg (fun hc => hl ((ie.2.2.eq i0).1 hc))]
  obtain ⟨c1, c2, c3⟩ := cylCapsInside_record hF i cy hcy ig ie he hl h0 h1
  -- the exit through a cap
  have caps : (∀ s, 0 < s → s ≤ capT h g e → cylE a b g e s ≤ 0) →
      (∀ s, -(h / 2) < g.z → g.z < h / 2 → 0 < s → s < capT h g e → cylE a b g e s < 0) →
      InsideOk i cy.primId a b h R g e (cylCapsInside i cy xg xe) := by
    intro hE hE'
    have hE0 : ∀ s, 0 ≤ s → s ≤ capT h g e → cylE a b g e s ≤ 0 := by
      intro s hs hst
      rcases hs.lt_or_eq with hs | rfl
      · exact hE s hs hst
      · exact H.le
    refine .inr ⟨_, _, c1, .inr ⟨hE0 _ c1 le_rfl, ?_⟩, fun s hs hst => ⟨hE0 s hs hst, capT_between hl h0 h1 hs hst⟩, fun q0 q1 => ⟨?_,
      fun s hs hst => ⟨hE' s q0 q1 hs hst, capT_between_lt hl q0 q1 hs.le hst⟩⟩, .inl ⟨⟨0, 0, if e.z < 0 then -1 else 1⟩, .inr ?_, rfl⟩, c3⟩
    · rw [c2]; split <;> simp
    · refine lt_of_le_of_ne c1 fun h0 => ?_
      rw [← h0] at c2
      split at c2 <;> linarith
    · rw [c2]; split <;> simp
  by_cases hjk : e.x = 0 ∧ e.y = 0
  · rw [if_pos (by rw [Bool.and_eq_true, ie.1.eq i0, ie.2.1.eq i0]; exact hjk)]
    have hneg : cylE a b g e 0 < 0 := by
      rcases H with H | ⟨_, H⟩
      · exact H
      · unfold latB at H; rw [hjk.1, hjk.2] at H; norm_num at H
    have lhs := (((hcy.b.mul hF hcy.b).mul hF ig.1).mul hF ig.1).add hF (((hcy.a.mul hF hcy.a).mul hF ig.2.1).mul hF ig.2.1)
    have rhs := ((hcy.a.mul hF hcy.a).mul hF hcy.b).mul hF hcy.b
    rw [if_neg (by
      rw [lhs.eq rhs]; intro hc
      unfold cylE at hneg; nlinarith)]
    exact caps (fun s _ _ => by rw [cylE_const hjk.1 hjk.2]; exact hneg.le) (fun s _ _ _ _ => by rw [cylE_const hjk.1 hjk.2]; exact hneg)
  · rw [if_neg (by rw [Bool.and_eq_true, ie.1.eq i0, ie.2.1.eq i0]; exact hjk)]
    have hA : 0 < latA a b e := latA_pos ha hb (by tauto)
    obtain ⟨hC, r1, r2⟩ := H.roots ha hb hA
    rw [if_neg (fun hc => absurd ((iC.lt i0).1 hc) (not_lt.2 hC))]
    obtain ⟨k0, k1⟩ := cylT_is hF hcy.a hcy.b iA iB iC hA hC
    rw [if_neg (by rw [Bool.and_eq_true, k1.gt i0]; intro hc; linarith [hc.1])]
    have p0 := ig.add hF (.muls hF k0 ie)
    have ez : (g + Vec3.muls e (latT0 a b g e)).z = g.z + latT0 a b g e * e.z := by
      simp only [Vec3.add_z, Vec3.muls_z]; ring
    by_cases hr : -(h / 2) ≤ g.z + latT0 a b g e * e.z ∧ g.z + latT0 a b g e * e.z ≤ h / 2
    · rw [if_pos (by rw [Bool.and_eq_true, k0.gt i0, cylInZ_iff hF hcy.height p0.2.2, ez]; exact ⟨r2, hr⟩)]
      obtain ⟨q1, q2, q3⟩ := lateral hA hr
      have ea : g + Vec3.muls e (latT0 a b g e) = along g e (latT0 a b g e) := by
        unfold along; congr 1; ext <;> simp [mul_comm]
      rw [ea] at p0
      exact .inr ⟨_, _, r2.le, q1, q2, q3, .inr ⟨hl, cylE_T0 hA hC, rfl⟩,
        record_is hF i (cylNormal_is hF hcy.a hcy.b ha hb p0) k0 r2.le ie he cy.primId⟩
    · rw [if_neg (by rw [Bool.and_eq_true, k0.gt i0, cylInZ_iff hF hcy.height p0.2.2, ez]; exact fun hc => hr hc.2)]
      have hlt := capT_lt_of_out hl h0 h1 r2.le hr
      exact caps (fun s hs hst => (H.neg ha hb hA hs (by linarith)).le) (fun s _ _ hs hst => H.neg ha hb hA hs (by linarith))

include hF hcy ha hb ig ie he in
/-- The origin is on the lateral surface, and the ray does not head inside and is neither parallel nor perpendicular to the
axis: the code reports the point where it meets the plane of a cap. -/
theorem cylInside_false_hit (hE : cylE a b g e 0 = 0) (hB : 0 ≤ latB a b g e) (h0 : -(h / 2) ≤ g.z) (h1 : g.z ≤ h / 2)
    (hl : e.z ≠ 0) (hjk : e.x ≠ 0 ∨ e.y ≠ 0) :
    CylRecord i cy.primId (capT h g e) (R.mulVec ⟨0, 0, if e.z < 0 then -1 else 1⟩) (cylInside i cy xg xe) ∧ 0 ≤ capT h g e ∧
    (0 < capT h g e → 0 < cylE a b g e (capT h g e)) := by
  obtain ⟨iA, iB, iC⟩ := cylABC_is hF hcy.a hcy.b ig ie
  have i0 := XF.Is.zero hF (F := F)
  obtain ⟨c1, c2, c3⟩ := cylCapsInside_record hF i cy hcy ig ie he hl h0 h1
  have hA : 0 < latA a b e := latA_pos ha hb hjk
  have hC : 0 ≤ latC a b g e := by
    by_contra hn
    linarith [cylE_pos_of_latC_neg (g := g) ha hb (not_le.1 hn) 0]
  have hf := cylE_factor hA hC 0
  rw [hE] at hf
  have hle := latT1_le (g := g) ha hb hA
  have hsum : latA a b e * (latT0 a b g e + latT1 a b g e) = -2 * latB a b g e := by
    unfold latT0 latT1; field_simp; ring
  have hs : latT0 a b g e + latT1 a b g e ≤ 0 := by
    by_contra hn
    linarith [mul_pos hA (not_le.1 hn)]
  have ht0 : latT0 a b g e ≤ 0 := by
    by_contra hn
    have : latT1 a b g e < 0 := by linarith
    have : latA a b e * (0 - latT0 a b g e) * (0 - latT1 a b g e) < 0 :=
      mul_neg_of_neg_of_pos (mul_neg_of_pos_of_neg hA (by linarith)) (by linarith)
    linarith
  have ht0' : latT0 a b g e = 0 := by
    by_contra hn
    have : latT0 a b g e < 0 := lt_of_le_of_ne ht0 hn
    have : 0 < latA a b e * (0 - latT0 a b g e) * (0 - latT1 a b g e) :=
      mul_pos (mul_pos hA (by linarith)) (by linarith)
    linarith
  refine ⟨?_, c1, fun hp => ?_⟩
  · generalize (if e.z < 0 then (-1 : ℝ) else 1) = nz at c3 ⊢
    unfold cylInside
    simp only
    rw [if_neg (fun hc => hl ((ie.2.2.eq i0).1 hc)),
      if_neg (by rw [Bool.and_eq_true, ie.1.eq i0, ie.2.1.eq i0]; rintro ⟨k1, k2⟩; tauto),
      if_neg (fun hc => absurd ((iC.lt i0).1 hc) (not_lt.2 hC))]
    obtain ⟨k0, k1⟩ := cylT_is hF hcy.a hcy.b iA iB iC hA hC
    rw [if_neg (by rw [Bool.and_eq_true, k1.gt i0]; intro hc; linarith [hc.1]),
      if_neg (by rw [Bool.and_eq_true, k0.gt i0]; intro hc; linarith [hc.1])]
    exact c3
  · rw [cylE_factor hA hC]
    exact mul_pos (mul_pos hA (by linarith)) (by linarith)

end

/-! ### the whole test -/

theorem cylE_zero_eq (a b : ℝ) (g e : Vec3 ℝ) : cylE a b g e 0 = g.x * g.x * b * b + g.y * g.y * a * a - a * a * b * b := by
  unfold cylE; ring

section
variable (hF : F.Exact) (i : PlaneI (XF F)) (cy : Cylinder (XF F)) (ray : Ray (XF F)) {c o d : Vec3 ℝ} {a b h : ℝ} {R : Mat3 ℝ}
  (hcy : cy.For c a b h R) (ha : 0 < a) (hb : 0 < b) (hh : 0 ≤ h) (hR : Orthonormal R) (ho : IsV i.rayOrg o) (hd : IsV i.rayDir d)
  (hu : sq d = 1) {g e : Vec3 ℝ} (hg : g = R.trans.mulVec (o - c)) (he : e = R.trans.mulVec d)
include hF hcy ha hb hh hR ho hd hu hg he

/-- the origin is not in the solid -/
theorem cylIntersect_outside (h0 : ¬ LIn a b h g e 0) (hz : g.z ≠ h / 2) (hz' : g.z ≠ -(h / 2)) :
    OutsideOk i cy.primId a b h R g e (cylIntersect i cy ray) := by
  have i0 := XF.Is.zero hF (F := F)
  have i1 := XF.Is.one hF (F := F)
  have h2 := two_is hF (F := F)
  have ig := hcy.rot.trans.mulVec hF (ho.sub hF hcy.center)
  have ie := hcy.rot.trans.mulVec hF hd
  rw [← hg] at ig; rw [← he] at ie
  have hes : sq e = 1 := by rw [he, hR.trans.sq, hu]
  have hb1 := hcy.height.neg.div hF h2 two_ne_zero
  have hb2 := hcy.height.div hF h2 two_ne_zero
  rw [neg_div] at hb1
  have lhs := (((ig.1.mul hF ig.1).mul hF hcy.b).mul hF hcy.b).add hF (((ig.2.1.mul hF ig.2.1).mul hF hcy.a).mul hF hcy.a)
  have rhs := ((hcy.a.mul hF hcy.a).mul hF hcy.b).mul hF hcy.b
  have hE := cylE_zero_eq a b g e
  -- the last test is not reached
  have area4 : ∀ x : PlaneI (XF F) × Bool,
      (if (ge (cy.rotation.trans.mulVec (i.rayOrg - cy.center)).z (-cy.height / nat 2) &&
          le (cy.rotation.trans.mulVec (i.rayOrg - cy.center)).z (cy.height / nat 2) &&
          le ((cy.rotation.trans.mulVec (i.rayOrg - cy.center)).x * (cy.rotation.trans.mulVec (i.rayOrg - cy.center)).x * cy.b * cy.b +
            (cy.rotation.trans.mulVec (i.rayOrg - cy.center)).y * (cy.rotation.trans.mulVec (i.rayOrg - cy.center)).y * cy.a * cy.a)
            (cy.a * cy.a * cy.b * cy.b)) = true then x else (i, false)) = (i, false) := by
    intro x
    rw [if_neg]
    rw [Bool.and_eq_true, Bool.and_eq_true, ig.2.2.ge hb1, ig.2.2.le hb2, lhs.le rhs]
    rintro ⟨⟨k1, k2⟩, k3⟩
    exact h0 ⟨by rw [hE]; linarith, by simpa using k1, by simpa using k2⟩
  have wrap : ∀ r : PlaneI (XF F) × Bool, OutsideOk i cy.primId a b h R g e r →
      OutsideOk i cy.primId a b h R g e (if r.2 = true then r else (i, false)) := by
    intro r hr
    rcases hr with ⟨rfl, hm⟩ | ⟨t, n, k1, k2, k3, k4, k5⟩
    · exact .inl ⟨rfl, hm⟩
    · have : r.2 = true := by obtain ⟨n', hd', _, _, rfl⟩ := k5; rfl
      rw [if_pos this]
      exact .inr ⟨t, n, k1, k2, k3, k4, k5⟩
  unfold cylIntersect
  simp only [area4]
  by_cases ht : h / 2 < g.z
  · rw [if_pos ((ig.2.2.gt hb2).2 ht)]
    exact wrap _ (cylAboveBelow_ok hF i cy hcy ha hb ig ie hes true (by simpa using hb2) (by simpa using i1) (by simpa using ht))
  rw [if_neg (fun hc => ht ((ig.2.2.gt hb2).1 hc))]
  by_cases hbo : g.z < -(h / 2)
  · rw [if_pos ((ig.2.2.lt hb1).2 hbo)]
    exact wrap _ (cylAboveBelow_ok hF i cy hcy ha hb ig ie hes false (by simpa [neg_div] using hb1) (by simpa using i1.neg)
      (by simpa using hbo))
  rw [if_neg (fun hc => hbo ((ig.2.2.lt hb1).1 hc))]
  have l1 : -(h / 2) < g.z := lt_of_le_of_ne (not_lt.1 hbo) (Ne.symm hz')
  have l2 : g.z < h / 2 := lt_of_le_of_ne (not_lt.1 ht) hz
  have l3 : 0 < cylE a b g e 0 := by
    by_contra hn
    exact h0 ⟨not_lt.1 hn, by simpa using l1.le, by simpa using l2.le⟩
  rw [if_pos (by rw [Bool.and_eq_true, Bool.and_eq_true, ig.2.2.gt hb1, ig.2.2.lt hb2, lhs.gt rhs]; exact ⟨⟨l1, l2⟩, by linarith⟩)]
  exact wrap _ (cylLateralOutside_ok hF i cy hcy ha hb ig ie hes l1 l2 l3)

/-- the origin is outside, in the plane of a cap: never a hit -/
theorem cylIntersect_cap_level (h0 : 0 < cylE a b g e 0) (hz : g.z = h / 2 ∨ g.z = -(h / 2)) :
    cylIntersect i cy ray = (i, false) := by
  have h2 := two_is hF (F := F)
  have ig := hcy.rot.trans.mulVec hF (ho.sub hF hcy.center)
  rw [← hg] at ig
  have hb1 := hcy.height.neg.div hF h2 two_ne_zero
  have hb2 := hcy.height.div hF h2 two_ne_zero
  rw [neg_div] at hb1
  have lhs := (((ig.1.mul hF ig.1).mul hF hcy.b).mul hF hcy.b).add hF (((ig.2.1.mul hF ig.2.1).mul hF hcy.a).mul hF hcy.a)
  have rhs := ((hcy.a.mul hF hcy.a).mul hF hcy.b).mul hF hcy.b
  have hE := cylE_zero_eq a b g e
  unfold cylIntersect
  simp only
  rw [if_neg (fun hc => by have := (ig.2.2.gt hb2).1 hc; rcases hz with hz | hz <;> linarith),
    if_neg (fun hc => by have := (ig.2.2.lt hb1).1 hc; rcases hz with hz | hz <;> linarith),
    if_neg (by
      rw [Bool.and_eq_true, Bool.and_eq_true, ig.2.2.gt hb1, ig.2.2.lt hb2]
      rintro ⟨⟨k1, k2⟩, _⟩
      rcases hz with hz | hz <;> linarith),
    if_neg (by
      rw [Bool.and_eq_true, Bool.and_eq_true, lhs.le rhs]
      rintro ⟨_, k⟩
      linarith)]

/-- the origin is in the solid -/
theorem cylIntersect_inside (h0 : LIn a b h g e 0) :
    cylIntersect i cy ray = cylInside i cy (cy.rotation.trans.mulVec (i.rayOrg - cy.center)) (cy.rotation.trans.mulVec i.rayDir) := by
  have h2 := two_is hF (F := F)
  have ig := hcy.rot.trans.mulVec hF (ho.sub hF hcy.center)
  rw [← hg] at ig
  have hb1 := hcy.height.neg.div hF h2 two_ne_zero
  have hb2 := hcy.height.div hF h2 two_ne_zero
  rw [neg_div] at hb1
  have lhs := (((ig.1.mul hF ig.1).mul hF hcy.b).mul hF hcy.b).add hF (((ig.2.1.mul hF ig.2.1).mul hF hcy.a).mul hF hcy.a)
  have rhs := ((hcy.a.mul hF hcy.a).mul hF hcy.b).mul hF hcy.b
  obtain ⟨k1, k2, k3⟩ := h0
  rw [cylE_zero_eq] at k1
  rw [zero_mul, add_zero] at k2 k3
  unfold cylIntersect
  simp only
  rw [if_neg (fun hc => by have := (ig.2.2.gt hb2).1 hc; linarith), if_neg (fun hc => by have := (ig.2.2.lt hb1).1 hc; linarith),
    if_neg (by rw [Bool.and_eq_true, lhs.gt rhs]; rintro ⟨_, k⟩; linarith),
    if_pos (by rw [Bool.and_eq_true, Bool.and_eq_true, ig.2.2.ge hb1, ig.2.2.le hb2, lhs.le rhs]; exact ⟨⟨k2, k3⟩, by linarith⟩)]

theorem cylIntersect_inside_ok (h0 : LIn a b h g e 0) (H : Entering a b g e) :
    InsideOk i cy.primId a b h R g e (cylIntersect i cy ray) := by
  rw [cylIntersect_inside hF i cy ray hcy ha hb hh hR ho hd hu hg he h0]
  have ig := hcy.rot.trans.mulVec hF (ho.sub hF hcy.center)
  have ie := hcy.rot.trans.mulVec hF hd
  rw [← hg] at ig; rw [← he] at ie
  have hes : sq e = 1 := by rw [he, hR.trans.sq, hu]
  have k2 := h0.2.1; have k3 := h0.2.2
  rw [zero_mul, add_zero] at k2 k3
  exact cylInside_ok hF i cy hcy ha hb ig ie hes H k2 k3

end

/-! ### back to world coordinates -/

section
variable {c o d : Vec3 ℝ} {a b h : ℝ} {R : Mat3 ℝ}

theorem tube_iff (ha : 0 < a) (hb : 0 < b) (g e : Vec3 ℝ) (t : ℝ) :
    ((along g e t).x ^ 2 / a ^ 2 + (along g e t).y ^ 2 / b ^ 2 ≤ 1 ↔ cylE a b g e t ≤ 0) ∧
    ((along g e t).x ^ 2 / a ^ 2 + (along g e t).y ^ 2 / b ^ 2 < 1 ↔ cylE a b g e t < 0) ∧
    ((along g e t).x ^ 2 / a ^ 2 + (along g e t).y ^ 2 / b ^ 2 = 1 ↔ cylE a b g e t = 0) := by
  have key : cylE a b g e t = a ^ 2 * b ^ 2 * ((along g e t).x ^ 2 / a ^ 2 + (along g e t).y ^ 2 / b ^ 2 - 1) := by
    simp only [cylE, along, Vec3.add_x, Vec3.add_y, Vec3.smul_x, Vec3.smul_y]
    field_simp
  have hp : 0 < a ^ 2 * b ^ 2 := by positivity
  rw [key]
  refine ⟨?_, ?_, ?_⟩
  · rw [← not_lt, ← not_lt, mul_pos_iff_of_pos_left hp, not_lt, not_lt]; constructor <;> intro <;> linarith
  · rw [← not_le, ← not_le, mul_nonneg_iff_of_pos_left hp, not_le, not_le]; constructor <;> intro <;> linarith
  · rw [mul_eq_zero, or_iff_right hp.ne']; constructor <;> intro <;> linarith

variable (hR : Orthonormal R) (ha : 0 < a) (hb : 0 < b)
include hR ha hb

theorem inCyl_along (t : ℝ) : InCyl c a b h R (along o d t) ↔ LIn a b h (R.trans.mulVec (o - c)) (R.trans.mulVec d) t := by
  have hl := trans_along R c o d t
  have ti := tube_iff ha hb (R.trans.mulVec (o - c)) (R.trans.mulVec d) t
  unfold InCyl LIn
  simp only [hR.local_iff, hl]
  constructor
  · rintro ⟨x, y, z, h1, h2, h3, h4⟩
    rw [h4] at ti
    have hz := congrArg Vec3.z h4
    simp only [along, Vec3.add_z, Vec3.smul_z] at hz
    exact ⟨ti.1.1 h1, by linarith, by linarith⟩
  · rintro ⟨h1, h2, h3⟩
    exact ⟨_, _, _, ti.1.2 h1, by simpa [along] using h2, by simpa [along] using h3, rfl⟩

theorem onCyl_along (t : ℝ) : OnCyl c a b h R (along o d t) ↔ LOn a b h (R.trans.mulVec (o - c)) (R.trans.mulVec d) t := by
  have hl := trans_along R c o d t
  have ti := tube_iff ha hb (R.trans.mulVec (o - c)) (R.trans.mulVec d) t
  unfold OnCyl LOn
  simp only [hR.local_iff, hl]
  constructor
  · rintro ⟨x, y, z, h1, h4⟩
    rw [h4] at ti
    have hz := congrArg Vec3.z h4
    simp only [along, Vec3.add_z, Vec3.smul_z] at hz
    rw [hz]
    rcases h1 with ⟨k1, k2, k3⟩ | ⟨k1, k2⟩
    · exact .inl ⟨ti.2.2.1 k1, k2, k3⟩
    · exact .inr ⟨ti.1.1 k1, k2⟩
  · intro h1
    refine ⟨_, _, _, ?_, rfl⟩
    rcases h1 with ⟨k1, k2, k3⟩ | ⟨k1, k2⟩
    · exact .inl ⟨ti.2.2.2 k1, by simpa [along] using k2, by simpa [along] using k3⟩
    · exact .inr ⟨ti.1.2 k1, by simpa [along] using k2⟩

end

end Blazert
