/- The sphere test in exact arithmetic. -/
import Verif.Model.Sphere
import Verif.Proofs.Vector

set_option autoImplicit false

namespace Blazert
open Scalar

variable {F : Fmt ℝ}

/-- the members of the intersector describe the ray `o + t d` with minimal distance `m` -/
structure SphereI.For (i : SphereI (XF F)) (o d : Vec3 ℝ) (m : ℝ) : Prop where
  org : IsV i.rayOrg o
  dir : IsV i.rayDir d
  min : i.minHit.Is m

/-- the quadratic -/
theorem onSphere_iff {c o d : Vec3 ℝ} {r t : ℝ} (hr : 0 ≤ r) :
    OnSphere c r (along o d t) ↔
      t * t * sq d + t * (2 * Vec3.dot (o - c) d) + (sq (o - c) - r * r) = 0 := by
  unfold OnSphere
  rw [dist3_eq_iff hr]
  unfold sq along Vec3.dot
  simp only [Vec3.add_x, Vec3.add_y, Vec3.add_z, Vec3.sub_x, Vec3.sub_y, Vec3.sub_z, Vec3.smul_x, Vec3.smul_y, Vec3.smul_z]
  constructor <;> intro h <;> linear_combination h

/-- Everything about one call of the sphere test. -/
theorem sphereIntersect_cases (hF : F.Exact) (i : SphereI (XF F)) (s : Sphere (XF F)) (ray : Ray (XF F))
    (c o d : Vec3 ℝ) (r m : ℝ) (hc : IsV s.center c) (hr : s.radius.Is r) (hr0 : 0 ≤ r) (hi : i.For o d m)
    (hd : sq d = 1) (hm : 0 ≤ m) :
    ((sphereIntersect i s ray) = (i, false) ∧ ∀ t, m < t → i.hd.Above t → ¬ OnSphere c r (along o d t)) ∨
    (∃ t, m < t ∧ i.hd.Above t ∧ OnSphere c r (along o d t) ∧
      (∀ t', m < t' → OnSphere c r (along o d t') → i.hd.Above t' → t ≤ t') ∧
      ∃ hd', hd'.Is t ∧ sphereIntersect i s ray = ({ i with hd := hd', primId := s.primId }, true)) := by
  obtain ⟨ho, hdir, hmin⟩ := hi
  have hv := ho.sub hF hc
  have hA := hdir.dot hF hdir
  have hB := (XF.Is.nat hF 2).mul hF (hv.dot hF hdir)
  have hC := (hv.dot hF hv).sub hF (hr.mul hF hr)
  have hD := (hB.mul hF hB).sub hF (((XF.Is.nat hF 4).mul hF hA).mul hF hC)
  have hA1 : Vec3.dot d d = 1 := hd
  simp only [onSphere_iff hr0, hd]
  unfold sphereIntersect
  simp only
  set A := Vec3.dot i.rayDir i.rayDir
  set B := (nat 2 : XF F) * Vec3.dot (i.rayOrg - s.center) i.rayDir
  set C := Vec3.dot (i.rayOrg - s.center) (i.rayOrg - s.center) - s.radius * s.radius
  set b : ℝ := 2 * Vec3.dot (o - c) d with hb
  set cc : ℝ := sq (o - c) - r * r with hcc
  have hB : B.Is b := by simpa using hB
  have hD : (B * B - nat 4 * A * C).Is (b * b - 4 * cc) := by
    rw [hA1] at hD; simpa [hb, hcc, sq] using hD
  by_cases hneg : b * b - 4 * cc < 0
  · rw [if_pos ((hD.lt (XF.Is.zero hF)).2 hneg)]
    refine .inl ⟨rfl, fun t _ _ h => ?_⟩
    nlinarith [mul_self_nonneg (2 * t + b)]
  · rw [if_neg (fun h => hneg ((hD.lt (XF.Is.zero hF)).1 h))]
    rw [not_lt] at hneg
    have hQ := hD.sqrt hF hneg
    set q := Real.sqrt (b * b - 4 * cc) with hq
    have hqq : q * q = b * b - 4 * cc := Real.mul_self_sqrt hneg
    have hq0 : 0 ≤ q := Real.sqrt_nonneg _
    have hrcp := (XF.Is.one hF).div hF hA (by rw [hA1]; exact one_ne_zero)
    rw [hA1, div_one] at hrcp
    have h0 := ((XF.Is.ofRat hF (1/2)).mul hF hrcp).mul hF (hB.neg.sub hF hQ)
    have h1 := ((XF.Is.ofRat hF (1/2)).mul hF hrcp).mul hF (hB.neg.add hF hQ)
    set T0 := ofRat (1/2) * (nat 1 / A) * (-B - sqrt (B * B - nat 4 * A * C))
    set T1 := ofRat (1/2) * (nat 1 / A) * (-B + sqrt (B * B - nat 4 * A * C))
    set t0 : ℝ := (-b - q) / 2 with ht0
    set t1 : ℝ := (-b + q) / 2 with ht1
    have h0 : T0.Is t0 := by convert h0 using 1; push_cast; ring
    have h1 : T1.Is t1 := by convert h1 using 1; push_cast; ring
    have root : ∀ t, t * t * 1 + t * b + cc = 0 ↔ t = t0 ∨ t = t1 := by
      intro t
      have : t * t * 1 + t * b + cc = (t - t0) * (t - t1) := by rw [ht0, ht1]; linear_combination hqq / 4
      rw [this, mul_eq_zero, sub_eq_zero, sub_eq_zero]
    have h01 : t0 ≤ t1 := by rw [ht0, ht1]; linarith
    simp only [root]
    by_cases c0 : gt T0 i.minHit && lt T0 i.hd
    · rw [if_pos c0]
      rw [Bool.and_eq_true, h0.gt hmin, h0.lt_iff] at c0
      refine .inr ⟨t0, c0.1, c0.2, .inl rfl, ?_, _, ?_, rfl⟩
      · rintro t' - (rfl | rfl) -
        · exact le_refl _
        · exact h01
      · have := IsV.norm hF (IsV.smul hF h0 hdir)
        rwa [len_smul_unit hd (hm.trans c0.1.le)] at this
    · rw [if_neg c0]
      rw [Bool.and_eq_true, h0.gt hmin, h0.lt_iff] at c0
      by_cases c1 : gt T1 i.minHit && lt T1 i.hd
      · rw [if_pos c1]
        rw [Bool.and_eq_true, h1.gt hmin, h1.lt_iff] at c1
        refine .inr ⟨t1, c1.1, c1.2, .inr rfl, ?_, _, ?_, rfl⟩
        · rintro t' hm' (rfl | rfl) hab
          · exact absurd ⟨hm', hab⟩ c0
          · exact le_refl _
        · have := IsV.norm hF (IsV.smul hF h1 hdir)
          rwa [len_smul_unit hd (hm.trans c1.1.le)] at this
      · rw [if_neg c1]
        rw [Bool.and_eq_true, h1.gt hmin, h1.lt_iff] at c1
        refine .inl ⟨rfl, ?_⟩
        rintro t hm' hab (rfl | rfl)
        · exact c0 ⟨hm', hab⟩
        · exact c1 ⟨hm', hab⟩

/-- the distance of a point to the surface -/
theorem sphere_least (c p : Vec3 ℝ) {r : ℝ} (hr0 : 0 ≤ r) :
    IsLeast {x | ∃ q, OnSphere c r q ∧ x = dist3 p q} |dist3 c p - r| := by
  refine ⟨?_, ?_⟩
  · by_cases h : p = c
    · subst h
      refine ⟨⟨p.x + r, p.y, p.z⟩, (dist3_eq_iff hr0).2 ?_, ?_⟩
      · simp only [sq, Vec3.dot, Vec3.sub_x, Vec3.sub_y, Vec3.sub_z]; ring
      · rw [(dist3_eq_iff le_rfl).2 (show sq (p - p) = 0 * 0 by simp [sq, Vec3.dot]), zero_sub, abs_neg, abs_of_nonneg hr0]
        symm
        rw [dist3_eq_iff hr0]
        simp only [sq, Vec3.dot, Vec3.sub_x, Vec3.sub_y, Vec3.sub_z]; ring
    · have hne : p - c ≠ ⟨0, 0, 0⟩ := Vec3.sub_ne_zero.2 h
      have hl := len_pos hne
      have hunit := sq_divs_len hne
      set l := len (p - c) with hldef
      have hcp : dist3 c p = l := by rw [dist3_comm]; rfl
      set n := Vec3.divs (p - c) l with hn
      have hpn : p = c + Vec3.smul l n := by
        rw [hn]; ext <;> simp <;> field_simp <;> ring
      refine ⟨c + Vec3.smul r n, (dist3_eq_iff hr0).2 ?_, ?_⟩
      · have : c + Vec3.smul r n - c = Vec3.smul r n := by ext <;> simp
        rw [this, sq_smul, hunit]; ring
      · have : p - (c + Vec3.smul r n) = Vec3.smul (l - r) n := by
          rw [hpn]; ext <;> simp <;> ring
        rw [hcp, dist3, this, len_smul, len_unit hunit, mul_one]
  · rintro x ⟨q, hq, rfl⟩
    have hq : dist3 q c = r := hq
    rw [abs_le]
    have h1 := dist3_triangle c p q; have h2 := dist3_triangle c q p
    rw [dist3_comm c q, hq] at h1 h2
    rw [dist3_comm q p] at h2
    constructor <;> linarith

end Blazert
