/- The plane (rectangle) test in exact arithmetic. -/
import Verif.Model.Plane
import Verif.Proofs.Rotation
import Verif.Spec.Hits

set_option autoImplicit false
set_option linter.unusedSimpArgs false

namespace Blazert
open Scalar

variable {F : Fmt ℝ}

/-- the members of the intersector describe the ray `o + t d` with minimal distance `m` -/
structure PlaneI.For (i : PlaneI (XF F)) (o d : Vec3 ℝ) (m : ℝ) : Prop where
  org : IsV i.rayOrg o
  dir : IsV i.rayDir d
  min : i.minHit.Is m

/-- `plane` stands for the rectangle with center `c`, sides `dx`, `dy`, and orientation `R` -/
structure Plane.For (pl : Plane (XF F)) (c : Vec3 ℝ) (dx dy : ℝ) (R : Mat3 ℝ) : Prop where
  center : IsV pl.center c
  dx : pl.dx.Is dx
  dy : pl.dy.Is dy
  rot : IsM pl.rotation R

theorem trans_mulVec_z (R : Mat3 ℝ) (v : Vec3 ℝ) : (R.trans.mulVec v).z = Vec3.dot (perp R) v := by
  simp only [Mat3.trans, Mat3.mulVec, perp]

/-- `-1`, `0` or `1`, depending on where `x` is in `[-w, w]` -/
noncomputable def side (w x : ℝ) : ℝ := if x = -w then -1 else if x = w then 1 else 0

/-- dividing by zero gives nothing that lies between two finite bounds -/
theorem div_zero_not_between {x y m h : XF F} {a μ : ℝ} (hx : x.Is a) (hy : y.Is 0) (hm : m.Is μ) :
    (gt (x / y) m && lt (x / y) h) = false := by
  obtain ⟨s, rfl⟩ := hx
  obtain ⟨s', rfl⟩ := hy
  obtain ⟨s'', rfl⟩ := hm
  by_cases ha : a = 0
  · have : (XF.fin a s : XF F) / XF.fin 0 s' = XF.nan := by show XF.div _ _ = _; simp [XF.div, ha]
    rw [this]; rfl
  · have : (XF.fin a s : XF F) / XF.fin 0 s' = XF.inf (xor (XF.sgn a s) (XF.sgn (0 : ℝ) s')) := by
      show XF.div _ _ = _; simp [XF.div, ha]
    rw [this]
    generalize xor (XF.sgn a s) (XF.sgn (0 : ℝ) s') = b
    cases b with
    | false =>
      have : lt (XF.inf false) h = false := by cases h <;> rfl
      rw [this, Bool.and_false]
    | true => rfl

theorem eq_false_of {x y : XF F} {a b : ℝ} (h : x.Is a) (h' : y.Is b) (hne : a ≠ b) : Scalar.eq x y = false := by
  rw [Bool.eq_false_iff, ne_eq, h.eq h']; exact hne
theorem gt_false_of {x y : XF F} {a b : ℝ} (h : x.Is a) (h' : y.Is b) (hne : ¬ b < a) : Scalar.gt x y = false := by
  rw [Bool.eq_false_iff, ne_eq, h.gt h']; exact hne
theorem lt_false_of {x y : XF F} {a b : ℝ} (h : x.Is a) (h' : y.Is b) (hne : ¬ a < b) : Scalar.lt x y = false := by
  rw [Bool.eq_false_iff, ne_eq, h.lt h']; exact hne

theorem planeIntersect_cases (hF : F.Exact) (i : PlaneI (XF F)) (pl : Plane (XF F)) (ray : Ray (XF F))
    (c o d : Vec3 ℝ) (dx dy m : ℝ) (R : Mat3 ℝ) (hp : pl.For c dx dy R) (hdx : 0 < dx) (hdy : 0 < dy) (hR : Orthonormal R)
    (hi : i.For o d m) (hd : sq d = 1) (hm : 0 ≤ m) :
    (planeIntersect i pl ray = (i, false) ∧
      ((R.trans.mulVec d).z ≠ 0 → ∀ t, m < t → i.hd.Above t → ¬ InRect c dx dy R (along o d t))) ∨
    ((R.trans.mulVec d).z ≠ 0 ∧ ∃ t x y, m < t ∧ i.hd.Above t ∧ along o d t = c + R.mulVec ⟨x, y, 0⟩ ∧
      -(dx / 2) ≤ x ∧ x ≤ dx / 2 ∧ -(dy / 2) ≤ y ∧ y ≤ dy / 2 ∧
      ∃ n hd', hd'.Is t ∧ planeIntersect i pl ray = ({ i with normal := n, hd := hd', primId := pl.primId }, true) ∧
        ((R.trans.mulVec (o - c)).z ≠ 0 → ∃ s : ℝ, s * (R.trans.mulVec (o - c)).z = |(R.trans.mulVec (o - c)).z| ∧
          IsV n (R.mulVec ⟨side (dx / 2) x, side (dy / 2) y, s⟩))) := by
  obtain ⟨ho, hdir, hmin⟩ := hi
  obtain ⟨hc, hdx', hdy', hrot⟩ := hp
  have hg := hrot.trans.mulVec hF (ho.sub hF hc)
  have he := hrot.trans.mulVec hF hdir
  have hel : sq (R.trans.mulVec d) = 1 := by rw [hR.trans.sq, hd]
  have h2 : (nat 2 : XF F).Is 2 := by simpa using XF.Is.nat hF 2
  have xmin := hdx'.neg.div hF h2 two_ne_zero
  have xmax := hdx'.div hF h2 two_ne_zero
  have ymin := hdy'.neg.div hF h2 two_ne_zero
  have ymax := hdy'.div hF h2 two_ne_zero
  rw [neg_div] at xmin ymin
  have hloc : ∀ t, R.trans.mulVec (along o d t - c) = along (R.trans.mulVec (o - c)) (R.trans.mulVec d) t :=
    trans_along R c o d
  have hrec : ∀ (t : ℝ) (x : XF F), 0 ≤ t → x.Is t → (Vec3.norm (Vec3.smul x (pl.rotation.trans.mulVec i.rayDir))).Is t := by
    intro t x ht hx
    have := IsV.norm hF (IsV.smul hF hx he)
    rwa [len_smul_unit hel ht] at this
  have rect_iff : ∀ t, InRect c dx dy R (along o d t) ↔ ∃ x y, -(dx / 2) ≤ x ∧ x ≤ dx / 2 ∧ -(dy / 2) ≤ y ∧ y ≤ dy / 2 ∧
      along (R.trans.mulVec (o - c)) (R.trans.mulVec d) t = ⟨x, y, 0⟩ := by
    intro t
    unfold InRect
    simp only [hR.local_iff, hloc]
  have pt_iff : ∀ t q, along o d t = c + R.mulVec q ↔ along (R.trans.mulVec (o - c)) (R.trans.mulVec d) t = q := by
    intro t q; rw [hR.local_iff, hloc]
  simp only [rect_iff, pt_iff]
  clear rect_iff pt_iff hloc
  -- the sign
  have hsgn : (R.trans.mulVec (o - c)).z ≠ 0 →
      ∃ s : ℝ, s * (R.trans.mulVec (o - c)).z = |(R.trans.mulVec (o - c)).z| ∧
      ((pl.rotation.trans.mulVec (i.rayOrg - pl.center)).z /
        Scalar.abs (pl.rotation.trans.mulVec (i.rayOrg - pl.center)).z).Is s := by
    intro hne
    refine ⟨_, ?_, hg.2.2.div hF hg.2.2.abs (abs_ne_zero.2 hne)⟩
    have := abs_mul_abs_self (R.trans.mulVec (o - c)).z
    field_simp
    rw [pow_two, pow_two, this]
  have hnorm : ∀ (a b s : ℝ) (x y z : XF F), x.Is a → y.Is b → z.Is s →
      IsV (pl.rotation.mulVec ⟨x, y, z⟩) (R.mulVec ⟨a, b, s⟩) := fun a b s x y z hx hy hz =>
    hrot.mulVec hF (v := ⟨x, y, z⟩) (a := ⟨a, b, s⟩) ⟨hx, hy, hz⟩
  have hnorm0 : ∀ (s : ℝ) (z : XF F), z.Is s →
      IsV (Vec3.smul z (pl.rotation.mulVec ⟨nat 0, nat 0, nat 1⟩)) (R.mulVec ⟨0, 0, s⟩) := by
    intro s z hz
    have := IsV.smul hF hz (hnorm 0 0 1 _ _ _ (XF.Is.zero hF) (XF.Is.zero hF) (XF.Is.one hF))
    rw [← Mat3.mulVec_smul] at this
    convert this using 2
    ext <;> simp
  unfold planeIntersect
  simp only
  set G := pl.rotation.trans.mulVec (i.rayOrg - pl.center)
  set E := pl.rotation.trans.mulVec i.rayDir
  set g := R.trans.mulVec (o - c)
  set e := R.trans.mulVec d
  set S := G.z / Scalar.abs G.z
  by_cases hz : e.z = 0
  · have hb := div_zero_not_between (h := i.hd) hg.2.2.neg (by rw [← hz]; exact he.2.2) hmin
    refine .inl ⟨?_, fun h => absurd hz h⟩
    simp only [hb, Bool.false_and, Bool.false_eq_true, if_false]
  · have ht1 := hg.2.2.neg.div hF he.2.2 hz
    have hP := hg.add hF (IsV.smul hF ht1 he)
    set t1 := -g.z / e.z with ht1d
    set T1 := -G.z / E.z
    have hpz : (along g e t1).z = 0 := by
      simp only [along, Vec3.add_z, Vec3.smul_z, ht1d]; field_simp; ring
    have huniq : ∀ t x y, along g e t = ⟨x, y, 0⟩ → t = t1 := by
      intro t x y h
      have := congrArg Vec3.z h
      simp only [along, Vec3.add_z, Vec3.smul_z] at this
      rw [ht1d]; field_simp; linarith
    change IsV _ (along g e t1) at hP
    set PP := G + Vec3.smul T1 E
    set p := along g e t1 with hpd
    have hpe : along g e t1 = ⟨p.x, p.y, 0⟩ := by rw [← hpd]; ext <;> simp [hpz]
    by_cases hb : m < t1 ∧ i.hd.Above t1
    · have b1 : gt T1 i.minHit = true := (ht1.gt hmin).2 hb.1
      have b2 : lt T1 i.hd = true := ht1.lt_iff.2 hb.2
      have hrec' := hrec t1 T1 (hm.trans hb.1.le) ht1
      by_cases hin : -(dx / 2) ≤ p.x ∧ p.x ≤ dx / 2 ∧ -(dy / 2) ≤ p.y ∧ p.y ≤ dy / 2
      · right
        refine ⟨hz, t1, p.x, p.y, hb.1, hb.2, hpe, hin.1, hin.2.1, hin.2.2.1, hin.2.2.2, ?_⟩
        simp only [b1, b2, Bool.true_and]
        have one := XF.Is.one hF; have zero := XF.Is.zero hF
        have hx2 : (0:ℝ) < dx / 2 := by linarith
        have hy2 : (0:ℝ) < dy / 2 := by linarith
        have hxc : (p.x = -(dx / 2) ∨ p.x = dx / 2) ∨ (-(dx / 2) < p.x ∧ p.x < dx / 2) := by
          rcases hin.1.lt_or_eq with h | h
          · rcases hin.2.1.lt_or_eq with h' | h'
            · exact .inr ⟨h, h'⟩
            · exact .inl (.inr h')
          · exact .inl (.inl h.symm)
        have hyc : (p.y = -(dy / 2) ∨ p.y = dy / 2) ∨ (-(dy / 2) < p.y ∧ p.y < dy / 2) := by
          rcases hin.2.2.1.lt_or_eq with h | h
          · rcases hin.2.2.2.lt_or_eq with h' | h'
            · exact .inr ⟨h, h'⟩
            · exact .inl (.inr h')
          · exact .inl (.inl h.symm)
        rcases hxc with (hx | hx) | ⟨hx, hx'⟩
        · have sx : side (dx / 2) p.x = -1 := by rw [side, if_pos hx]
          have e1 := (hP.1.eq xmin).2 hx
          have e2 := (hP.1.lt xmax).2 (by linarith)
          have e3 := gt_false_of hP.1 xmin (by linarith)
          rcases hyc with (hy | hy) | ⟨hy, hy'⟩
          · have sy : side (dy / 2) p.y = -1 := by rw [side, if_pos hy]
            have f1 := (hP.2.1.eq ymin).2 hy
            have f2 := (hP.2.1.lt ymax).2 (by linarith)
            have f3 := gt_false_of hP.2.1 ymin (by linarith)
            rw [sx, sy]
            simp only [e1, e2, e3, f1, f2, f3, Bool.true_and, Bool.and_true, Bool.and_false, Bool.false_and,
              Bool.false_eq_true, if_false, if_true]
            exact ⟨_, _, hrec', rfl, fun hne => let ⟨s, h1, h2⟩ := hsgn hne; ⟨s, h1, hnorm _ _ _ _ _ _ one.neg one.neg h2⟩⟩
          · have sy : side (dy / 2) p.y = 1 := by rw [side, if_neg (by linarith), if_pos hy]
            have f1 := (hP.2.1.eq ymax).2 hy
            have f2 := (hP.2.1.gt ymin).2 (by linarith)
            have f3 := lt_false_of hP.2.1 ymax (by linarith)
            have f4 := eq_false_of hP.2.1 ymin (by linarith)
            rw [sx, sy]
            simp only [e1, e2, e3, f1, f2, f3, f4, Bool.true_and, Bool.and_true, Bool.and_false, Bool.false_and,
              Bool.false_eq_true, if_false, if_true]
            exact ⟨_, _, hrec', rfl, fun hne => let ⟨s, h1, h2⟩ := hsgn hne; ⟨s, h1, hnorm _ _ _ _ _ _ one.neg one h2⟩⟩
          · have sy : side (dy / 2) p.y = 0 := by rw [side, if_neg hy.ne', if_neg hy'.ne]
            have f1 := (hP.2.1.gt ymin).2 hy
            have f2 := (hP.2.1.lt ymax).2 hy'
            rw [sx, sy]
            simp only [e1, e2, e3, f1, f2, Bool.true_and, Bool.and_true, Bool.and_false, Bool.false_and,
              Bool.false_eq_true, if_false, if_true]
            exact ⟨_, _, hrec', rfl, fun hne => let ⟨s, h1, h2⟩ := hsgn hne; ⟨s, h1, hnorm _ _ _ _ _ _ one.neg zero h2⟩⟩
        · have sx : side (dx / 2) p.x = 1 := by rw [side, if_neg (by linarith), if_pos hx]
          have e1 := (hP.1.eq xmax).2 hx
          have e2 := (hP.1.gt xmin).2 (by linarith)
          have e3 := lt_false_of hP.1 xmax (by linarith)
          have e4 := eq_false_of hP.1 xmin (by linarith)
          rcases hyc with (hy | hy) | ⟨hy, hy'⟩
          · have sy : side (dy / 2) p.y = -1 := by rw [side, if_pos hy]
            have f1 := (hP.2.1.eq ymin).2 hy
            have f2 := (hP.2.1.lt ymax).2 (by linarith)
            have f3 := gt_false_of hP.2.1 ymin (by linarith)
            rw [sx, sy]
            simp only [e1, e2, e3, e4, f1, f2, f3, Bool.true_and, Bool.and_true, Bool.and_false, Bool.false_and,
              Bool.false_eq_true, if_false, if_true]
            exact ⟨_, _, hrec', rfl, fun hne => let ⟨s, h1, h2⟩ := hsgn hne; ⟨s, h1, hnorm _ _ _ _ _ _ one one.neg h2⟩⟩
          · have sy : side (dy / 2) p.y = 1 := by rw [side, if_neg (by linarith), if_pos hy]
            have f1 := (hP.2.1.eq ymax).2 hy
            have f2 := (hP.2.1.gt ymin).2 (by linarith)
            have f3 := lt_false_of hP.2.1 ymax (by linarith)
            have f4 := eq_false_of hP.2.1 ymin (by linarith)
            rw [sx, sy]
            simp only [e1, e2, e3, e4, f1, f2, f3, f4, Bool.true_and, Bool.and_true, Bool.and_false, Bool.false_and,
              Bool.false_eq_true, if_false, if_true]
            exact ⟨_, _, hrec', rfl, fun hne => let ⟨s, h1, h2⟩ := hsgn hne; ⟨s, h1, hnorm _ _ _ _ _ _ one one h2⟩⟩
          · have sy : side (dy / 2) p.y = 0 := by rw [side, if_neg hy.ne', if_neg hy'.ne]
            have f1 := (hP.2.1.gt ymin).2 hy
            have f2 := (hP.2.1.lt ymax).2 hy'
            rw [sx, sy]
            simp only [e1, e2, e3, e4, f1, f2, Bool.true_and, Bool.and_true, Bool.and_false, Bool.false_and,
              Bool.false_eq_true, if_false, if_true]
            exact ⟨_, _, hrec', rfl, fun hne => let ⟨s, h1, h2⟩ := hsgn hne; ⟨s, h1, hnorm _ _ _ _ _ _ one zero h2⟩⟩
        · have sx : side (dx / 2) p.x = 0 := by rw [side, if_neg hx.ne', if_neg hx'.ne]
          have e1 := (hP.1.gt xmin).2 hx
          have e2 := (hP.1.lt xmax).2 hx'
          have e3 := eq_false_of hP.1 xmin hx.ne'
          have e4 := eq_false_of hP.1 xmax hx'.ne
          rcases hyc with (hy | hy) | ⟨hy, hy'⟩
          · have sy : side (dy / 2) p.y = -1 := by rw [side, if_pos hy]
            have f1 := (hP.2.1.eq ymin).2 hy
            have f2 := (hP.2.1.lt ymax).2 (by linarith)
            have f3 := gt_false_of hP.2.1 ymin (by linarith)
            rw [sx, sy]
            simp only [e1, e2, e3, e4, f1, f2, f3, Bool.true_and, Bool.and_true, Bool.and_false, Bool.false_and,
              Bool.false_eq_true, if_false, if_true]
            exact ⟨_, _, hrec', rfl, fun hne => let ⟨s, h1, h2⟩ := hsgn hne; ⟨s, h1, hnorm _ _ _ _ _ _ zero one.neg h2⟩⟩
          · have sy : side (dy / 2) p.y = 1 := by rw [side, if_neg (by linarith), if_pos hy]
            have f1 := (hP.2.1.eq ymax).2 hy
            have f2 := (hP.2.1.gt ymin).2 (by linarith)
            have f3 := lt_false_of hP.2.1 ymax (by linarith)
            have f4 := eq_false_of hP.2.1 ymin (by linarith)
            rw [sx, sy]
            simp only [e1, e2, e3, e4, f1, f2, f3, f4, Bool.true_and, Bool.and_true, Bool.and_false, Bool.false_and,
              Bool.false_eq_true, if_false, if_true]
            exact ⟨_, _, hrec', rfl, fun hne => let ⟨s, h1, h2⟩ := hsgn hne; ⟨s, h1, hnorm _ _ _ _ _ _ zero one h2⟩⟩
          · have sy : side (dy / 2) p.y = 0 := by rw [side, if_neg hy.ne', if_neg hy'.ne]
            have f1 := (hP.2.1.gt ymin).2 hy
            have f2 := (hP.2.1.lt ymax).2 hy'
            rw [sx, sy]
            simp only [e1, e2, f1, f2, Bool.true_and, Bool.and_true, if_true]
            exact ⟨_, _, hrec', rfl, fun hne => let ⟨s, h1, h2⟩ := hsgn hne; ⟨s, h1, hnorm0 _ _ h2⟩⟩
      · left
        refine ⟨?_, fun _ t _ _ h => ?_⟩
        · have key : ∀ w X, 0 < w → ¬ (-w ≤ X ∧ X ≤ w) → ∀ (Q L U : XF F), Q.Is X → L.Is (-w) → U.Is w →
              (gt Q L = false ∧ eq Q L = false ∧ eq Q U = false) ∨ (lt Q U = false ∧ eq Q U = false ∧ eq Q L = false) := by
            intro w X hw hX Q L U hQ hL hU
            by_cases h : -w ≤ X
            · right
              have : w < X := by by_contra h'; exact hX ⟨h, not_lt.1 h'⟩
              exact ⟨lt_false_of hQ hU (by linarith), eq_false_of hQ hU (by linarith), eq_false_of hQ hL (by linarith)⟩
            · left
              rw [not_le] at h
              exact ⟨gt_false_of hQ hL (by linarith), eq_false_of hQ hL (by linarith), eq_false_of hQ hU (by linarith)⟩
          by_cases hxin : -(dx / 2) ≤ p.x ∧ p.x ≤ dx / 2
          · have hyout : ¬ (-(dy / 2) ≤ p.y ∧ p.y ≤ dy / 2) := fun h => hin ⟨hxin.1, hxin.2, h.1, h.2⟩
            rcases key _ _ (by linarith) hyout _ _ _ hP.2.1 ymin ymax with ⟨k1, k2, k3⟩ | ⟨k1, k2, k3⟩ <;>
            simp only [k1, k2, k3, Bool.and_false, Bool.false_and, Bool.false_eq_true, if_false]
          · rcases key _ _ (by linarith) hxin _ _ _ hP.1 xmin xmax with ⟨k1, k2, k3⟩ | ⟨k1, k2, k3⟩ <;>
            simp only [k1, k2, k3, Bool.and_false, Bool.false_and, Bool.false_eq_true, if_false]
        · obtain ⟨x, y, h1, h2, h3, h4, h5⟩ := h
          have := huniq t x y h5
          subst this
          rw [hpe] at h5
          injection h5 with h6 h7
          subst h6 h7
          exact hin ⟨h1, h2, h3, h4⟩
    · left
      have b : (gt T1 i.minHit && lt T1 i.hd) = false := by
        rw [Bool.eq_false_iff, ne_eq, Bool.and_eq_true, ht1.gt hmin, ht1.lt_iff]; exact hb
      refine ⟨?_, fun _ t h1 h2 h => ?_⟩
      · simp only [b, Bool.false_and, Bool.false_eq_true, if_false]
      · obtain ⟨x, y, _, _, _, _, h5⟩ := h
        have := huniq t x y h5
        subst this
        exact hb ⟨h1, h2⟩

/-! ### minima and maxima of several values -/

theorem minOf_is {K : Type} [Field K] [LinearOrder K] [IsStrictOrderedRing K] [FloorRing K] {F : Fmt K}
    {x : XF F} {a : K} (hx : x.Is a) (l : List (XF F)) (l' : List K) (h : List.Forall₂ XF.Is l l') :
    ∃ μ, (minOf x l).Is μ ∧ ∀ y ∈ a :: l', μ ≤ y := by
  induction h generalizing x a with
  | nil => exact ⟨a, hx, by simp⟩
  | @cons y b l l' hy _ ih =>
    obtain ⟨μ, h1, h2⟩ := ih (hx.min hy)
    refine ⟨μ, h1, ?_⟩
    have h3 := h2 (Min.min a b) (by simp)
    intro z hz
    simp only [List.mem_cons] at hz
    rcases hz with rfl | rfl | hz
    · exact h3.trans (min_le_left _ _)
    · exact h3.trans (min_le_right _ _)
    · exact h2 z (by simp [hz])

theorem maxOf_is {K : Type} [Field K] [LinearOrder K] [IsStrictOrderedRing K] [FloorRing K] {F : Fmt K}
    {x : XF F} {a : K} (hx : x.Is a) (l : List (XF F)) (l' : List K) (h : List.Forall₂ XF.Is l l') :
    ∃ μ, (maxOf x l).Is μ ∧ ∀ y ∈ a :: l', y ≤ μ := by
  induction h generalizing x a with
  | nil => exact ⟨a, hx, by simp⟩
  | @cons y b l l' hy _ ih =>
    obtain ⟨μ, h1, h2⟩ := ih (hx.max hy)
    refine ⟨μ, h1, ?_⟩
    have h3 := h2 (Max.max a b) (by simp)
    intro z hz
    simp only [List.mem_cons] at hz
    rcases hz with rfl | rfl | hz
    · exact (le_max_left _ _).trans h3
    · exact (le_max_right _ _).trans h3
    · exact h2 z (by simp [hz])

theorem forall₂_get {K : Type} [Field K] [LinearOrder K] [IsStrictOrderedRing K] [FloorRing K] {F : Fmt K}
    {l : List (Vec3 (XF F))} {l' : List (Vec3 K)} (h : List.Forall₂ IsV l l') (k : Fin 3) :
    List.Forall₂ XF.Is (l.map (·.get k)) (l'.map (·.get k)) := by
  induction h with
  | nil => exact .nil
  | cons h _ ih => exact .cons (h.get k) ih

/-- the corners computed by `minOfV`/`maxOfV` enclose all the points -/
theorem boxOf_is {K : Type} [Field K] [LinearOrder K] [IsStrictOrderedRing K] [FloorRing K] {F : Fmt K}
    {x : Vec3 (XF F)} {a : Vec3 K} (hx : IsV x a) (l : List (Vec3 (XF F))) (l' : List (Vec3 K))
    (h : List.Forall₂ IsV l l') :
    ∃ mn mx, IsV (minOfV x l) mn ∧ IsV (maxOfV x l) mx ∧ ∀ p ∈ a :: l', InBox mn mx p := by
  choose f hf hf' using fun k => minOf_is (hx.get k) _ _ (forall₂_get h k)
  choose g hg hg' using fun k => maxOf_is (hx.get k) _ _ (forall₂_get h k)
  refine ⟨Vec3.ofFn f, Vec3.ofFn g, IsV.ofFn hf, IsV.ofFn hg, fun p hp => ?_⟩
  have key : ∀ k, f k ≤ p.get k ∧ p.get k ≤ g k := by
    intro k
    have : p.get k ∈ a.get k :: l'.map (·.get k) :=
      List.mem_map_of_mem (f := fun v : Vec3 K => v.get k) hp
    exact ⟨hf' k _ this, hg' k _ this⟩
  exact ⟨key 0, key 1, key 2⟩

theorem planeBox_is (hF : F.Exact) (center : Vec3 (XF F)) (dx' dy' : XF F) (rotation : Mat3 (XF F)) (c : Vec3 ℝ) (dx dy : ℝ)
    (R : Mat3 ℝ) (hc : IsV center c) (hx : dx'.Is dx) (hy : dy'.Is dy) (hr : IsM rotation R)
    (hdx : 0 ≤ dx) (hdy : 0 ≤ dy) :
    ∃ mn mx, IsV (planeBox center dx' dy' rotation).1 mn ∧ IsV (planeBox center dx' dy' rotation).2 mx ∧
      InBox mn mx c ∧ ∀ p, InRect c dx dy R p → InBox mn mx p := by
  have h2 : (nat 2 : XF F).Is 2 := by simpa using XF.Is.nat hF 2
  have xmin := hx.neg.div hF h2 two_ne_zero
  have xmax := hx.div hF h2 two_ne_zero
  have ymin := hy.neg.div hF h2 two_ne_zero
  have ymax := hy.div hF h2 two_ne_zero
  have z := XF.Is.zero hF
  rw [neg_div] at xmin ymin
  have corner : ∀ (x y w : XF F) (a b e : ℝ), x.Is a → y.Is b → w.Is e →
      IsV (center + rotation.mulVec ⟨x, y, w⟩) (c + R.mulVec ⟨a, b, e⟩) := fun x y w a b e h1 h2 h3 =>
    hc.add hF (hr.mulVec hF (v := ⟨x, y, w⟩) (a := ⟨a, b, e⟩) ⟨h1, h2, h3⟩)
  obtain ⟨mn, mx, h3, h4, h5⟩ := boxOf_is (corner _ _ _ _ _ _ xmin ymin z)
    [_, _, _, _, _] [_, _, _, _, _]
    (.cons (corner _ _ _ _ _ _ xmax ymin z) (.cons (corner _ _ _ _ _ _ xmin ymax z) (.cons (corner _ _ _ _ _ _ xmax ymax z)
      (.cons (corner _ _ _ _ _ _ z z XF.Is.tiny.neg) (.cons (corner _ _ _ _ _ _ z z XF.Is.tiny) .nil)))))
  have rect : ∀ p, InRect c dx dy R p → InBox mn mx p := by
    rintro p ⟨x, y, e1, e2, e3, e4, rfl⟩
    have c1 := inBox_iff.1 (h5 (c + R.mulVec ⟨-(dx / 2), -(dy / 2), 0⟩) (by simp))
    have c2 := inBox_iff.1 (h5 (c + R.mulVec ⟨dx / 2, -(dy / 2), 0⟩) (by simp))
    have c3 := inBox_iff.1 (h5 (c + R.mulVec ⟨-(dx / 2), dy / 2, 0⟩) (by simp))
    have c4 := inBox_iff.1 (h5 (c + R.mulVec ⟨dx / 2, dy / 2, 0⟩) (by simp))
    -- bilinear: extreme at the corners
    have lin : ∀ (lo hi q r s X Y : ℝ), 0 ≤ X → 0 ≤ Y → -X ≤ x → x ≤ X → -Y ≤ y → y ≤ Y →
        (lo ≤ q + (r * -X + s * -Y) ∧ q + (r * -X + s * -Y) ≤ hi) → (lo ≤ q + (r * X + s * -Y) ∧ q + (r * X + s * -Y) ≤ hi) →
        (lo ≤ q + (r * -X + s * Y) ∧ q + (r * -X + s * Y) ≤ hi) → (lo ≤ q + (r * X + s * Y) ∧ q + (r * X + s * Y) ≤ hi) →
        lo ≤ q + (r * x + s * y) ∧ q + (r * x + s * y) ≤ hi := by
      intro lo hi q r s X Y hX hY x1 x2 y1 y2 a1 a2 a3 a4
      have hr : |r * x| ≤ |r * X| := by
        rw [abs_mul, abs_mul, abs_of_nonneg hX]; exact mul_le_mul_of_nonneg_left (abs_le.2 ⟨x1, x2⟩) (abs_nonneg r)
      have hs : |s * y| ≤ |s * Y| := by
        rw [abs_mul, abs_mul, abs_of_nonneg hY]; exact mul_le_mul_of_nonneg_left (abs_le.2 ⟨y1, y2⟩) (abs_nonneg s)
      have b1 := abs_le.1 hr; have b2 := abs_le.1 hs
      rcases abs_cases (r * X) with ⟨u1, _⟩ | ⟨u1, _⟩ <;> rcases abs_cases (s * Y) with ⟨u2, _⟩ | ⟨u2, _⟩ <;>
        rw [u1] at b1 <;> rw [u2] at b2 <;> constructor <;> nlinarith
    rw [inBox_iff]
    intro k
    have d1 := c1 k; have d2 := c2 k; have d3 := c3 k; have d4 := c4 k
    have hX : 0 ≤ dx / 2 := by linarith
    have hY : 0 ≤ dy / 2 := by linarith
    match k with
    | 0 =>
      simp only [Vec3.get_zero, Vec3.add_x, Mat3.mulVec, Vec3.dot, mul_zero, add_zero] at d1 d2 d3 d4 ⊢
      exact lin _ _ _ _ _ _ _ hX hY e1 e2 e3 e4 d1 d2 d3 d4
    | 1 =>
      simp only [Vec3.get_one, Vec3.add_y, Mat3.mulVec, Vec3.dot, mul_zero, add_zero] at d1 d2 d3 d4 ⊢
      exact lin _ _ _ _ _ _ _ hX hY e1 e2 e3 e4 d1 d2 d3 d4
    | 2 =>
      simp only [Vec3.get_two, Vec3.add_z, Mat3.mulVec, Vec3.dot, mul_zero, add_zero] at d1 d2 d3 d4 ⊢
      exact lin _ _ _ _ _ _ _ hX hY e1 e2 e3 e4 d1 d2 d3 d4
  refine ⟨mn, mx, h3, h4, rect c ⟨0, 0, by linarith, by linarith, by linarith, by linarith, ?_⟩, rect⟩
  ext <;> simp [Mat3.mulVec, Vec3.dot]

theorem plane_normal_raw {c o d : Vec3 ℝ} {dx dy x y t : ℝ} {R : Mat3 ℝ} {n : Vec3 (XF F)} (hdx : 0 < dx)
    (hdy : 0 < dy) (hR : Orthonormal R) (hz : (R.trans.mulVec d).z ≠ 0) (htpos : 0 < t)
    (h3 : along o d t = c + R.mulVec ⟨x, y, 0⟩)
    (hs : (R.trans.mulVec (o - c)).z ≠ 0 → ∃ s : ℝ, s * (R.trans.mulVec (o - c)).z = |(R.trans.mulVec (o - c)).z| ∧
      IsV n (R.mulVec ⟨side (dx / 2) x, side (dy / 2) y, s⟩)) (hx1 : |x| ≠ dx / 2) (hy1 : |y| ≠ dy / 2) :
    ∃ n', IsV n n' ∧ len n' = 1 ∧ (n' = perp R ∨ n' = Vec3.smul (-1) (perp R)) ∧
      0 < Vec3.dot n' (o - c) ∧ Vec3.dot n' d < 0 := by
  have sx : side (dx / 2) x = 0 := by
    rw [side, if_neg, if_neg]
    · rintro rfl; exact hx1 (abs_of_pos (by linarith))
    · rintro rfl; exact hx1 (by rw [abs_neg, abs_of_pos (by linarith)])
  have sy : side (dy / 2) y = 0 := by
    rw [side, if_neg, if_neg]
    · rintro rfl; exact hy1 (abs_of_pos (by linarith))
    · rintro rfl; exact hy1 (by rw [abs_neg, abs_of_pos (by linarith)])
  have h5 := congrArg Vec3.z ((hR.local_iff c _ _).1 h3)
  rw [trans_along] at h5
  simp only [along, Vec3.add_z, Vec3.smul_z] at h5
  have hg : (R.trans.mulVec (o - c)).z ≠ 0 := by
    intro h
    rw [h, zero_add] at h5
    exact (mul_ne_zero htpos.ne' hz) h5
  obtain ⟨s, hs1, hs2⟩ := hs hg
  rw [sx, sy] at hs2
  have hs3 : s * s = 1 := by
    have h6 := abs_mul_abs_self (R.trans.mulVec (o - c)).z
    rw [← hs1] at h6
    have : (s * s - 1) * ((R.trans.mulVec (o - c)).z * (R.trans.mulVec (o - c)).z) = 0 := by linear_combination h6
    rcases mul_eq_zero.1 this with h | h
    · linarith
    · exact absurd (mul_self_eq_zero.1 h) hg
  have hn : R.mulVec ⟨0, 0, s⟩ = Vec3.smul s (perp R) := by
    ext <;> simp [Mat3.mulVec, Vec3.dot, perp, mul_comm]
  have hlen : len (R.mulVec ⟨0, 0, s⟩) = 1 := by
    rw [hR.len]; exact len_unit (by simp [sq, Vec3.dot, hs3])
  refine ⟨_, hs2, hlen, ?_, ?_, ?_⟩
  · rw [hn]
    rcases mul_self_eq_one_iff.1 hs3 with h | h
    · left; rw [h]; ext <;> simp
    · right; rw [h]
  · rw [hn]
    have : Vec3.dot (Vec3.smul s (perp R)) (o - c) = s * (R.trans.mulVec (o - c)).z := by
      rw [trans_mulVec_z]; simp only [Vec3.dot, Vec3.smul_x, Vec3.smul_y, Vec3.smul_z]; ring
    rw [this, hs1]
    exact abs_pos.2 hg
  · rw [hn]
    have e1 : Vec3.dot (Vec3.smul s (perp R)) d = s * (R.trans.mulVec d).z := by
      rw [trans_mulVec_z]; simp only [Vec3.dot, Vec3.smul_x, Vec3.smul_y, Vec3.smul_z]; ring
    rw [e1]
    have e2 : t * (s * (R.trans.mulVec d).z) = -|(R.trans.mulVec (o - c)).z| := by
      rw [← hs1]; linear_combination s * h5
    have e3 := abs_pos.2 hg
    by_contra hc
    have := mul_nonneg htpos.le (not_lt.1 hc)
    linarith

theorem plane_normal (hF : F.Exact) {c o d : Vec3 ℝ} {dx dy x y t : ℝ} {R : Mat3 ℝ} {n : Vec3 (XF F)} (hdx : 0 < dx)
    (hdy : 0 < dy) (hR : Orthonormal R) (hz : (R.trans.mulVec d).z ≠ 0) (htpos : 0 < t)
    (h3 : along o d t = c + R.mulVec ⟨x, y, 0⟩)
    (hs : (R.trans.mulVec (o - c)).z ≠ 0 → ∃ s : ℝ, s * (R.trans.mulVec (o - c)).z = |(R.trans.mulVec (o - c)).z| ∧
      IsV n (R.mulVec ⟨side (dx / 2) x, side (dy / 2) y, s⟩)) (hx1 : |x| ≠ dx / 2) (hy1 : |y| ≠ dy / 2) :
    ∃ n', IsV (Vec3.normalize n) n' ∧ len n' = 1 ∧ (n' = perp R ∨ n' = Vec3.smul (-1) (perp R)) ∧
      0 < Vec3.dot n' (o - c) ∧ Vec3.dot n' d < 0 := by
  obtain ⟨n', h1, h2, h4⟩ := plane_normal_raw hdx hdy hR hz htpos h3 hs hx1 hy1
  have hne : n' ≠ ⟨0, 0, 0⟩ := by
    intro h
    rw [h, len, sq_eq_zero.2 rfl, Real.sqrt_zero] at h2
    exact zero_ne_one h2
  have hres := h1.normalize hF hne
  rw [h2, show Vec3.divs n' (1 : ℝ) = n' by ext <;> simp] at hres
  exact ⟨n', hres, h2, h4⟩

end Blazert
