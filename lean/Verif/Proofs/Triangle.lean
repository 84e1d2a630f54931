/- The triangle test in exact arithmetic. -/
import Verif.Model.TriMesh
import Verif.Proofs.Vector

set_option autoImplicit false

namespace Blazert
open Scalar

variable {F : Fmt ℝ}

/-- `triangle` stands for the triangle `A B C` -/
structure Triangle.For (tri : Triangle (XF F)) (A B C : Vec3 ℝ) : Prop where
  a : IsV tri.a A
  b : IsV tri.b (C - A)
  c : IsV tri.c (A - B)

theorem Triangle.make_for (hF : F.Exact) {a b c : Vec3 (XF F)} {A B C : Vec3 ℝ} (ha : IsV a A) (hb : IsV b B)
    (hc : IsV c C) (id : Nat) : (Triangle.make a b c id).For A B C := ⟨ha, hc.sub hF ha, ha.sub hF hb⟩

/-- (twice) the signed volume spanned by the triangle and the direction -/
def triDet (A B C d : Vec3 ℝ) : ℝ := Vec3.dot (Vec3.cross (A - B) (C - A)) d

/-- Cramer's rule -/
theorem cramer (A B C o d : Vec3 ℝ) :
    let c := A - o
    let r := Vec3.cross d c
    let U := Vec3.dot r (C - A)
    let V := Vec3.dot r (A - B)
    let T := Vec3.dot (Vec3.cross (A - B) (C - A)) c
    let D := triDet A B C d
    Vec3.smul D o + Vec3.smul T d = Vec3.smul (D - U - V) A + Vec3.smul U B + Vec3.smul V C := by
  simp only [triDet]
  ext <;>
    simp only [Vec3.dot, Vec3.cross, Vec3.add_x, Vec3.add_y, Vec3.add_z, Vec3.sub_x, Vec3.sub_y, Vec3.sub_z,
      Vec3.smul_x, Vec3.smul_y, Vec3.smul_z] <;> ring

/-- conversely the solution is unique -/
theorem cramer_unique (A B C o d : Vec3 ℝ) (t u v : ℝ) (h : along o d t = bary A B C u v) :
    let c := A - o
    let r := Vec3.cross d c
    let D := triDet A B C d
    Vec3.dot r (C - A) = D * u ∧ Vec3.dot r (A - B) = D * v ∧ Vec3.dot (Vec3.cross (A - B) (C - A)) c = D * t := by
  have hx := congrArg Vec3.x h; have hy := congrArg Vec3.y h; have hz := congrArg Vec3.z h
  simp only [along, bary, Vec3.add_x, Vec3.add_y, Vec3.add_z, Vec3.smul_x, Vec3.smul_y, Vec3.smul_z] at hx hy hz
  have ex : o.x = (1 - u - v) * A.x + u * B.x + v * C.x - t * d.x := by linarith
  have ey : o.y = (1 - u - v) * A.y + u * B.y + v * C.y - t * d.y := by linarith
  have ez : o.z = (1 - u - v) * A.z + u * B.z + v * C.z - t * d.z := by linarith
  simp only [triDet, Vec3.dot, Vec3.cross, Vec3.sub_x, Vec3.sub_y, Vec3.sub_z]
  rw [ex, ey, ez]
  refine ⟨by ring, by ring, by ring⟩

theorem above_mul {x y : XF F} (hF : F.Exact) {a t : ℝ} (hx : x.Is a) (ha : 0 < a) : (x * y).Above (a * t) ↔ y.Above t := by
  obtain ⟨s, rfl⟩ := hx
  cases y with
  | fin v s' =>
    have h := XF.Is.mul hF (⟨s, rfl⟩ : (XF.fin a s : XF F).Is a) (⟨s', rfl⟩ : (XF.fin v s' : XF F).Is v)
    constructor
    · rintro (h' | ⟨b, h1, h2⟩)
      · obtain ⟨_, h⟩ := h; rw [h'] at h; cases h
      · have := h1.unique h
        subst this
        exact .inr ⟨v, ⟨_, rfl⟩, lt_of_mul_lt_mul_left h2 ha.le⟩
    · rintro (h' | ⟨b, h1, h2⟩)
      · cases h'
      · obtain ⟨_, h1⟩ := h1
        injection h1 with h1
        subst h1
        exact .inr ⟨_, h, mul_lt_mul_of_pos_left h2 ha⟩
  | inf s' =>
    have : (XF.fin a s : XF F) * XF.inf s' = XF.inf s' := by
      show XF.mul _ _ = _
      simp [XF.mul, ha.ne', XF.sgn, not_lt.2 ha.le]
    rw [this]
    cases s' with
    | false => exact ⟨fun _ => .inl rfl, fun _ => .inl rfl⟩
    | true =>
      constructor <;>
      · rintro (h | ⟨_, ⟨_, h⟩, _⟩) <;> cases h
  | nan =>
    have : (XF.fin a s : XF F) * XF.nan = XF.nan := rfl
    rw [this]
    constructor <;>
    · rintro (h | ⟨_, ⟨_, h⟩, _⟩) <;> cases h

/-- A degenerate triangle, or one parallel to the ray, is never hit. -/
theorem triIntersect_det_zero (hF : F.Exact) (i : TriI (XF F)) (tri : Triangle (XF F)) (ray : Ray (XF F))
    (A B C o d : Vec3 ℝ) (m : ℝ) (ht : tri.For A B C) (ho : IsV ray.origin o) (hd : IsV ray.direction d)
    (hm : i.minHit.Is m) (hdet : triDet A B C d = 0) : triIntersect i tri ray = (i, false) := by
  have hc := ht.a.sub hF ho
  have hn := ht.c.cross hF ht.b
  have hD := hn.dot hF hd
  have hT := hn.dot hF hc
  rw [show Vec3.dot (Vec3.cross (A - B) (C - A)) d = 0 from hdet] at hD
  unfold triIntersect
  simp only
  set D := Vec3.dot (Vec3.cross tri.c tri.b) ray.direction
  set T := Vec3.dot (Vec3.cross tri.c tri.b) (tri.a - ray.origin)
  have hP : ∃ s, (productSign T D).Is s := by
    unfold productSign; split
    · exact ⟨_, hT.neg⟩
    · exact ⟨_, hT⟩
  obtain ⟨s, hP⟩ := hP
  have ha := hD.abs
  rw [abs_zero] at ha
  have h1 := ha.mul hF hm
  rw [zero_mul] at h1
  have h2 : ¬ (ge (productSign T D) (Scalar.abs D * i.minHit) && gt (Scalar.abs D * i.hd) (productSign T D)) = true := by
    rw [Bool.and_eq_true, hP.ge h1]
    rintro ⟨h3, h4⟩
    have h4 : Scalar.lt (productSign T D) (Scalar.abs D * i.hd) = true := h4
    rw [hP.lt_iff] at h4
    obtain ⟨s', ha⟩ := ha
    cases hq : i.hd with
    | fin v s'' =>
      rw [ha, hq] at h4
      have := XF.Is.mul hF (⟨s', rfl⟩ : (XF.fin 0 s' : XF F).Is 0) (⟨s'', rfl⟩ : (XF.fin v s'' : XF F).Is v)
      rcases h4 with h4 | ⟨b, h4, h5⟩
      · obtain ⟨_, this⟩ := this; rw [h4] at this; cases this
      · have := this.unique h4; rw [zero_mul] at this; linarith
    | inf s'' =>
      rw [ha, hq] at h4
      have : (XF.fin 0 s' : XF F) * XF.inf s'' = XF.nan := by show XF.mul _ _ = _; simp [XF.mul]
      rw [this] at h4
      rcases h4 with h | ⟨_, ⟨_, h⟩, _⟩ <;> cases h
    | nan =>
      rw [ha, hq] at h4
      rcases h4 with h | ⟨_, ⟨_, h⟩, _⟩ <;> cases h
  split
  · rfl
  · rfl

theorem triIntersect_cases (hF : F.Exact) (i : TriI (XF F)) (tri : Triangle (XF F)) (ray : Ray (XF F))
    (A B C o d : Vec3 ℝ) (m : ℝ) (ht : tri.For A B C) (ho : IsV ray.origin o) (hd : IsV ray.direction d)
    (hm : i.minHit.Is m) :
    (triIntersect i tri ray = (i, false) ∧
      (triDet A B C d ≠ 0 → ∀ t, m ≤ t → i.hd.Above t → ¬ InTriangle A B C (along o d t))) ∨
    (triDet A B C d ≠ 0 ∧ ∃ t u v, m ≤ t ∧ i.hd.Above t ∧ along o d t = bary A B C u v ∧
      -(4 * F.eps / |triDet A B C d|) ≤ u ∧ -(4 * F.eps / |triDet A B C d|) ≤ v ∧
      -(4 * F.eps / |triDet A B C d|) ≤ 1 - u - v ∧
      ∃ hd' u' v', hd'.Is t ∧ u'.Is u ∧ v'.Is v ∧
        triIntersect i tri ray = ({ i with hd := hd', uv := (u', v'), primId := tri.primId }, true)) := by
  by_cases hdet : triDet A B C d = 0
  · exact .inl ⟨triIntersect_det_zero hF i tri ray A B C o d m ht ho hd hm hdet, fun h => absurd hdet h⟩
  have hc := ht.a.sub hF ho
  have hr := hd.cross hF hc
  have hn := ht.c.cross hF ht.b
  have hD := hn.dot hF hd
  have hT := (hn.dot hF hc).productSign hD hdet
  have hU := (hr.dot hF ht.b).productSign hD hdet
  have hV := (hr.dot hF ht.c).productSign hD hdet
  have ha := hD.abs
  have htol := (XF.Is.nat hF 4).mul hF (XF.Is.eps (F := F))
  have huniq := cramer_unique A B C o d
  have hcr := cramer A B C o d
  unfold triIntersect
  simp only at huniq hcr ⊢
  change (Vec3.dot (Vec3.cross tri.c tri.b) ray.direction).Is (triDet A B C d) at hD
  change (Scalar.abs (Vec3.dot (Vec3.cross tri.c tri.b) ray.direction)).Is |triDet A B C d| at ha
  change XF.Is _ (if triDet A B C d < 0 then _ else _) at hT
  change XF.Is _ (if triDet A B C d < 0 then _ else _) at hU
  change XF.Is _ (if triDet A B C d < 0 then _ else _) at hV
  set D := triDet A B C d
  set aD := Scalar.abs (Vec3.dot (Vec3.cross tri.c tri.b) ray.direction)
  set xu := productSign (Vec3.dot (Vec3.cross ray.direction (tri.a - ray.origin)) tri.b)
    (Vec3.dot (Vec3.cross tri.c tri.b) ray.direction)
  set xv := productSign (Vec3.dot (Vec3.cross ray.direction (tri.a - ray.origin)) tri.c)
    (Vec3.dot (Vec3.cross tri.c tri.b) ray.direction)
  set xt := productSign (Vec3.dot (Vec3.cross tri.c tri.b) (tri.a - ray.origin))
    (Vec3.dot (Vec3.cross tri.c tri.b) ray.direction)
  generalize Vec3.dot (Vec3.cross d (A - o)) (C - A) = U at *
  generalize Vec3.dot (Vec3.cross d (A - o)) (A - B) = V at *
  generalize Vec3.dot (Vec3.cross (A - B) (C - A)) (A - o) = T at *
  have hpos : 0 < |D| := abs_pos.2 hdet
  -- the solution
  have hsol : along o d (T / D) = bary A B C (U / D) (V / D) := by
    have hx := congrArg Vec3.x hcr; have hy := congrArg Vec3.y hcr; have hz := congrArg Vec3.z hcr
    simp only [Vec3.add_x, Vec3.add_y, Vec3.add_z, Vec3.smul_x, Vec3.smul_y, Vec3.smul_z] at hx hy hz
    unfold along bary
    ext <;> simp only [Vec3.add_x, Vec3.add_y, Vec3.add_z, Vec3.smul_x, Vec3.smul_y, Vec3.smul_z] <;> field_simp <;>
      linarith
  have sgn : ∀ X : ℝ, (if D < 0 then -X else X) = |D| * (X / D) := by
    intro X
    rcases lt_or_gt_of_ne hdet with h | h
    · rw [if_pos h, abs_of_neg h]; field_simp
    · rw [if_neg h.le.not_gt, abs_of_pos h]; field_simp
  rw [sgn] at hT hU hV
  have hW := (ha.sub hF hU).sub hF hV
  have hw : |D| - |D| * (U / D) - |D| * (V / D) = |D| * (1 - U / D - V / D) := by ring
  rw [hw] at hW
  generalize U / D = u at *
  generalize V / D = v at *
  generalize T / D = t at *
  have hct : ∀ (x : XF F) (y : ℝ), x.Is (|D| * y) →
      (ge x (-(nat 4 * eps)) = true ↔ -(4 * F.eps / |D|) ≤ y) := by
    intro x y hx
    rw [hx.ge htol.neg]
    push_cast
    rw [neg_le_iff_add_nonneg, neg_le_iff_add_nonneg, show y + 4 * F.eps / |D| = (|D| * y + 4 * F.eps) / |D| by field_simp,
      div_nonneg_iff]
    constructor
    · intro h; exact .inl ⟨h, hpos.le⟩
    · rintro (h | h); exacts [h.1, absurd h.2 (not_le.2 hpos)]
  -- rejection: the solution is the only candidate
  have rej : ∀ t', InTriangle A B C (along o d t') → t' = t ∧ 0 ≤ u ∧ 0 ≤ v ∧ 0 ≤ 1 - u - v := by
    rintro t' ⟨u', v', h1, h2, h3, h4⟩
    obtain ⟨e1, e2, e3⟩ := huniq t' u' v' h4
    obtain ⟨f1, f2, f3⟩ := huniq t u v hsol
    have g1 : u = u' := mul_left_cancel₀ hdet (f1.symm.trans e1)
    have g2 : v = v' := mul_left_cancel₀ hdet (f2.symm.trans e2)
    have g3 : t = t' := mul_left_cancel₀ hdet (f3.symm.trans e3)
    subst g1 g2 g3
    exact ⟨rfl, h1, h2, by linarith⟩
  have heps : -(4 * F.eps / |D|) ≤ 0 := by
    have := hF.eps; rw [neg_nonpos]; positivity
  by_cases c1 : (ge xu (-(nat 4 * eps)) && ge xv (-(nat 4 * eps)) && ge (aD - xu - xv) (-(nat 4 * eps))) = true
  · rw [if_pos c1]
    rw [Bool.and_eq_true, Bool.and_eq_true, hct _ _ hU, hct _ _ hV, hct _ _ hW] at c1
    obtain ⟨⟨cu, cv⟩, cw⟩ := c1
    have cm : ge xt (aD * i.minHit) = true ↔ m ≤ t := by
      rw [hT.ge (ha.mul hF hm)]; exact mul_le_mul_iff_of_pos_left hpos
    have ch : gt (aD * i.hd) xt = true ↔ i.hd.Above t := by
      show Scalar.lt xt (aD * i.hd) = true ↔ _
      rw [hT.lt_iff, above_mul hF ha hpos]
    by_cases c2 : (ge xt (aD * i.minHit) && gt (aD * i.hd) xt) = true
    · rw [if_pos c2]
      rw [Bool.and_eq_true, cm, ch] at c2
      have hinv := (XF.Is.one hF).div hF ha hpos.ne'
      have cancel : ∀ y : ℝ, |D| * y * (1 / |D|) = y := fun y => by field_simp
      have k1 := hT.mul hF hinv; have k2 := hU.mul hF hinv; have k3 := hV.mul hF hinv
      rw [cancel] at k1 k2 k3
      exact .inr ⟨hdet, t, u, v, c2.1, c2.2, hsol, cu, cv, cw, _, _, _, k1, k2, k3, rfl⟩
    · rw [if_neg c2]
      rw [Bool.and_eq_true, cm, ch] at c2
      refine .inl ⟨rfl, fun _ t' h1 h2 h3 => ?_⟩
      obtain ⟨rfl, _⟩ := rej t' h3
      exact c2 ⟨h1, h2⟩
  · rw [if_neg c1]
    rw [Bool.and_eq_true, Bool.and_eq_true, hct _ _ hU, hct _ _ hV, hct _ _ hW] at c1
    refine .inl ⟨rfl, fun _ t' _ _ h3 => ?_⟩
    obtain ⟨_, k1, k2, k3⟩ := rej t' h3
    exact c1 ⟨⟨heps.trans k1, heps.trans k2⟩, heps.trans k3⟩

end Blazert
