/- The box test in exact arithmetic. -/
import Verif.Proofs.Exact
import Verif.Proofs.Visit

set_option autoImplicit false
set_option linter.unusedSectionVars false

namespace Blazert
open Scalar

section
variable {K : Type} [Field K] [LinearOrder K] [FloorRing K] {F : Fmt K}

/-- NaN or a lower bound of `t` -/
def Lo (x : XF F) (t : K) : Prop := x = .nan ∨ x = .inf true ∨ ∃ a, x.Is a ∧ a ≤ t
/-- NaN or an upper bound of `t` -/
def Hi (x : XF F) (t : K) : Prop := x = .nan ∨ x = .inf false ∨ ∃ a, x.Is a ∧ t ≤ a

theorem Lo.max {x y : XF F} {t : K} (hx : Lo x t) (hy : Lo y t) : Lo (Scalar.max x y) t := by
  unfold Scalar.max; split <;> assumption

theorem Hi.min {x y : XF F} {t : K} (hx : Hi x t) (hy : Hi y t) : Hi (Scalar.min x y) t := by
  unfold Scalar.min; split <;> assumption

theorem max_ne_nan {x y : XF F} (hx : x ≠ .nan) : Scalar.max x y ≠ .nan := by
  unfold Scalar.max
  split
  · rename_i h
    rintro rfl
    cases x <;> simp [Scalar.lt, XF.lt] at h
  · exact hx

theorem min_ne_nan {x y : XF F} (hx : x ≠ .nan) : Scalar.min x y ≠ .nan := by
  unfold Scalar.min
  split
  · rename_i h
    rintro rfl
    simp [Scalar.lt, XF.lt] at h
  · exact hx

theorem Lo.le_hi {x y : XF F} {t : K} (hx : Lo x t) (hy : Hi y t) (hx' : x ≠ .nan) (hy' : y ≠ .nan) :
    Scalar.le x y = true := by
  rcases hx with rfl | rfl | ⟨a, ha, hat⟩
  · exact absurd rfl hx'
  · cases y with
    | nan => exact absurd rfl hy'
    | fin v s => rfl
    | inf s => rfl
  · rcases hy with rfl | rfl | ⟨b, hb, hbt⟩
    · exact absurd rfl hy'
    · obtain ⟨s, rfl⟩ := ha; rfl
    · exact (XF.Is.le ha hb).2 (hat.trans hbt)

end

variable {F : Fmt ℝ}

theorem slack_is (hF : F.Exact) : (slabSlack : XF F).Is (1 + 4 * F.eps) := by
  have h4 : (nat 4 : XF F).Is 4 := by simpa using XF.Is.nat hF 4
  exact (XF.Is.one hF).add hF (h4.mul hF XF.Is.eps)

/-- one slab -/
theorem slab_axis (hF : F.Exact) {lo hi org x : XF F} {a b o d t : ℝ} (hlo : lo.Is a) (hhi : hi.Is b) (ho : org.Is o)
    (hx : x.Is d) (hnz : x ≠ .fin 0 true) (ht : 0 ≤ t) (h1 : a ≤ o + t * d) (h2 : o + t * d ≤ b)
    (enter exit : XF F)
    (he : enter = ((if lt x (nat 0) then hi else lo) - org) * (nat 1 / x))
    (hx' : exit = ((if lt x (nat 0) then lo else hi) - org) * (nat 1 / x) * slabSlack) :
    Lo enter t ∧ Hi exit t ∧ ((d ≠ 0 ∨ (o ≠ a ∧ o ≠ b)) → enter ≠ .nan ∧ exit ≠ .nan) := by
  have hz := XF.Is.zero hF (F := F)
  have h1' := XF.Is.one hF (F := F)
  have hs := slack_is hF (F := F)
  have he0 := hF.eps
  by_cases hd : d = 0
  · subst hd
    obtain ⟨s, rfl⟩ := hx
    have hs0 : s = false := by cases s <;> simp_all
    subst hs0
    have hlt : lt (XF.fin 0 false : XF F) (nat 0) = false := by
      have := XF.Is.lt (x := (XF.fin 0 false : XF F)) ⟨false, rfl⟩ hz
      simpa using this
    have hinv : (nat 1 / (XF.fin 0 false : XF F)) = .inf false := by
      obtain ⟨s, h⟩ := h1'
      rw [h]
      show XF.div _ _ = _
      simp [XF.div, XF.sgn]
    rw [hlt, hinv] at he hx'
    simp only [Bool.false_eq_true, if_false, mul_zero, add_zero] at he hx' h1 h2
    have hA := hlo.sub hF ho
    have hB := hhi.sub hF ho
    have hent : (a - o = 0 → enter = .nan) ∧ (a - o ≠ 0 → enter = .inf true) := by
      obtain ⟨s, h⟩ := hA
      rw [h] at he
      constructor
      · intro h0
        rw [he, h0]
        show XF.mul _ _ = _
        simp [XF.mul]
      · intro h0
        rw [he]
        show XF.mul _ _ = _
        have : a - o < 0 := lt_of_le_of_ne (by linarith) h0
        simp [XF.mul, XF.sgn, h0, this]
    have hext : (b - o = 0 → exit = .nan) ∧ (b - o ≠ 0 → exit = .inf false) := by
      obtain ⟨s, h⟩ := hB
      rw [h] at hx'
      constructor
      · intro h0
        rw [hx', h0]
        show XF.mul (XF.mul _ _) _ = _
        simp [XF.mul]
      · intro h0
        rw [hx']
        obtain ⟨s', h'⟩ := hs
        rw [h']
        show XF.mul (XF.mul _ _) _ = _
        have h3 : ¬ (b - o < 0) := by linarith
        have h4 : ¬ (1 + 4 * F.eps < 0) := by linarith
        have h5 : (1 + 4 * F.eps) ≠ 0 := by linarith
        simp [XF.mul, XF.sgn, h0, h3, h4, h5]
    refine ⟨?_, ?_, ?_⟩
    · by_cases h0 : a - o = 0
      · exact .inl (hent.1 h0)
      · exact .inr (.inl (hent.2 h0))
    · by_cases h0 : b - o = 0
      · exact .inl (hext.1 h0)
      · exact .inr (.inl (hext.2 h0))
    · rintro (h | ⟨h3, h4⟩)
      · exact absurd rfl h
      · rw [hent.2 (sub_ne_zero.2 (Ne.symm h3)), hext.2 (sub_ne_zero.2 (Ne.symm h4))]
        simp
  · have hinv := h1'.div hF hx hd
    have main : ∀ p q : ℝ, (enter.Is ((p - o) * (1 / d))) → (exit.Is ((q - o) * (1 / d) * (1 + 4 * F.eps))) →
        (p - o) * (1 / d) ≤ t → t ≤ (q - o) * (1 / d) →
        Lo enter t ∧ Hi exit t ∧ ((d ≠ 0 ∨ (o ≠ a ∧ o ≠ b)) → enter ≠ .nan ∧ exit ≠ .nan) := by
      intro p q hp hq h3 h4
      refine ⟨.inr (.inr ⟨_, hp, h3⟩), .inr (.inr ⟨_, hq, ?_⟩), fun _ => ?_⟩
      · have : 0 ≤ (q - o) * (1 / d) := ht.trans h4
        nlinarith
      · obtain ⟨_, h5⟩ := hp
        obtain ⟨_, h6⟩ := hq
        rw [h5, h6]; simp
    rcases lt_or_gt_of_ne hd with hneg | hpos
    · have hlt : lt x (nat 0) = true := (hx.lt hz).2 hneg
      rw [hlt] at he hx'
      simp only [if_true] at he hx'
      refine main b a (he ▸ (hhi.sub hF ho).mul hF hinv) (hx' ▸ ((hlo.sub hF ho).mul hF hinv).mul hF hs) ?_ ?_
      · rw [mul_one_div, div_le_iff_of_neg hneg]; linarith
      · rw [mul_one_div, le_div_iff_of_neg hneg]; linarith
    · have hlt : lt x (nat 0) = false := by
        rw [← Bool.not_eq_true, hx.lt hz]; exact not_lt.2 hpos.le
      rw [hlt] at he hx'
      simp only [Bool.false_eq_true, if_false] at he hx'
      refine main a b (he ▸ (hlo.sub hF ho).mul hF hinv) (hx' ▸ ((hhi.sub hF ho).mul hF hinv).mul hF hs) ?_ ?_
      · rw [mul_one_div, div_le_iff₀ hpos]; linarith
      · rw [mul_one_div, le_div_iff₀ hpos]; linarith

/-- one iteration of the loop for a ray made by the constructor -/
theorem slabStep_make {T P : Type} [Scalar T] (node : Node T P) (origin direction : Vec3 T) (mnh mxh : T) (any : Bool)
    (acc : T × T) (i : Fin 3) :
    slabStep node (Ray.make origin direction mnh mxh any) acc i =
      (Scalar.max (((if lt (direction.get i) (nat 0) then node.max.get i else node.min.get i) - origin.get i) *
          (nat 1 / direction.get i)) acc.1,
       Scalar.min (((if lt (direction.get i) (nat 0) then node.min.get i else node.max.get i) - origin.get i) *
          (nat 1 / direction.get i) * slabSlack) acc.2) := by
  match i with
  | 0 =>
    simp only [slabStep, Ray.make, Vec3.map, Vec3.get_zero]
    by_cases h : lt direction.x (nat 0) = true <;> simp [h]
  | 1 =>
    simp only [slabStep, Ray.make, Vec3.map, Vec3.get_one]
    by_cases h : lt direction.y (nat 0) = true <;> simp [h]
  | 2 =>
    simp only [slabStep, Ray.make, Vec3.map, Vec3.get_two]
    by_cases h : lt direction.z (nat 0) = true <;> simp [h]

theorem intersectNode_of_inBox {P : Type} (hF : F.Exact) (node : Node (XF F) P) (origin direction : Vec3 (XF F))
    (mnh mxh : XF F) (any : Bool) (hd : XF F) (mn mx o d : Vec3 ℝ) (t : ℝ)
    (hmn : IsV node.min mn) (hmx : IsV node.max mx) (ho : IsV origin o) (hdir : IsV direction d)
    (hnz : ∀ i, direction.get i ≠ .fin 0 true) (ht : 0 ≤ t) (hin : InBox mn mx (along o d t))
    (hz : d.z = 0 → o.z ≠ mn.z ∧ o.z ≠ mx.z) (hlo : Lo mnh t) (hhi : Hi hd t) :
    intersectNode mnh hd node (Ray.make origin direction mnh mxh any) = true := by
  obtain ⟨⟨hx1, hx2⟩, ⟨hy1, hy2⟩, ⟨hz1, hz2⟩⟩ := hin
  simp only [along, Vec3.add_x, Vec3.add_y, Vec3.add_z, Vec3.smul_x, Vec3.smul_y, Vec3.smul_z] at hx1 hx2 hy1 hy2 hz1 hz2
  obtain ⟨l0, u0, _⟩ := slab_axis hF hmn.1 hmx.1 ho.1 hdir.1 (hnz 0) ht hx1 hx2 _ _ rfl rfl
  obtain ⟨l1, u1, _⟩ := slab_axis hF hmn.2.1 hmx.2.1 ho.2.1 hdir.2.1 (hnz 1) ht hy1 hy2 _ _ rfl rfl
  obtain ⟨l2, u2, n2⟩ := slab_axis hF hmn.2.2 hmx.2.2 ho.2.2 hdir.2.2 (hnz 2) ht hz1 hz2 _ _ rfl rfl
  obtain ⟨n2, m2⟩ := n2 (by by_cases h : d.z = 0; exact .inr (hz h); exact .inl h)
  unfold intersectNode
  simp only [slabStep_make, Vec3.get_zero, Vec3.get_one, Vec3.get_two]
  exact (l2.max (l1.max (l0.max hlo))).le_hi (u2.min (u1.min (u0.min hhi))) (max_ne_nan n2) (min_ne_nan m2)

/-! ### the converse: what the box test accepts -/

theorem max_is_le {x y : XF F} {v : ℝ} (hx : x ≠ .nan) (h : (Scalar.max x y).Is v) :
    (x = .inf true ∨ ∃ a, x.Is a ∧ a ≤ v) ∧ (y = .nan ∨ y = .inf true ∨ ∃ a, y.Is a ∧ a ≤ v) := by
  obtain ⟨s, h⟩ := h
  unfold Scalar.max at h
  split at h
  · rename_i hlt
    subst h
    cases x with
    | nan => exact absurd rfl hx
    | inf s' =>
      cases s' with
      | false => change false = true at hlt; simp at hlt
      | true => exact ⟨.inl rfl, .inr (.inr ⟨v, ⟨s, rfl⟩, le_rfl⟩)⟩
    | fin a s' =>
      exact ⟨.inr ⟨a, ⟨s', rfl⟩, (decide_eq_true_iff.1 hlt : a < v).le⟩, .inr (.inr ⟨v, ⟨s, rfl⟩, le_rfl⟩)⟩
  · rename_i hlt
    subst h
    refine ⟨.inr ⟨v, ⟨s, rfl⟩, le_rfl⟩, ?_⟩
    cases y with
    | nan => exact .inl rfl
    | inf s' =>
      cases s' with
      | false => exact absurd rfl hlt
      | true => exact .inr (.inl rfl)
    | fin a s' => exact .inr (.inr ⟨a, ⟨s', rfl⟩, not_lt.1 fun h => hlt (decide_eq_true_iff.2 h)⟩)

theorem max_finite_or {x y : XF F} {a : ℝ} (hx : x ≠ .nan) (hy : y = .inf false ∨ ∃ v, y.Is v ∧ a ≤ v) :
    Scalar.max x y = .inf false ∨ ∃ v, (Scalar.max x y).Is v ∧ a ≤ v := by
  unfold Scalar.max
  split
  · exact hy
  · rename_i hlt
    rcases hy with rfl | ⟨v, ⟨s, rfl⟩, hv⟩
    · cases x with
      | nan => exact absurd rfl hx
      | inf s => cases s; exact .inl rfl; exact absurd rfl hlt
      | fin w s => exact absurd rfl hlt
    · cases x with
      | nan => exact absurd rfl hx
      | inf s => cases s; exact .inl rfl; exact absurd rfl hlt
      | fin w s' => exact .inr ⟨w, ⟨s', rfl⟩, hv.trans (not_lt.1 fun h => hlt (decide_eq_true_iff.2 h))⟩

/-- the value of `min x y` is a lower bound of both -/
theorem min_ge {x y : XF F} {t : ℝ} (hx : x ≠ .nan) (hy : y ≠ .nan)
    (h : Scalar.min x y = .inf false ∨ ∃ v, (Scalar.min x y).Is v ∧ t ≤ v) :
    (x = .inf false ∨ ∃ v, x.Is v ∧ t ≤ v) ∧ (y = .inf false ∨ ∃ v, y.Is v ∧ t ≤ v) := by
  unfold Scalar.min at h
  split at h
  · rename_i hlt
    refine ⟨?_, h⟩
    rcases h with rfl | ⟨v, ⟨s, rfl⟩, hv⟩
    · cases x with
      | nan => exact absurd rfl hx
      | inf s => change false = true at hlt; simp at hlt
      | fin w s => change false = true at hlt; simp at hlt
    · cases x with
      | nan => exact absurd rfl hx
      | inf s => cases s; exact .inl rfl; change false = true at hlt; simp at hlt
      | fin w s' => exact .inr ⟨w, ⟨s', rfl⟩, hv.trans (decide_eq_true_iff.1 hlt : v < w).le⟩
  · rename_i hlt
    refine ⟨h, ?_⟩
    rcases h with rfl | ⟨v, ⟨s, rfl⟩, hv⟩
    · cases y with
      | nan => exact absurd rfl hy
      | inf s => cases s; exact .inl rfl; exact absurd rfl hlt
      | fin w s => exact absurd rfl hlt
    · cases y with
      | nan => exact absurd rfl hy
      | inf s => cases s; exact .inl rfl; exact absurd rfl hlt
      | fin w s' => exact .inr ⟨w, ⟨s', rfl⟩, hv.trans (not_lt.1 fun h => hlt (decide_eq_true_iff.2 h))⟩

/-- one slab, converse -/
theorem slab_axis_conv (hF : F.Exact) {lo hi org x : XF F} {a b o d : ℝ} (hlo : lo.Is a) (hhi : hi.Is b) (ho : org.Is o)
    (hx : x.Is d) (hnz : x ≠ .fin 0 true) (hab : a ≤ b) (hface : d = 0 → o ≠ a ∧ o ≠ b)
    (enter exit : XF F)
    (he : enter = ((if lt x (nat 0) then hi else lo) - org) * (nat 1 / x))
    (hx' : exit = ((if lt x (nat 0) then lo else hi) - org) * (nat 1 / x) * slabSlack) :
    enter ≠ .nan ∧ exit ≠ .nan ∧
    ∀ t, 0 ≤ t → (enter = .inf true ∨ ∃ e, enter.Is e ∧ e ≤ t) → (exit = .inf false ∨ ∃ e, exit.Is e ∧ t ≤ e) →
      ∃ t', t' ≤ t ∧ t ≤ t' * (1 + 4 * F.eps) ∧ a ≤ o + t' * d ∧ o + t' * d ≤ b := by
  have hz := XF.Is.zero hF (F := F)
  have h1' := XF.Is.one hF (F := F)
  have hs := slack_is hF (F := F)
  have he0 := hF.eps
  by_cases hd : d = 0
  · obtain ⟨hoa, hob⟩ := hface hd
    subst hd
    obtain ⟨s, rfl⟩ := hx
    have hs0 : s = false := by cases s <;> simp_all
    subst hs0
    have hlt : lt (XF.fin 0 false : XF F) (nat 0) = false := by
      have := XF.Is.lt (x := (XF.fin 0 false : XF F)) ⟨false, rfl⟩ hz
      simpa using this
    have hinv : (nat 1 / (XF.fin 0 false : XF F)) = .inf false := by
      obtain ⟨s, h⟩ := h1'
      rw [h]
      show XF.div _ _ = _
      simp [XF.div, XF.sgn]
    rw [hlt, hinv] at he hx'
    simp only [Bool.false_eq_true, if_false] at he hx'
    have h0a : a - o ≠ 0 := sub_ne_zero.2 (Ne.symm hoa)
    have h0b : b - o ≠ 0 := sub_ne_zero.2 (Ne.symm hob)
    have hent : enter = .inf (decide (a - o < 0)) := by
      obtain ⟨s, h⟩ := hlo.sub hF ho
      rw [h] at he
      rw [he]
      show XF.mul _ _ = _
      simp only [XF.mul, XF.sgn, if_neg h0a, Bool.xor_false]
    have hext : exit = .inf (decide (b - o < 0)) := by
      obtain ⟨s, h⟩ := hhi.sub hF ho
      rw [h] at hx'
      rw [hx']
      obtain ⟨s', h'⟩ := hs
      rw [h']
      show XF.mul (XF.mul _ _) _ = _
      have h4 : ¬ (1 + 4 * F.eps < 0) := by linarith
      have h5 : (1 + 4 * F.eps) ≠ 0 := by linarith
      simp only [XF.mul, XF.sgn, if_neg h0b, Bool.xor_false, if_neg h5, h4, decide_false]
    rw [hent, hext]
    refine ⟨by simp, by simp, fun t ht h1 h2 => ⟨t, le_rfl, by nlinarith, ?_, ?_⟩⟩
    · have : a - o < 0 := by
        rcases h1 with h1 | ⟨_, ⟨_, h1⟩, _⟩
        · simpa using h1
        · cases h1
      linarith
    · have : ¬ (b - o < 0) := by
        rcases h2 with h2 | ⟨_, ⟨_, h2⟩, _⟩
        · simpa using h2
        · cases h2
      linarith
  · have hinv := h1'.div hF hx hd
    have main : ∀ p q : ℝ, (enter.Is ((p - o) * (1 / d))) → (exit.Is ((q - o) * (1 / d) * (1 + 4 * F.eps))) →
        (p - o) * (1 / d) ≤ (q - o) * (1 / d) →
        (∀ t, (p - o) * (1 / d) ≤ t → t ≤ (q - o) * (1 / d) → a ≤ o + t * d ∧ o + t * d ≤ b) →
        enter ≠ .nan ∧ exit ≠ .nan ∧
        ∀ t, 0 ≤ t → (enter = .inf true ∨ ∃ e, enter.Is e ∧ e ≤ t) → (exit = .inf false ∨ ∃ e, exit.Is e ∧ t ≤ e) →
          ∃ t', t' ≤ t ∧ t ≤ t' * (1 + 4 * F.eps) ∧ a ≤ o + t' * d ∧ o + t' * d ≤ b := by
      intro p q hp hq hpq hbox
      obtain ⟨sp, hp⟩ := hp
      obtain ⟨sq, hq⟩ := hq
      rw [hp, hq]
      refine ⟨by simp, by simp, fun t ht h1 h2 => ?_⟩
      have e1 : (p - o) * (1 / d) ≤ t := by
        rcases h1 with h1 | ⟨e, ⟨s, h1⟩, h1'⟩
        · cases h1
        · injection h1 with h1; rw [h1]; exact h1'
      have e2 : t ≤ (q - o) * (1 / d) * (1 + 4 * F.eps) := by
        rcases h2 with h2 | ⟨e, ⟨s, h2⟩, h2'⟩
        · cases h2
        · injection h2 with h2; rw [h2]; exact h2'
      refine ⟨Min.min t ((q - o) * (1 / d)), min_le_left _ _, ?_, hbox _ (le_min e1 hpq) (min_le_right _ _)⟩
      rcases le_total t ((q - o) * (1 / d)) with h | h
      · rw [min_eq_left h]; nlinarith
      · rw [min_eq_right h]; exact e2
    rcases lt_or_gt_of_ne hd with hneg | hpos
    · have hlt : lt x (nat 0) = true := (hx.lt hz).2 hneg
      rw [hlt] at he hx'
      simp only [if_true] at he hx'
      refine main b a (he ▸ (hhi.sub hF ho).mul hF hinv) (hx' ▸ ((hlo.sub hF ho).mul hF hinv).mul hF hs) ?_ ?_
      · rw [mul_one_div, mul_one_div, div_le_div_right_of_neg hneg]; linarith
      · intro t h1 h2
        rw [mul_one_div, div_le_iff_of_neg hneg] at h1
        rw [mul_one_div, le_div_iff_of_neg hneg] at h2
        constructor <;> linarith
    · have hlt : lt x (nat 0) = false := by
        rw [← Bool.not_eq_true, hx.lt hz]; exact not_lt.2 hpos.le
      rw [hlt] at he hx'
      simp only [Bool.false_eq_true, if_false] at he hx'
      refine main a b (he ▸ (hlo.sub hF ho).mul hF hinv) (hx' ▸ ((hhi.sub hF ho).mul hF hinv).mul hF hs) ?_ ?_
      · rw [mul_one_div, mul_one_div, div_le_div_iff_of_pos_right hpos]; linarith
      · intro t h1 h2
        rw [mul_one_div, div_le_iff₀ hpos] at h1
        rw [mul_one_div, le_div_iff₀ hpos] at h2
        constructor <;> linarith

theorem intersectNode_conv {P : Type} (hF : F.Exact) (node : Node (XF F) P) (origin direction : Vec3 (XF F))
    (mnh mxh : XF F) (any : Bool) (hd : XF F) (mn mx o d : Vec3 ℝ) (m h : ℝ)
    (hmn : IsV node.min mn) (hmx : IsV node.max mx) (ho : IsV origin o) (hdir : IsV direction d)
    (hbox : ∀ i, mn.get i ≤ mx.get i)
    (hnz : ∀ i, direction.get i ≠ .fin 0 true)
    (hface : ∀ i, d.get i = 0 → o.get i ≠ mn.get i ∧ o.get i ≠ mx.get i) (hm : mnh.Is m) (hm0 : 0 ≤ m) (hh : hd.Is h)
    (hacc : intersectNode mnh hd node (Ray.make origin direction mnh mxh any) = true) :
    ∃ t, m ≤ t ∧ t ≤ h ∧ ∀ i, ∃ t', t' ≤ t ∧ t ≤ t' * (1 + 4 * F.eps) ∧
      mn.get i ≤ o.get i + t' * d.get i ∧ o.get i + t' * d.get i ≤ mx.get i := by
  have ax := fun i => slab_axis_conv hF (hmn.get i) (hmx.get i) (ho.get i) (hdir.get i) (hnz i) (hbox i) (hface i)
    _ _ rfl rfl
  unfold intersectNode at hacc
  simp only [slabStep_make] at hacc
  obtain ⟨e0, x0, c0⟩ := ax 0
  obtain ⟨e1, x1, c1⟩ := ax 1
  obtain ⟨e2, x2, c2⟩ := ax 2
  generalize ((if lt (direction.get 0) (nat 0) = true then node.max.get 0 else node.min.get 0) - origin.get 0) *
    (nat 1 / direction.get 0) = E0 at *
  generalize ((if lt (direction.get 1) (nat 0) = true then node.max.get 1 else node.min.get 1) - origin.get 1) *
    (nat 1 / direction.get 1) = E1 at *
  generalize ((if lt (direction.get 2) (nat 0) = true then node.max.get 2 else node.min.get 2) - origin.get 2) *
    (nat 1 / direction.get 2) = E2 at *
  generalize ((if lt (direction.get 0) (nat 0) = true then node.min.get 0 else node.max.get 0) - origin.get 0) *
    (nat 1 / direction.get 0) * slabSlack = X0 at *
  generalize ((if lt (direction.get 1) (nat 0) = true then node.min.get 1 else node.max.get 1) - origin.get 1) *
    (nat 1 / direction.get 1) * slabSlack = X1 at *
  generalize ((if lt (direction.get 2) (nat 0) = true then node.min.get 2 else node.max.get 2) - origin.get 2) *
    (nat 1 / direction.get 2) * slabSlack = X2 at *
  have hmn' : mnh ≠ .nan := by obtain ⟨s, rfl⟩ := hm; simp
  have hhn : hd ≠ .nan := by obtain ⟨s, rfl⟩ := hh; simp
  have n0 : Scalar.max E0 mnh ≠ .nan := max_ne_nan e0
  have n1 : Scalar.max E1 (Scalar.max E0 mnh) ≠ .nan := max_ne_nan e1
  have k0 : Scalar.min X0 hd ≠ .nan := min_ne_nan x0
  have k1 : Scalar.min X1 (Scalar.min X0 hd) ≠ .nan := min_ne_nan x1
  have k2 : Scalar.min X2 (Scalar.min X1 (Scalar.min X0 hd)) ≠ .nan := min_ne_nan x2
  have g2 := max_finite_or e2 (max_finite_or e1 (max_finite_or e0 (.inr ⟨m, hm, le_rfl⟩)))
  -- the upper end is at most `h`
  have hle : ∀ {x y : XF F}, x ≠ .nan → (∃ v, y.Is v ∧ v ≤ h) ∨ y = .inf true →
      (∃ v, (Scalar.min x y).Is v ∧ v ≤ h) ∨ Scalar.min x y = .inf true := by
    intro x y hx hy
    unfold Scalar.min
    split
    · exact hy
    · rename_i hlt
      rcases hy with ⟨v, ⟨s, rfl⟩, hv⟩ | rfl
      · cases x with
        | nan => exact absurd rfl hx
        | inf s => cases s; exact absurd rfl hlt; exact .inr rfl
        | fin w s' => exact .inl ⟨w, ⟨s', rfl⟩, le_trans (not_lt.1 fun h => hlt (decide_eq_true_iff.2 h)) hv⟩
      · cases x with
        | nan => exact absurd rfl hx
        | inf s => cases s; exact absurd rfl hlt; exact .inr rfl
        | fin w s => exact absurd rfl hlt
  have u2 := hle x2 (hle x1 (hle x0 (.inl ⟨h, hh, le_rfl⟩)))
  rcases g2 with g2 | ⟨t, g2, gm⟩
  · rw [g2] at hacc
    rcases u2 with ⟨v, ⟨s, hv⟩, _⟩ | hv <;> rw [hv] at hacc <;> (change false = true at hacc; simp at hacc)
  · rcases u2 with ⟨v, hv, hvh⟩ | hv
    · have htv : t ≤ v := (XF.Is.le g2 hv).1 hacc
      obtain ⟨b2, r1⟩ := min_ge x2 k1 (.inr ⟨v, hv, htv⟩)
      obtain ⟨b1, r0⟩ := min_ge x1 k0 r1
      obtain ⟨b0, _⟩ := min_ge x0 hhn r0
      have ht0 : 0 ≤ t := hm0.trans gm
      obtain ⟨a2, q1⟩ := max_is_le e2 g2
      have up : ∀ {x y : XF F}, x ≠ .nan → y ≠ .nan →
          (Scalar.max x y = .nan ∨ Scalar.max x y = .inf true ∨ ∃ a, (Scalar.max x y).Is a ∧ a ≤ t) →
          (x = .inf true ∨ ∃ a, x.Is a ∧ a ≤ t) ∧ (y = .nan ∨ y = .inf true ∨ ∃ a, y.Is a ∧ a ≤ t) := by
        intro x y hx hy hq
        rcases hq with hq | hq | ⟨a, hq, hat⟩
        · exact absurd hq (max_ne_nan hx)
        · unfold Scalar.max at hq
          split at hq
          · rename_i hlt
            subst hq
            cases x with
            | nan => exact absurd rfl hx
            | inf s => cases s; change false = true at hlt; simp at hlt; exact ⟨.inl rfl, .inr (.inl rfl)⟩
            | fin w s => change false = true at hlt; simp at hlt
          · rename_i hlt
            subst hq
            refine ⟨.inl rfl, ?_⟩
            cases y with
            | nan => exact absurd rfl hy
            | inf s => cases s; exact absurd rfl hlt; exact .inr (.inl rfl)
            | fin w s => exact absurd rfl hlt
        · obtain ⟨h1, h2⟩ := max_is_le hx hq
          refine ⟨h1.imp id fun ⟨a', ha, hb⟩ => ⟨a', ha, hb.trans hat⟩, ?_⟩
          exact h2.imp id fun h => h.imp id fun ⟨a', ha, hb⟩ => ⟨a', ha, hb.trans hat⟩
      obtain ⟨a1, q0⟩ := up e1 n0 q1
      obtain ⟨a0, _⟩ := up e0 hmn' q0
      refine ⟨t, gm, htv.trans hvh, fun i => ?_⟩
      match i with
      | 0 => exact c0 t ht0 a0 b0
      | 1 => exact c1 t ht0 a1 b1
      | 2 => exact c2 t ht0 a2 b2
    · obtain ⟨s, g2⟩ := g2
      rw [hv, g2] at hacc
      change false = true at hacc
      simp at hacc

end Blazert
