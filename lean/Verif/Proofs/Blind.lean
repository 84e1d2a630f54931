/- A component `-0.0` in the direction makes the box test fail. -/
import Verif.Proofs.Slab

set_option autoImplicit false

namespace Blazert
open Scalar

variable {F : Fmt ℝ}

theorem slab_term_ne_nan (hF : F.Exact) {a org x : XF F} {α o d : ℝ} (ha : a.Is α) (ho : org.Is o) (hx : x.Is d)
    (h : d = 0 → α ≠ o) : (a - org) * (nat 1 / x) ≠ .nan ∧ (a - org) * (nat 1 / x) * slabSlack ≠ .nan := by
  have h1' := XF.Is.one hF (F := F)
  have hs := slack_is hF (F := F)
  have he0 := hF.eps
  by_cases hd : d = 0
  · subst hd
    obtain ⟨s, rfl⟩ := hx
    have hinv : (nat 1 / (XF.fin 0 s : XF F)) = .inf s := by
      obtain ⟨s', h⟩ := h1'
      rw [h]
      show XF.div _ _ = _
      cases s <;> norm_num [XF.div, XF.sgn]
    obtain ⟨s1, e1⟩ := ha.sub hF ho
    obtain ⟨s2, e2⟩ := hs
    rw [hinv, e1, e2]
    have h0 : α - o ≠ 0 := sub_ne_zero.2 (h rfl)
    have h5 : (1 + 4 * F.eps) ≠ 0 := by linarith
    constructor
    · show XF.mul _ _ ≠ _
      simp [XF.mul, h0]
    · show XF.mul (XF.mul _ _) _ ≠ _
      simp [XF.mul, h0, h5]
  · have hm := (ha.sub hF ho).mul hF (h1'.div hF hx hd)
    obtain ⟨s', e'⟩ := hm.mul hF hs
    obtain ⟨s, e⟩ := hm
    exact ⟨by rw [e]; simp, by rw [e']; simp⟩

/-- `x` is at least `m`, as a comparison of doubles -/
def AtLeast (x : XF F) (m : ℝ) : Prop := x = .inf false ∨ ∃ v, x.Is v ∧ m ≤ v

/-- `x` is at most `M`, as a comparison of doubles -/
def AtMost (x : XF F) (M : ℝ) : Prop := x = .inf true ∨ ∃ v, x.Is v ∧ v ≤ M

theorem AtLeast.max {x y : XF F} {m : ℝ} (hx : x ≠ .nan) (hy : AtLeast y m) : AtLeast (Scalar.max x y) m :=
  max_finite_or hx hy

theorem AtMost.min {x y : XF F} {M : ℝ} (hx : x ≠ .nan) (hy : AtMost y M) : AtMost (Scalar.min x y) M := by
  unfold Scalar.min
  split
  · exact hy
  · rename_i hlt
    rcases hy with rfl | ⟨v, ⟨s, rfl⟩, hv⟩
    · cases x with
      | nan => exact absurd rfl hx
      | inf s => cases s; exact absurd rfl hlt; exact .inl rfl
      | fin w s => exact absurd rfl hlt
    · cases x with
      | nan => exact absurd rfl hx
      | inf s => cases s; exact absurd rfl hlt; exact .inl rfl
      | fin w s' => exact .inr ⟨w, ⟨s', rfl⟩, (not_lt.1 fun h => hlt (decide_eq_true_iff.2 h)).trans hv⟩

theorem max_inf_right {x : XF F} (hx : x ≠ .nan) : Scalar.max x (.inf false) = .inf false := by
  cases x with
  | nan => exact absurd rfl hx
  | inf s => cases s <;> rfl
  | fin w s => rfl

theorem min_inf_right {x : XF F} (hx : x ≠ .nan) : Scalar.min x (.inf true) = .inf true := by
  cases x with
  | nan => exact absurd rfl hx
  | inf s => cases s <;> rfl
  | fin w s => rfl

theorem max_inf_left {y : XF F} : Scalar.max (.inf false) y = .inf false := by
  cases y with
  | nan => rfl
  | inf s => cases s <;> rfl
  | fin w s => rfl

theorem min_inf_left {y : XF F} : Scalar.min (.inf true) y = .inf true := by
  cases y with
  | nan => rfl
  | inf s => cases s <;> rfl
  | fin w s => rfl

/-- the state of the loop: the interval is not NaN, and it has become empty at one of its ends -/
def Emptied (m M : ℝ) (p : XF F × XF F) : Prop :=
  AtLeast p.1 m ∧ AtMost p.2 M ∧ (p.1 = .inf false ∨ p.2 = .inf true)

theorem Emptied.le {m M : ℝ} {p : XF F × XF F} (h : Emptied m M p) : le p.1 p.2 = false := by
  obtain ⟨h1, h2, h3⟩ := h
  obtain ⟨a, b⟩ := p
  simp only at h1 h2 h3
  rcases h3 with rfl | rfl
  · rcases h2 with rfl | ⟨v, ⟨s, rfl⟩, _⟩ <;> rfl
  · rcases h1 with rfl | ⟨v, ⟨s, rfl⟩, _⟩ <;> rfl

theorem Emptied.step {m M : ℝ} {p : XF F × XF F} (h : Emptied m M p) {x y : XF F} (hx : x ≠ .nan) (hy : y ≠ .nan) :
    Emptied m M (Scalar.max x p.1, Scalar.min y p.2) := by
  obtain ⟨h1, h2, h3⟩ := h
  refine ⟨h1.max hx, h2.min hy, ?_⟩
  rcases h3 with h3 | h3
  · left; simp only [h3]; exact max_inf_right hx
  · right; simp only [h3]; exact min_inf_right hy

/-- the axis with the component `-0.0` -/
theorem slab_negZero (hF : F.Exact) {lo hi org : XF F} {a b o m M : ℝ} (hlo : lo.Is a) (hhi : hi.Is b) (ho : org.Is o)
    (hab : a ≤ b) (p : XF F × XF F) (h1 : AtLeast p.1 m) (h2 : AtMost p.2 M) (hne : o ≠ a ∧ o ≠ b) :
    Emptied m M (Scalar.max (((if lt (XF.fin 0 true : XF F) (nat 0) then hi else lo) - org) * (nat 1 / XF.fin 0 true)) p.1,
      Scalar.min (((if lt (XF.fin 0 true : XF F) (nat 0) then lo else hi) - org) * (nat 1 / XF.fin 0 true) * slabSlack) p.2) := by
  have hz := XF.Is.zero hF (F := F)
  have h1' := XF.Is.one hF (F := F)
  have hs := slack_is hF (F := F)
  have he0 := hF.eps
  have hlt : lt (XF.fin 0 true : XF F) (nat 0) = false := by
    have := XF.Is.lt (x := (XF.fin 0 true : XF F)) ⟨true, rfl⟩ hz
    simpa using this
  have hinv : (nat 1 / (XF.fin 0 true : XF F)) = .inf true := by
    obtain ⟨s', h⟩ := h1'
    rw [h]
    show XF.div _ _ = _
    simp [XF.div, XF.sgn]
  rw [hlt, hinv]
  simp only [Bool.false_eq_true, if_false]
  obtain ⟨s1, e1⟩ := hlo.sub hF ho
  obtain ⟨s2, e2⟩ := hhi.sub hF ho
  obtain ⟨s3, e3⟩ := hs
  rw [e1, e2, e3]
  have h0 : a - o ≠ 0 := sub_ne_zero.2 (Ne.symm hne.1)
  have h0' : b - o ≠ 0 := sub_ne_zero.2 (Ne.symm hne.2)
  have h5 : (1 + 4 * F.eps) ≠ 0 := by linarith
  have h6 : ¬ (1 + 4 * F.eps < 0) := by linarith
  have ee : (XF.fin (a - o) s1 : XF F) * .inf true = .inf (! decide (a - o < 0)) := by
    show XF.mul _ _ = _
    simp [XF.mul, XF.sgn, h0]
  have ex : (XF.fin (b - o) s2 : XF F) * .inf true * XF.fin (1 + 4 * F.eps) s3 = .inf (! decide (b - o < 0)) := by
    show XF.mul (XF.mul _ _) _ = _
    simp [XF.mul, XF.sgn, h0', h5, h6]
  rw [ee, ex]
  refine ⟨h1.max (by simp), h2.min (by simp), ?_⟩
  by_cases hb : b - o < 0
  · left
    simp only
    have : a - o < 0 := by linarith
    simp only [this, decide_true, Bool.not_true]
    exact max_inf_left
  · right
    simp only
    simp only [hb, decide_false, Bool.not_false]
    exact min_inf_left

/-- The box test fails, whatever the box, if the direction has a component `-0.0` and the origin is not in the plane of a face
to which the ray is parallel. -/
theorem intersectNode_negZero {P : Type} (hF : F.Exact) (node : Node (XF F) P) (origin direction : Vec3 (XF F))
    (mnh mxh : XF F) (any : Bool) (hd : XF F) (mn mx o d : Vec3 ℝ) (m M : ℝ)
    (hmn : IsV node.min mn) (hmx : IsV node.max mx) (ho : IsV origin o) (hdir : IsV direction d)
    (hle : ∀ i, mn.get i ≤ mx.get i) (hface : ∀ i, d.get i = 0 → o.get i ≠ mn.get i ∧ o.get i ≠ mx.get i)
    (i : Fin 3) (hi : direction.get i = .fin 0 true) (hm : mnh.Is m) (hM : AtMost hd M) :
    intersectNode mnh hd node (Ray.make origin direction mnh mxh any) = false := by
  have isv : ∀ {v : Vec3 (XF F)} {w : Vec3 ℝ}, IsV v w → ∀ j, (v.get j).Is (w.get j) := by
    intro v w h j
    match j with
    | 0 => exact h.1
    | 1 => exact h.2.1
    | 2 => exact h.2.2
  let good (p : XF F × XF F) : Prop := AtLeast p.1 m ∧ AtMost p.2 M
  have nn : ∀ j : Fin 3, ∀ c : Bool, ((if c then node.max.get j else node.min.get j) - origin.get j) * (nat 1 / direction.get j) ≠ .nan ∧
      ((if c then node.min.get j else node.max.get j) - origin.get j) * (nat 1 / direction.get j) * slabSlack ≠ .nan := by
    intro j c
    have a := slab_term_ne_nan hF (isv hmn j) (isv ho j) (isv hdir j) fun h => Ne.symm (hface j h).1
    have b := slab_term_ne_nan hF (isv hmx j) (isv ho j) (isv hdir j) fun h => Ne.symm (hface j h).2
    cases c
    · exact ⟨a.1, b.2⟩
    · exact ⟨b.1, a.2⟩
  have keep : ∀ j p, good p → good (slabStep node (Ray.make origin direction mnh mxh any) p j) := by
    intro j p h
    rw [slabStep_make]
    exact ⟨h.1.max (nn j _).1, h.2.min (nn j _).2⟩
  have stay : ∀ j p, Emptied m M p → Emptied m M (slabStep node (Ray.make origin direction mnh mxh any) p j) := by
    intro j p h
    rw [slabStep_make]
    exact h.step (nn j _).1 (nn j _).2
  have hit : ∀ p, good p → Emptied m M (slabStep node (Ray.make origin direction mnh mxh any) p i) := by
    intro p h
    rw [slabStep_make, hi]
    have hdi : d.get i = 0 := by
      obtain ⟨s, e⟩ := isv hdir i
      rw [hi, XF.fin.injEq] at e
      exact e.1.symm
    exact slab_negZero hF (isv hmn i) (isv hmx i) (isv ho i) (hle i) p h.1 h.2 (hface i hdi)
  have start : good (mnh, hd) := ⟨.inr ⟨m, hm, le_rfl⟩, hM⟩
  unfold intersectNode
  refine Emptied.le (m := m) (M := M) ?_
  match i, hit with
  | 0, hit => exact stay _ _ (stay _ _ (hit _ start))
  | 1, hit => exact stay _ _ (hit _ (keep _ _ start))
  | 2, hit => exact hit _ (keep _ _ (keep _ _ start))

/-- If the box test fails at the root, the query is a miss. -/
theorem traverse_root_rejected {T P I : Type} [Scalar T] (ix : Intersector T P I) (nodes : List (Node T P)) (ray : Ray T)
    (rh : RayHit T) (root : Node T P) (hroot : nodes[0]? = some root) (hrej : intersectNode ray.minHit ray.maxHit root ray = false)
    (hmiss : lt (ix.hitDistance (ix.prepare ray)) ray.maxHit = false) :
    traverse ix nodes ray rh = .ok (false, rh) := by
  have : nodes ≠ [] := by rintro rfl; simp at hroot
  obtain ⟨n, ns, rfl⟩ := List.exists_cons_of_ne_nil this
  simp only [List.getElem?_cons_zero, Option.some.injEq] at hroot
  subst hroot
  simp [traverse, traverseInit, Stack.empty, Stack.push, maxTreeDepth, traverseLoop, traverseStep, Stack.back, Stack.pop, lookup,
    hrej, traverseFinish, hmiss, Stack.size]

end Blazert
