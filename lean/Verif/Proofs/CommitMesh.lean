/- Committing meshes with rounding: the bins of the triangles are defined. -/
import Verif.Proofs.CommitBoxes
import Verif.Proofs.Mesh
import Verif.Proofs.Total

set_option autoImplicit false
set_option linter.unusedSectionVars false

namespace Blazert
open Scalar

section
variable {K : Type} [Field K] [LinearOrder K] [IsStrictOrderedRing K] [FloorRing K] {F : Fmt K}

/-- what the lemmas below need of the format -/
structure MeshFine (F : Fmt K) (u η hi lo M : K) : Prop where
  three : F.post 3 = some 3
  u_pos : 0 < u
  u_le : 2 ^ 20 * u ≤ 1
  η_nonneg : 0 ≤ η
  η_u : 2000 * η ≤ u
  η_lo : 1000 * η ≤ u * lo
  η_M : 2000 * (η * M) ≤ 1
  lo_pos : 0 < lo
  hi_large : 2 ^ 33 ≤ hi
  M_hi : 2000 * M ≤ hi
  hi_max : hi ≤ F.maxVal
  lo_hi : 2 ≤ 512 * u * lo * hi

variable {u η hi lo M : K}

/-- the center of a triangle along one axis -/
theorem center_axis (hF : F.Rounds u η hi) (G : MeshFine F u η hi lo M) {x y z : XF F} {a b c L : K} (hx : x.Is a) (hy : y.Is b) (hz : z.Is c)
    (L1 : lo ≤ L) (L2 : L ≤ M) (ha : |a| ≤ L) (hb : |b| ≤ L) (hc : |c| ≤ L) :
    ∃ v, ((x + y + z) / nat 3).Is v ∧ |v - (a + b + c) / 3| ≤ 3 * (u * L) := by
  have hG := hF.toGradual
  obtain ⟨three, u0, u20, η0, ηu, ηlo, ηM, lo0, hi33, Mhi, -, -⟩ := G
  have L0 : 0 < L := lo0.trans_le L1
  have uL : u * lo ≤ u * L := mul_le_mul_of_nonneg_left L1 u0.le
  have uL' : u * L ≤ 1 / 2 ^ 20 * L := mul_le_mul_of_nonneg_right (by linarith) L0.le
  have uL0 : 0 < u * L := mul_pos u0 L0
  have uuL : u * (u * L) ≤ 1 / 2 ^ 20 * (u * L) := mul_le_mul_of_nonneg_right (by linarith) uL0.le
  have uη : u * η ≤ 1 * η := mul_le_mul_of_nonneg_right (by linarith) η0
  have h1 : |a + b| ≤ 2 * L := (abs_add_le _ _).trans (by linarith)
  obtain ⟨s, hs, s1, -⟩ := grad_add hG hx hy (by linarith)
  have s2 : |s - (a + b)| ≤ 2 * (u * L) + η := s1.trans (by linarith [mul_le_mul_of_nonneg_left h1 u0.le])
  have h2 : |s + c| ≤ 3 * L + 2 * (u * L) + η := by
    have e : s + c = s - (a + b) + (a + b) + c := by ring
    rw [e]
    exact (abs_add_le _ _).trans (by linarith [abs_add_le (s - (a + b)) (a + b)])
  obtain ⟨t, ht, t1, -⟩ := grad_add hG hs hz (by linarith)
  have t2 : |t - (s + c)| ≤ 3 * (u * L) + 2 * (u * (u * L)) + u * η + η := t1.trans (by linarith [mul_le_mul_of_nonneg_left h2 u0.le])
  have h3 : |t| ≤ 4 * L := by
    have e : t = t - (s + c) + (s + c) := by ring
    rw [e]
    exact (abs_add_le _ _).trans (by linarith)
  have h3' : |t| ≤ 3 * L + 6 * (u * L) := by
    have e : t = t - (s + c) + (s + c) := by ring
    rw [e]
    exact (abs_add_le _ _).trans (by linarith)
  have i3 : (nat 3 : XF F).Is 3 := by
    show ∃ b, XF.mk F _ (((3 : ℕ) : ℚ) : K) = _
    rw [Nat.cast_ofNat, Rat.cast_ofNat]
    unfold XF.mk
    rw [three]
    exact ⟨_, rfl⟩
  have h4 : |t / 3| ≤ L + 2 * (u * L) := by
    rw [abs_div, abs_of_pos (three_pos : (0 : K) < 3)]
    linarith
  obtain ⟨v, hv, v1, -⟩ := grad_div hG ht i3 three_ne_zero (by linarith)
  refine ⟨v, hv, ?_⟩
  have v2 := v1.trans (by linarith [mul_le_mul_of_nonneg_left h4 u0.le] : _ ≤ u * L + 2 * (u * (u * L)) + η)
  rw [abs_le] at s2 t2 v2 ⊢
  constructor <;> linarith

/-- vertices of moderate size: equal along an axis, or apart -/
def Apart (u L : K) (vs : List (Vec3 (XF F))) : Prop :=
  ∀ v ∈ vs, ∃ A, IsV v A ∧ (∀ k, |A.get k| ≤ L) ∧ ∀ w ∈ vs, ∀ B, IsV w B → ∀ k, A.get k = B.get k ∨ 512 * u * L ≤ |A.get k - B.get k|

theorem triBox_axis {a b c : Vec3 (XF F)} {A B C : Vec3 K} (ha : IsV a A) (hb : IsV b B) (hc : IsV c C) (k : Fin 3) :
    ∃ x y, ((triBox a b c).1.get k).Is x ∧ ((triBox a b c).2.get k).Is y ∧ (x = A.get k ∨ x = B.get k ∨ x = C.get k) ∧
      (y = A.get k ∨ y = B.get k ∨ y = C.get k) ∧ x ≤ A.get k ∧ x ≤ B.get k ∧ x ≤ C.get k ∧ A.get k ≤ y ∧ B.get k ≤ y ∧ C.get k ≤ y := by
  obtain ⟨h1, h2, -⟩ := triBox_is ha hb hc
  refine ⟨_, _, h1.get k, h2.get k, ?_⟩
  simp only [minV3, maxV3, Vec3.get_ofFn]
  generalize A.get k = a
  generalize B.get k = b
  generalize C.get k = c
  refine ⟨?_, ?_, ?_, ?_, ?_, ?_, ?_, ?_⟩
  · rcases min_choice c (Min.min b a) with h | h <;> rw [h]
    · exact .inr (.inr rfl)
    · rcases min_choice b a with h | h <;> rw [h]
      · exact .inr (.inl rfl)
      · exact .inl rfl
  · rcases max_choice c (Max.max b a) with h | h <;> rw [h]
    · exact .inr (.inr rfl)
    · rcases max_choice b a with h | h <;> rw [h]
      · exact .inr (.inl rfl)
      · exact .inl rfl
  · exact (min_le_right _ _).trans (min_le_right _ _)
  · exact (min_le_right _ _).trans (min_le_left _ _)
  · exact min_le_left _ _
  · exact (le_max_right _ _).trans (le_max_right _ _)
  · exact (le_max_left _ _).trans (le_max_right _ _)
  · exact le_max_left _ _

theorem triCenter_get (a b c : Vec3 (XF F)) (k : Fin 3) : (triCenter a b c).get k = (a.get k + b.get k + c.get k) / nat 3 := by
  match k with
  | 0 => rfl
  | 1 => rfl
  | 2 => rfl

/-- what is known of the boxes and centers of a mesh -/
theorem mesh_reads (hF : F.Rounds u η hi) (G : MeshFine F u η hi lo M) {L : K} (L1 : lo ≤ L) (L2 : L ≤ M) {vs : List (Vec3 (XF F))}
    {fs : List (Vec3 Nat)} {mesh : MeshColl (XF F)} (hmake : MeshColl.make vs fs = .ok mesh) (hap : Apart u L mesh.vertices) (i : Nat)
    (hi' : i < mesh.toCollection.size) :
    ∃ b c q, mesh.toCollection.box i = .ok b ∧ mesh.toCollection.center i = .ok c ∧ mesh.toCollection.prim i = .ok q ∧
      ∀ k, ∃ x y v, (b.1.get k).Is x ∧ (b.2.get k).Is y ∧ (c.get k).Is v ∧ x - 3 * (u * L) ≤ v ∧ v ≤ y + 3 * (u * L) ∧ |x| ≤ L ∧ |y| ≤ L ∧
        (∃ w ∈ mesh.vertices, ∃ B, IsV w B ∧ B.get k = x) ∧ (∃ w ∈ mesh.vertices, ∃ B, IsV w B ∧ B.get k = y) := by
  obtain ⟨ev, ef, -, -, ⟨bs, rfl, hbs⟩⟩ := MeshColl.make_ok hmake
  have hi1 : i < fs.length := by rw [← ef]; exact hi'
  have hi2 : i < mesh.boxes.length := by rw [← hbs.length_eq]; exact hi1
  obtain ⟨v0, v1, v2, e0, e1, e2, e3⟩ := (List.forall₂_iff_get.1 hbs).2 i hi1 hi2
  have hf : fs[i]? = some fs[i] := List.getElem?_eq_getElem hi1
  have hf' : mesh.faces[i]? = some fs[i] := by rw [ef]; exact hf
  have e0' : mesh.vertices[fs[i].x]? = some v0 := by rw [ev]; exact e0
  have e1' : mesh.vertices[fs[i].y]? = some v1 := by rw [ev]; exact e1
  have e2' : mesh.vertices[fs[i].z]? = some v2 := by rw [ev]; exact e2
  have m0 := List.mem_of_getElem? e0'
  have m1 := List.mem_of_getElem? e1'
  have m2 := List.mem_of_getElem? e2'
  refine ⟨_, _, Triangle.make v0 v1 v2 i, mesh_box hmake hf e0 e1 e2, mesh_center hmake hf e0 e1 e2, ?_, fun k => ?_⟩
  · simp only [MeshColl.toCollection, lookup_eq_ok.2 hf', lookup_eq_ok.2 e0', lookup_eq_ok.2 e1', lookup_eq_ok.2 e2', run_bind_ok]
    rfl
  · obtain ⟨A, hA, A1, -⟩ := hap v0 m0
    obtain ⟨B, hB, B1, -⟩ := hap v1 m1
    obtain ⟨C, hC, C1, -⟩ := hap v2 m2
    obtain ⟨x, y, hx, hy, x1, y1, xA, xB, xC, yA, yB, yC⟩ := triBox_axis hA hB hC k
    obtain ⟨v, hv, hv1⟩ := center_axis hF G (hA.get k) (hB.get k) (hC.get k) L1 L2 (A1 k) (B1 k) (C1 k)
    rw [← triCenter_get] at hv
    rw [abs_le] at hv1
    refine ⟨x, y, v, hx, hy, hv, by linarith, by linarith, ?_, ?_, ?_, ?_⟩
    · rcases x1 with rfl | rfl | rfl
      exacts [A1 k, B1 k, C1 k]
    · rcases y1 with rfl | rfl | rfl
      exacts [A1 k, B1 k, C1 k]
    · rcases x1 with rfl | rfl | rfl
      exacts [⟨v0, m0, A, hA, rfl⟩, ⟨v1, m1, B, hB, rfl⟩, ⟨v2, m2, C, hC, rfl⟩]
    · rcases y1 with rfl | rfl | rfl
      exacts [⟨v0, m0, A, hA, rfl⟩, ⟨v1, m1, B, hB, rfl⟩, ⟨v2, m2, C, hC, rfl⟩]

theorem mesh_casts (hF : F.Rounds u η hi) (G : MeshFine F u η hi lo M) {L : K} (L1 : lo ≤ L) (L2 : L ≤ M) {vs : List (Vec3 (XF F))}
    {fs : List (Vec3 Nat)} {mesh : MeshColl (XF F)} (hmake : MeshColl.make vs fs = .ok mesh) (hap : Apart u L mesh.vertices) :
    CastsDefined mesh.toCollection 64 := by
  have reads := mesh_reads hF G L1 L2 hmake hap
  obtain ⟨-, u0, u20, η0, ηu, ηlo, ηM, lo0, hi33, Mhi, him, lohi⟩ := G
  have L0 : 0 < L := lo0.trans_le L1
  have uL : u * lo ≤ u * L := mul_le_mul_of_nonneg_left L1 u0.le
  have uL0 : 0 < u * L := mul_pos u0 L0
  have uL' : u * L ≤ 1 / 2 ^ 20 * L := mul_le_mul_of_nonneg_right (by linarith) L0.le
  have key : ∀ i, i < mesh.toCollection.size → ∀ b, mesh.toCollection.box i = .ok b → ∀ k x y, (b.1.get k).Is x → (b.2.get k).Is y →
      |x| ≤ L ∧ |y| ≤ L ∧ (∃ w ∈ mesh.vertices, ∃ B, IsV w B ∧ B.get k = x) ∧ (∃ w ∈ mesh.vertices, ∃ B, IsV w B ∧ B.get k = y) := by
    intro i hi' b hb k x y hx hy
    obtain ⟨b', c', q, h1, -, -, h4⟩ := reads i hi'
    rw [hb, Except.ok.injEq] at h1
    subst h1
    obtain ⟨x', y', v, h5, h6, -, -, -, h7, h8, h9, h10⟩ := h4 k
    obtain rfl := hx.unique h5
    obtain rfl := hy.unique h6
    exact ⟨h7, h8, h9, h10⟩
  have loose : Loose (3 * (u * L)) mesh.toCollection := by
    refine ⟨fun i hi' => ?_, fun i hi' b hb k => ?_, fun i hi' b c hb hc k x y hx hy => ?_⟩
    · obtain ⟨b, c, q, h1, h2, h3, -⟩ := reads i hi'
      exact ⟨b, c, q, h1, h2, h3⟩
    · obtain ⟨b', c, q, h1, -, -, h4⟩ := reads i hi'
      rw [hb, Except.ok.injEq] at h1
      subst h1
      obtain ⟨x, y, v, ⟨s, h5⟩, ⟨t, h6⟩, -, -, -, h7, h8, -⟩ := h4 k
      rw [abs_le] at h7 h8
      exact ⟨⟨x, s, h5, by linarith, by linarith⟩, ⟨y, t, h6, by linarith, by linarith⟩⟩
    · obtain ⟨b', c', q, h1, h2, -, h4⟩ := reads i hi'
      rw [hb, Except.ok.injEq] at h1
      rw [hc, Except.ok.injEq] at h2
      subst h1 h2
      obtain ⟨x', y', v, h5, h6, h7, h8, h9, -⟩ := h4 k
      obtain rfl := hx.unique h5
      obtain rfl := hy.unique h6
      exact ⟨v, h7, h8, h9⟩
  intro idx hne hidx mn mx h i hi' c hc j
  obtain ⟨x, y, v, hx, hy, hv, q1, q2, i1, i2, b1, b2, hi1, hi2, hb1, hb2, e1, e2⟩ :=
    union_axis_slack _ loose idx hne hidx mn mx h i hi' c hc j
  rw [binCoord_get]
  obtain ⟨b2x, hb2x⟩ := InRange.is (loose.range i2 hi2 b2 hb2 j).1
  obtain ⟨b1y, hb1y⟩ := InRange.is (loose.range i1 hi1 b1 hb1 j).2
  obtain ⟨xL, -, ⟨w1, hw1, B1, hB1, f1⟩, -⟩ := key i1 hi1 b1 hb1 j x b1y (by rw [e1]; exact hx) hb1y
  obtain ⟨-, yL, -, w2, hw2, B2, hB2, f2⟩ := key i2 hi2 b2 hb2 j b2x y hb2x (by rw [e2]; exact hy)
  obtain ⟨B2', hB2', -, sep⟩ := hap w2 hw2
  obtain rfl := hB2.unique hB2'
  have sep := sep w1 hw1 B1 hB1 j
  rw [f1, f2] at sep
  have xL' := abs_le.1 xL
  have yL' := abs_le.1 yL
  have hvx : |v - x| ≤ hi := by
    rw [abs_le]
    constructor <;> linarith
  have h63 : lastBin 64 = 63 := by decide
  refine bin_coord_slack hF hx hy hv q1 q2 (n := lastBin 64) (by decide) (by decide) hvx hi33 u0.le ?_
  rw [h63]
  rcases sep with sep | sep
  · left; linarith
  · -- the upper bound is not below the lower one
    have hxy : x ≤ y := by
      by_contra hlt
      have h1 : |y - x| = x - y := by rw [abs_of_neg (by linarith)]; ring
      rw [h1] at sep
      linarith
    rw [abs_of_nonneg (by linarith)] at sep
    right
    have s2 : y - x ≤ 2 * L := by linarith
    have ηs : η * (y - x) ≤ 2 * (η * L) := by linarith [mul_le_mul_of_nonneg_left s2 η0]
    have ηL : η * L ≤ η * M := mul_le_mul_of_nonneg_left L2 η0
    have ηuL : 2000 * (η * L) ≤ u * L := by linarith [mul_le_mul_of_nonneg_right ηu L0.le]
    have slo : 512 * u * lo * hi ≤ (y - x) * hi := mul_le_mul_of_nonneg_right (by linarith) (by linarith)
    refine ⟨⟨u0.le, u20, η0, by linarith, hi33, by linarith, by linarith, by linarith, by linarith, by linarith, by linarith, by linarith⟩, ?_⟩
    push_cast
    linarith

end
end Blazert
