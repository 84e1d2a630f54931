/- A committed scene with two cylinders in exact arithmetic, for the examples beside the theorems. -/
import Verif.SampleScene
import Verif.Proofs.CylinderScene

set_option autoImplicit false

namespace Blazert
open Scalar

/-- two upright cylinders of radius 1 and height 2 -/
noncomputable def sampleCyls : CylColl (XF exactFmt) where
  centers := [rvec 0 0 0, rvec 0 10 0]
  as := [rl 1, rl 1]
  bs := [rl 1, rl 1]
  heights := [rl 2, rl 2]
  rotations := [idM, idM]
  boxes := [cylBox (rvec 0 0 0) (rl 1) (rl 1) (rl 2) idM, cylBox (rvec 0 10 0) (rl 1) (rl 1) (rl 2) idM]

theorem sampleCyls_make : CylColl.make sampleCyls.centers sampleCyls.as sampleCyls.bs sampleCyls.heights sampleCyls.rotations =
    .ok sampleCyls := rfl

noncomputable def sampleCylBefore : Scene (XF exactFmt) where
  options := .default
  committed := false
  geometries := 1
  mesh := none
  spheres := none
  planes := none
  cylinders := some ⟨sampleCyls, [], 0⟩

theorem sampleCylBefore_history : History sampleCylBefore [0] :=
  History.add stablePartition _ _ [] (.addCylinders sampleCyls.centers sampleCyls.as sampleCyls.bs sampleCyls.heights sampleCyls.rotations)
    0 .init rfl

theorem sampleCyl_scene : ∃ s nodes, History s [0] ∧ s.committed = true ∧ s.mesh = none ∧ s.spheres = none ∧ s.planes = none ∧
    s.cylinders = some ⟨sampleCyls, nodes, 0⟩ ∧ DepthAtMost s 26 := by
  obtain ⟨s, hc⟩ : ∃ s, sampleCylBefore.commit stablePartition = .ok (s, true) := ⟨_, rfl⟩
  have hist' : History s [0] := .commit stablePartition _ _ _ sampleCylBefore_history (by simp [Call.exec, hc])
  obtain ⟨_, hcom, _, _, _, h1, h2, h3, h4⟩ := commit_cases _ _ _ _ hc
  have e1 : s.mesh = none := commitPart_none h1
  have e2 : s.spheres = none := commitPart_none h2
  have e3 : s.planes = none := commitPart_none h3
  obtain ⟨ns, e4⟩ := commitPart_some h4
  refine ⟨s, ns, hist', hcom, e1, e2, e3, e4, ⟨?_, ?_, ?_, ?_⟩⟩
  · intro p t hp; rw [e1] at hp; simp at hp
  · intro p t hp; rw [e2] at hp; simp at hp
  · intro p t hp; rw [e3] at hp; simp at hp
  · intro p t hp ht
    have hok := hist'.ok
    have hk := hok.cylinders
    rw [hp, hcom, hok.options] at hk
    refine (hk.leaf ht ?_).trans (by decide)
    rw [e4] at hp
    obtain rfl := Option.some.inj hp
    change 2 < 5
    norm_num

theorem sampleCyls_is (i : Nat) (hi : i < 2) : CylIs sampleCyls i ⟨0, 10 * (i : ℝ), 0⟩ 1 1 2 idR := by
  match i, hi with
  | 0, _ => exact ⟨_, _, _, _, _, rfl, rfl, rfl, rfl, rfl, by simpa using rvec_is 0 0 0, rl_is _, rl_is _, rl_is _, idM_is⟩
  | 1, _ => exact ⟨_, _, _, _, _, rfl, rfl, rfl, rfl, rfl, by simpa using rvec_is 0 10 0, rl_is _, rl_is _, rl_is _, idM_is⟩

theorem sampleCyls_only {i : Nat} {c : Vec3 ℝ} {a b h : ℝ} {R : Mat3 ℝ} (H : CylIs sampleCyls i c a b h R) :
    i < 2 ∧ c = ⟨0, 10 * (i : ℝ), 0⟩ ∧ a = 1 ∧ b = 1 ∧ h = 2 ∧ R = idR := by
  have hi : i < 2 := (CylColl.prim_of H).1
  exact ⟨hi, H.unique (sampleCyls_is i hi)⟩

theorem sampleCyls_content : sampleCyls.Content := by
  intro i x y z w m h1 h2 h3 h4 h5
  have hi : i < 2 := (List.getElem?_eq_some_iff.1 h1).1
  obtain ⟨x', y', z', w', m', k1, k2, k3, k4, k5, l1, l2, l3, l4, l5⟩ := sampleCyls_is i hi
  rw [h1] at k1; cases k1
  rw [h2] at k2; cases k2
  rw [h3] at k3; cases k3
  rw [h4] at k4; cases k4
  rw [h5] at k5; cases k5
  exact ⟨_, _, _, _, _, l1, l2, l3, l4, l5, one_pos, one_pos, two_pos, idR_orthonormal⟩

theorem sampleCyls_range : ∀ b ∈ sampleCyls.boxes, BoxInRange b ∧ ¬ b.1.z.Is 0 ∧ ¬ b.2.z.Is 0 := by
  intro b hb
  have key : ∀ y : ℝ, 0 ≤ y → y ≤ 10 → BoxInRange (cylBox (rvec 0 y 0) (rl 1) (rl 1) (rl 2) idM : Vec3 (XF exactFmt) × _) ∧
      ¬ (cylBox (rvec 0 y 0) (rl 1) (rl 1) (rl 2) idM : Vec3 (XF exactFmt) × _).1.z.Is 0 ∧
      ¬ (cylBox (rvec 0 y 0) (rl 1) (rl 1) (rl 2) idM : Vec3 (XF exactFmt) × _).2.z.Is 0 := by
    intro y h0 h1
    obtain ⟨e1, e2⟩ := cylBox_is exactFmt_exact (rvec_is (F := exactFmt) 0 y 0) (rl_is 1) (rl_is 1) (rl_is 2) idM_is
    have ext : ∀ k, boxExt 1 1 2 ((idR : Mat3 ℝ).row k) = 1 := by
      intro k
      match k with
      | 0 => norm_num [boxExt, Mat3.row, idR]
      | 1 => norm_num [boxExt, Mat3.row, idR]
      | 2 => norm_num [boxExt, Mat3.row, idR]
    simp only [ext] at e1 e2
    refine ⟨boxInRange_of_is e1 e2 ?_ ?_, fun h => ?_, fun h => ?_⟩
    · refine ⟨⟨?_, ?_⟩, ⟨?_, ?_⟩, ⟨?_, ?_⟩⟩ <;> simp [Vec3.ofFn, Vec3.get] <;> linarith
    · refine ⟨⟨?_, ?_⟩, ⟨?_, ?_⟩, ⟨?_, ?_⟩⟩ <;> simp [Vec3.ofFn, Vec3.get] <;> linarith
    · have := e1.2.2.unique h
      simp [Vec3.ofFn, Vec3.get] at this
    · have := e2.2.2.unique h
      simp [Vec3.ofFn, Vec3.get] at this
  simp only [sampleCyls, List.mem_cons, List.not_mem_nil, or_false] at hb
  rcases hb with rfl | rfl
  · exact key 0 le_rfl (by norm_num)
  · exact key 10 (by norm_num) le_rfl

theorem idR_axisParallel : AxisParallel idR := by
  intro k
  match k with
  | 0 => simp [Mat3.row, idR]
  | 1 => simp [Mat3.row, idR]
  | 2 => simp [Mat3.row, idR]

theorem idR_point (c p : Vec3 ℝ) : c + (idR : Mat3 ℝ).mulVec p = ⟨c.x + p.x, c.y + p.y, c.z + p.z⟩ := by
  ext <;> simp [Mat3.mulVec, idR, Vec3.dot]

/-- the ray from `(-5,0,0)` in direction x -/
theorem sampleCyl_ray (M : ℝ) : RayFor (rvec (-5) 0 0 : Vec3 (XF exactFmt)) (rvec 1 0 0) (rl 0) (rl M) ⟨-5, 0, 0⟩ ⟨1, 0, 0⟩ 0 M where
  org := rvec_is _ _ _
  dir := rvec_is _ _ _
  min := rl_is _
  max := rl_is _
  nonneg := le_rfl
  ne_zero := by simp
  scale := .inl (by simp [len, sq, Vec3.dot])
  noNegZero := rvec_not_negZero _ _ _

theorem sampleCyl_unit : unit ⟨1, 0, 0⟩ = ⟨1, 0, 0⟩ := by
  have : len (⟨1, 0, 0⟩ : Vec3 ℝ) = 1 := by simp [len, sq, Vec3.dot]
  ext <;> simp [unit, this, Vec3.divs]

theorem sampleCyl_find {s : Scene (XF exactFmt)} {nodes : List (Node (XF exactFmt) (Cylinder (XF exactFmt)))}
    (h : s.cylinders = some ⟨sampleCyls, nodes, 0⟩) : s.CylFind ⟨-5, 0, 0⟩ ⟨1, 0, 0⟩ where
  place := by
    intro p hp i c a b h' R hi
    rw [h] at hp
    cases hp
    obtain ⟨_, rfl, rfl, rfl, rfl, rfl⟩ := sampleCyls_only hi
    refine ⟨idR_axisParallel, .inl ⟨?_, ?_⟩⟩
    · rintro ⟨x, y, z, h1, _, _, h4⟩
      rw [idR_point] at h4
      injection h4 with h5 h6 h7
      simp only [zero_add] at h5
      subst h5
      nlinarith [pow_two_nonneg y]
    · rintro ⟨x, y, z, h1, h4⟩
      rw [idR_point] at h4
      injection h4 with h5 h6 h7
      simp only [zero_add] at h7
      subst h7
      norm_num at h1
  range := by
    intro p hp b hb
    rw [h] at hp; cases hp
    exact (sampleCyls_range b hb).1
  offZ := by
    intro _ p hp b hb
    rw [h] at hp; cases hp
    exact (sampleCyls_range b hb).2

/-- the ray meets only the first cylinder, between the distances 4 and 6 -/
theorem sampleCyl_touch {i : Nat} {t : ℝ} (h : CylTouch sampleCyls ⟨-5, 0, 0⟩ ⟨1, 0, 0⟩ i t) : i = 0 ∧ 4 ≤ t ∧ t ≤ 6 := by
  obtain ⟨c, a, b, h, R, hi, h1, h2⟩ := h
  obtain ⟨hi, rfl, rfl, rfl, rfl, rfl⟩ := sampleCyls_only hi
  obtain ⟨x, y, z, h1, _, _, h4⟩ := inCyl_of_onCyl two_pos h2
  rw [idR_point] at h4
  have h5 : -5 + t = x := by have := congrArg Vec3.x h4; simpa [along] using this
  have h6 : 0 = 10 * (i : ℝ) + y := by have := congrArg Vec3.y h4; simpa [along] using this
  rw [one_pow, div_one, div_one] at h1
  have hx := abs_le.1 ((sq_le_one_iff_abs_le_one x).1 (by linarith [pow_two_nonneg y]))
  have hy := abs_le.1 ((sq_le_one_iff_abs_le_one y).1 (by linarith [pow_two_nonneg x]))
  refine ⟨?_, by linarith [hx.1], by linarith [hx.2]⟩
  by_contra hne
  have : (1 : ℝ) ≤ i := by exact_mod_cast Nat.one_le_iff_ne_zero.2 hne
  linarith [hy.1]

theorem sampleCyl_hit : CylHit sampleCyls ⟨-5, 0, 0⟩ ⟨1, 0, 0⟩ 0 4 := by
  have := sampleCyls_is 0 (by norm_num)
  refine ⟨_, _, _, _, _, this, by norm_num, ⟨-1, 0, 0, .inl ⟨by norm_num, by norm_num, by norm_num⟩, ?_⟩, 5, by norm_num,
    0, 0, 0, by norm_num, by norm_num, by norm_num, ?_⟩ <;> rw [idR_point] <;> ext <;> norm_num [along]

end Blazert
