/- A committed scene in exact arithmetic, for the examples beside the theorems. -/
import Verif.Proofs.Commit
import Verif.SamplesReal
import Verif.Samples
import Verif.Spec.Queries

set_option autoImplicit false

namespace Blazert

/-- vertices of a triangle in the plane `z = 5` -/
noncomputable def sampleVertices : List (Vec3 (XF exactFmt)) := [rvec (-2) (-2) 5, rvec 2 (-2) 5, rvec 0 2 5]
/-- its face -/
def sampleFaces : List (Vec3 Nat) := [⟨0, 1, 2⟩]
/-- real spheres as arguments of `add_spheres` -/
noncomputable def centersOf (l : List (Vec3 ℝ × ℝ)) : List (Vec3 (XF exactFmt)) := l.map fun x => rvec x.1.x x.1.y x.1.z
/-- their radii -/
noncomputable def radiiOf (l : List (Vec3 ℝ × ℝ)) : List (XF exactFmt) := l.map fun x => rl x.2
/-- the spheres are not too big and not too far away, and there are at most four of them -/
def SmallSpheres (l : List (Vec3 ℝ × ℝ)) : Prop :=
  l.length < 5 ∧ ∀ x ∈ l, InBox ⟨-50, -50, -50⟩ ⟨50, 50, 50⟩ x.1 ∧ 0 ≤ x.2 ∧ x.2 ≤ 50
/-- two spheres -/
def sampleBalls : List (Vec3 ℝ × ℝ) := [(⟨0, 0, 0⟩, 1), (⟨0, 0, -4⟩, 1)]

theorem sampleBalls_small : SmallSpheres sampleBalls := by
  refine ⟨by decide, ?_⟩
  simp only [sampleBalls, List.mem_cons, List.not_mem_nil, or_false]
  rintro x (rfl | rfl) <;> norm_num [InBox]

theorem le_exact_maxVal {x : ℝ} (h : x ≤ 100) : x ≤ exactFmt.maxVal := by
  have h1 : (2 : ℝ) ^ (7 : ℤ) ≤ 2 ^ (1023 : ℤ) := zpow_le_zpow_right₀ (by norm_num) (by norm_num)
  have h2 : ((2 : ℝ) ^ (-52 : ℤ)) ≤ 1 := by rw [zpow_neg]; norm_num
  have h3 : (2 : ℝ) ^ (7 : ℤ) = 128 := by norm_num
  have h4 : (1 : ℝ) * 2 ^ (1023 : ℤ) ≤ (2 - 2 ^ (-52 : ℤ)) * 2 ^ (1023 : ℤ) :=
    mul_le_mul_of_nonneg_right (by linarith) (by positivity)
  rw [one_mul] at h4
  exact ((h.trans (by norm_num)).trans (h3.symm.le.trans h1)).trans h4

theorem inRange_of_is {x : XF exactFmt} {v : ℝ} (h : x.Is v) (h1 : -100 ≤ v) (h2 : v ≤ 100) : x.InRange := by
  obtain ⟨s, rfl⟩ := h
  exact ⟨v, s, rfl, by linarith [le_exact_maxVal (x := -v) (by linarith)], le_exact_maxVal h2⟩

theorem boxInRange_of_is {b : Vec3 (XF exactFmt) × Vec3 (XF exactFmt)} {mn mx : Vec3 ℝ} (h1 : IsV b.1 mn) (h2 : IsV b.2 mx)
    (hmn : InBox ⟨-100, -100, -100⟩ ⟨100, 100, 100⟩ mn) (hmx : InBox ⟨-100, -100, -100⟩ ⟨100, 100, 100⟩ mx) : BoxInRange b := by
  obtain ⟨⟨a1, a2⟩, ⟨a3, a4⟩, ⟨a5, a6⟩⟩ := hmn
  obtain ⟨⟨b1, b2⟩, ⟨b3, b4⟩, ⟨b5, b6⟩⟩ := hmx
  intro k
  match k with
  | 0 => exact ⟨inRange_of_is (h1.get 0) a1 a2, inRange_of_is (h2.get 0) b1 b2⟩
  | 1 => exact ⟨inRange_of_is (h1.get 1) a3 a4, inRange_of_is (h2.get 1) b3 b4⟩
  | 2 => exact ⟨inRange_of_is (h1.get 2) a5 a6, inRange_of_is (h2.get 2) b5 b6⟩

/-- the scene after adding the triangle and the spheres, before `commit` -/
noncomputable def sampleBefore (mesh : MeshColl (XF exactFmt)) (sph : SphereColl (XF exactFmt)) : Scene (XF exactFmt) where
  options := .default
  committed := false
  geometries := 2
  mesh := some ⟨mesh, [], 0⟩
  spheres := some ⟨sph, [], 1⟩
  planes := none
  cylinders := none

theorem sphereMake (l : List (Vec3 ℝ × ℝ)) : ∃ sph, SphereColl.make (centersOf l) (radiiOf l) = .ok sph ∧
    sph.centers = centersOf l ∧ sph.radii = radiiOf l := by
  have : ∃ bs, ((List.range (centersOf l).length).mapM fun i => do
      let c ← lookup .oobIndex (centersOf l) i
      let r ← lookup .oobIndex (radiiOf l) i
      return sphereBox c r : Run _) = .ok bs := by
    refine mapM_ok_of_forall _ _ fun i hi => ?_
    rw [List.mem_range] at hi
    have hi' : i < (radiiOf l).length := by simpa [centersOf, radiiOf] using hi
    rw [lookup_eq_ok.2 (List.getElem?_eq_getElem hi), run_bind_ok, lookup_eq_ok.2 (List.getElem?_eq_getElem hi'), run_bind_ok]
    exact ⟨_, rfl⟩
  obtain ⟨bs, h⟩ := this
  refine ⟨⟨centersOf l, radiiOf l, bs⟩, ?_, rfl, rfl⟩
  unfold SphereColl.make
  rw [h, run_bind_ok]
  rfl

theorem sample_history (l : List (Vec3 ℝ × ℝ)) : ∃ mesh sph, MeshColl.make sampleVertices sampleFaces = .ok mesh ∧
    SphereColl.make (centersOf l) (radiiOf l) = .ok sph ∧ sph.centers = centersOf l ∧ sph.radii = radiiOf l ∧
    History (sampleBefore mesh sph) [0, 1] := by
  obtain ⟨sph, hs, h1, h2⟩ := sphereMake l
  refine ⟨_, sph, rfl, hs, h1, h2, ?_⟩
  refine History.add stablePartition _ _ [0] (.addSpheres (centersOf l) (radiiOf l)) 1
    (History.add stablePartition _ _ [] (.addMesh sampleVertices sampleFaces) 0 .init rfl) ?_
  simp only [Call.exec, Scene.addSpheres, hs, run_bind_ok, Scene.init]
  rfl

theorem ball_get {l : List (Vec3 ℝ × ℝ)} {i : Nat} {x : Vec3 (XF exactFmt)} {y : XF exactFmt}
    (hx : (centersOf l)[i]? = some x) (hy : (radiiOf l)[i]? = some y) : ∃ b ∈ l, x = rvec b.1.x b.1.y b.1.z ∧ y = rl b.2 := by
  simp only [centersOf, radiiOf, List.getElem?_map, Option.map_eq_some_iff] at hx hy
  obtain ⟨b, h1, rfl⟩ := hx
  obtain ⟨b', h1', rfl⟩ := hy
  rw [h1, Option.some.injEq] at h1'
  subst h1'
  exact ⟨b, List.mem_of_getElem? h1, rfl, rfl⟩

theorem sample_good {l : List (Vec3 ℝ × ℝ)} (hl : SmallSpheres l) {mesh : MeshColl (XF exactFmt)} {sph : SphereColl (XF exactFmt)}
    (hm : MeshColl.make sampleVertices sampleFaces = .ok mesh) (hs : SphereColl.make (centersOf l) (radiiOf l) = .ok sph)
    (h1 : sph.centers = centersOf l) (h2 : sph.radii = radiiOf l) : (sampleBefore mesh sph).Good where
  noCylinders := rfl
  vertices := by
    intro p hp v hv
    obtain rfl := Option.some.inj hp
    simp only at hv
    rw [(MeshColl.make_ok hm).1] at hv
    simp only [sampleVertices, List.mem_cons, List.not_mem_nil, or_false] at hv
    rcases hv with rfl | rfl | rfl <;> exact ⟨_, rvec_is _ _ _⟩
  spheres := by
    intro p hp i x y hx hy
    obtain rfl := Option.some.inj hp
    simp only [h1, h2] at hx hy
    obtain ⟨b, hb, rfl, rfl⟩ := ball_get hx hy
    exact ⟨_, _, rvec_is _ _ _, rl_is _, (hl.2 b hb).2.1⟩
  planes := by intro p hp; simp [sampleBefore] at hp
  meshRange := by
    intro p hp b hb
    obtain rfl := Option.some.inj hp
    simp only at hb
    obtain ⟨_, _, _, _, bs, e, h⟩ := MeshColl.make_ok hm
    rw [e] at hb
    cases h with
    | cons h1 h2 =>
      cases h2
      obtain ⟨v0, v1, v2, e0, e1, e2, rfl⟩ := h1
      obtain rfl := Option.some.inj e0
      obtain rfl := Option.some.inj e1
      obtain rfl := Option.some.inj e2
      simp only [List.mem_singleton] at hb
      subst hb
      obtain ⟨f1, f2, _⟩ := triBox_is (rvec_is (F := exactFmt) (-2) (-2) 5) (rvec_is 2 (-2) 5) (rvec_is 0 2 5)
      refine boxInRange_of_is f1 f2 ?_ ?_ <;> norm_num [InBox, minV3, maxV3, Vec3.ofFn, Vec3.get]
  sphereRange := by
    intro p hp b hb
    obtain rfl := Option.some.inj hp
    simp only at hb
    obtain ⟨i, hi⟩ := List.mem_iff_getElem?.1 hb
    obtain ⟨c, r, h3, h4, rfl⟩ := SphereColl.make_box hs i _ hi
    rw [h1] at h3
    rw [h2] at h4
    obtain ⟨b, hb2, rfl, rfl⟩ := ball_get h3 h4
    obtain ⟨⟨⟨a1, a2⟩, ⟨a3, a4⟩, ⟨a5, a6⟩⟩, a7, a8⟩ := hl.2 b hb2
    refine boxInRange_of_is ((rvec_is _ _ _).subs exactFmt_exact (rl_is _)) ((rvec_is _ _ _).adds exactFmt_exact (rl_is _)) ?_ ?_ <;>
      simp only [InBox, Vec3.subs, Vec3.adds] <;> refine ⟨⟨?_, ?_⟩, ⟨?_, ?_⟩, ⟨?_, ?_⟩⟩ <;> linarith
  planeRange := by intro p hp; simp [sampleBefore] at hp

/-- A committed scene with the sample triangle and the given spheres. -/
theorem sample_scene (l : List (Vec3 ℝ × ℝ)) (hl : SmallSpheres l) :
    ∃ s, History s [0, 1] ∧ s.committed = true ∧ s.Good ∧ DepthAtMost s 26 ∧ s.planes = none ∧
    (∃ p, s.mesh = some p ∧ p.geomId = 0 ∧ p.coll.vertices = sampleVertices ∧ p.coll.faces = sampleFaces) ∧
    (∃ p, s.spheres = some p ∧ p.geomId = 1 ∧ p.coll.centers = centersOf l ∧ p.coll.radii = radiiOf l) := by
  obtain ⟨mesh, sph, hm, hs, hs1, hs2, hist⟩ := sample_history l
  have hgood := sample_good hl hm hs hs1 hs2
  obtain ⟨s, hc⟩ := commit_total exactFmt_exact hist hgood stablePartition
  have hist' : History s [0, 1] := .commit stablePartition _ _ _ hist (by simp [Call.exec, hc])
  obtain ⟨_, hcom, _, _, _, h1, h2, h3, h4⟩ := commit_cases _ _ _ _ hc
  obtain ⟨ns1, e1⟩ := commitPart_some h1
  obtain ⟨ns2, e2⟩ := commitPart_some h2
  have e3 : s.planes = none := commitPart_none h3
  have e4 : s.cylinders = none := commitPart_none h4
  have hmesh := MeshColl.make_ok hm
  have hok := hist'.ok
  refine ⟨s, hist', hcom, hgood.commit hc, ⟨?_, ?_, ?_, ?_⟩, e3, ⟨_, e1, rfl, hmesh.1, hmesh.2.1⟩, ⟨_, e2, rfl, hs1, hs2⟩⟩
  · intro p t hp ht
    have hk := hok.mesh
    rw [hp, hcom, hok.options] at hk
    refine (hk.leaf ht ?_).trans (by decide)
    rw [e1] at hp
    obtain rfl := Option.some.inj hp
    simp only [MeshColl.toCollection, hmesh.2.1]
    decide
  · intro p t hp ht
    have hk := hok.spheres
    rw [hp, hcom, hok.options] at hk
    refine (hk.leaf ht ?_).trans (by decide)
    rw [e2] at hp
    obtain rfl := Option.some.inj hp
    simp only [SphereColl.toCollection, hs1, centersOf, List.length_map]
    exact hl.1
  · intro p t hp; rw [e3] at hp; simp at hp
  · intro p t hp; rw [e4] at hp; simp at hp

/-- the arguments of a ray from `(0,0,10)` downwards, which meets the triangle and both spheres -/
theorem sample_ray (M : ℝ) : RayFor (rvec 0 0 10 : Vec3 (XF exactFmt)) (rvec 0 0 (-1)) (rl 0) (rl M) ⟨0, 0, 10⟩ ⟨0, 0, -1⟩ 0 M where
  org := rvec_is _ _ _
  dir := rvec_is _ _ _
  min := rl_is _
  max := rl_is _
  nonneg := le_rfl
  ne_zero := by intro h; injection h with _ _ h; norm_num at h
  scale := .inl (by simp [len, sq, Vec3.dot])
  noNegZero := rvec_not_negZero _ _ _

theorem sample_unit : unit ⟨0, 0, -1⟩ = ⟨0, 0, -1⟩ := by
  have : len ⟨0, 0, -1⟩ = 1 := by simp [len, sq, Vec3.dot]
  simp [unit, this, Vec3.divs]

theorem offZ_of_ne {s : Scene (XF exactFmt)} {o d : Vec3 ℝ} (h : d.z ≠ 0) : s.OffZFaces o d :=
  ⟨fun e => absurd e h, fun e => absurd e h, fun e => absurd e h⟩

theorem sample_fresh {M : ℝ} (hM : M ≤ 100) (t : ℝ) (ht : t < M) : (RayHit.fresh : RayHit (XF exactFmt)).hitDistance.Above t :=
  .inr ⟨exactFmt.maxVal, ⟨false, rfl⟩, ht.trans_le (le_exact_maxVal hM)⟩

/-- the ray meets the triangle in its interior -/
theorem sample_clear {s : Scene (XF exactFmt)}
    (h : ∃ p, s.mesh = some p ∧ p.geomId = 0 ∧ p.coll.vertices = sampleVertices ∧ p.coll.faces = sampleFaces) (tol : ℝ) :
    s.Clear tol ⟨0, 0, 10⟩ (unit ⟨0, 0, -1⟩) 0 := by
  rw [sample_unit]
  rintro g i t (⟨p, hp, hg, A, B, C, a, b, hf, ht, hn, e, _⟩ | h | h)
  · refine .inl ⟨p, hp, hg, A, B, C, hf, ht, hn, ?_⟩
    obtain ⟨p', hp', _, hv, hfs⟩ := h
    rw [hp, Option.some.injEq] at hp'
    subst hp'
    obtain ⟨f, x, y, z, h1, h2, h3, h4, h5, h6, h7⟩ := hf
    rw [hfs] at h1
    match i with
    | 0 =>
      obtain rfl := Option.some.inj h1
      rw [hv] at h2 h3 h4
      obtain rfl := Option.some.inj h2
      obtain rfl := Option.some.inj h3
      obtain rfl := Option.some.inj h4
      obtain rfl := h5.unique (rvec_is _ _ _)
      obtain rfl := h6.unique (rvec_is _ _ _)
      obtain rfl := h7.unique (rvec_is _ _ _)
      have ex := congrArg Vec3.x e
      have ey := congrArg Vec3.y e
      simp [along, bary, Vec3.smul] at ex ey
      exact ⟨a, b, by linarith, by linarith, by linarith, e⟩
    | n + 1 => simp [sampleFaces] at h1
  · exact .inr (.inl h)
  · exact .inr (.inr h)

end Blazert
