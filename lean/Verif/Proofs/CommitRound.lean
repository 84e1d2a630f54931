/- Committing scenes with rounding returns normally. -/
import Verif.Proofs.CommitKinds
import Verif.Proofs.CommitMesh
import Verif.Proofs.Casts
import Verif.Proofs.Commit
import Verif.Proofs.CylinderScene
import Verif.Proofs.Grid
import Verif.Proofs.TriScan
import Verif.Proofs.Ordered
import Verif.Proofs.Sqrt

set_option autoImplicit false
set_option linter.unusedSectionVars false

namespace Blazert
open Scalar

section
variable {K : Type} [Field K] [LinearOrder K] [IsStrictOrderedRing K] [FloorRing K] {F : Fmt K} {u η hi lo q M : K}

/-- a collection can be built if it can be read and the casts are defined -/
theorem commitPart_of {C P : Type} (part : StdPartition) (toColl : C → Collection (XF F) P) (p : Option (Part C (XF F) P))
    (h : ∀ r, p = some r → (∀ i, i < (toColl r.coll).size → ∃ b c w, (toColl r.coll).box i = .ok b ∧ (toColl r.coll).center i = .ok c ∧
      (toColl r.coll).prim i = .ok w) ∧ CastsDefined (toColl r.coll) 64) :
    ∃ r, commitPart part .default toColl p = .ok r := by
  cases p with
  | none => exact ⟨none, rfl⟩
  | some p =>
    obtain ⟨hr, hcast⟩ := h p rfl
    obtain ⟨out, ho⟩ := build_total part (toColl p.coll) .default p.nodes
      (fun i hi => ⟨_, (hr i hi).choose_spec.choose_spec.choose_spec.1⟩)
      (fun i hi => ⟨_, (hr i hi).choose_spec.choose_spec.choose_spec.2.1⟩)
      (fun i hi => ⟨_, (hr i hi).choose_spec.choose_spec.choose_spec.2.2⟩)
      (.inr (.inr ⟨by decide, hcast⟩))
    simp only [commitPart, ho, run_bind_ok]
    exact ⟨_, rfl⟩

theorem casts_of_nice {P : Type} (G : GridOk F u η hi lo q M) (hf : Fine u η (9 / 10 * F.tiny) hi) {p : Collection (XF F) P}
    (reads : ∀ i, i < p.size → ∃ b c w, p.box i = .ok b ∧ p.center i = .ok c ∧ p.prim i = .ok w ∧
      NiceBox (9 / 10 * F.tiny) (q * q / 2) (100 * M) b c) :
    (∀ i, i < p.size → ∃ b c w, p.box i = .ok b ∧ p.center i = .ok c ∧ p.prim i = .ok w) ∧ CastsDefined p 64 := by
  obtain ⟨wf, hs⟩ := wellFormed_of_nice hf.lo_pos (by linarith [G.tiny_Q, G.tiny_pos]) (by linarith [G.M_hi, G.M_ge]) G.hi_max reads
  exact ⟨wf.reads, castsDefined_of_gradual G.rounds.toGradual hf p wf hs 64 (by decide) (by decide)⟩

theorem cyl_make_box {cs : List (Vec3 (XF F))} {as bs hs : List (XF F)} {ms : List (Mat3 (XF F))} {coll : CylColl (XF F)}
    (h : CylColl.make cs as bs hs ms = .ok coll) :
    ∀ (i : Nat) b, coll.boxes[i]? = some b → ∃ c x y z m, coll.centers[i]? = some c ∧ coll.as[i]? = some x ∧
      coll.bs[i]? = some y ∧ coll.heights[i]? = some z ∧ coll.rotations[i]? = some m ∧ b = cylBox c x y z m := by
  unfold CylColl.make at h
  rw [run_bind_eq_ok] at h
  obtain ⟨bs, h1, h⟩ := h
  simp only [run_pure, Except.ok.injEq] at h
  subst h
  intro i b hb
  have := range_mapM_get h1 hb
  rw [run_bind_eq_ok] at this
  obtain ⟨c, hc, this⟩ := this
  rw [run_bind_eq_ok] at this
  obtain ⟨x, hx, this⟩ := this
  rw [run_bind_eq_ok] at this
  obtain ⟨y, hy, this⟩ := this
  rw [run_bind_eq_ok] at this
  obtain ⟨z, hz, this⟩ := this
  rw [run_bind_eq_ok] at this
  obtain ⟨m, hm, this⟩ := this
  simp only [run_pure, Except.ok.injEq] at this
  exact ⟨c, x, y, z, m, lookup_eq_ok.1 hc, lookup_eq_ok.1 hx, lookup_eq_ok.1 hy, lookup_eq_ok.1 hz, lookup_eq_ok.1 hm, this.symm⟩

theorem commit_rounding (G : GridOk F u η hi lo q M) (Gm : MeshFine F u η hi lo M) (hf : Fine u η (9 / 10 * F.tiny) hi) {s : Scene (XF F)}
    {rs : List Nat} (hist : History s rs) (hmod : s.Moderate u lo M) (part : StdPartition) : ∃ s', s.commit part = .ok (s', true) := by
  have hok := hist.ok
  obtain ⟨m, hm⟩ := commitPart_of part MeshColl.toCollection s.mesh fun p hp => by
    obtain ⟨⟨v, f, hmake⟩, -⟩ := hok.mesh p hp
    obtain ⟨L, L1, L2, hap⟩ := hmod.vertices p hp
    refine ⟨fun i hi => ?_, mesh_casts G.rounds Gm L1 L2 hmake hap⟩
    obtain ⟨b, c, w, h1, h2, h3, -⟩ := mesh_reads G.rounds Gm L1 L2 hmake hap i hi
    exact ⟨b, c, w, h1, h2, h3⟩
  obtain ⟨sp, hs⟩ := commitPart_of part SphereColl.toCollection s.spheres fun p hp => by
    obtain ⟨⟨v, f, hmake⟩, -⟩ := hok.spheres p hp
    refine casts_of_nice G hf fun i hi => ?_
    have hlen : p.coll.boxes.length = p.coll.centers.length := by
      unfold SphereColl.make at hmake
      rw [run_bind_eq_ok] at hmake
      obtain ⟨bs, h1, h⟩ := hmake
      simp only [run_pure, Except.ok.injEq] at h
      rw [← h]
      exact range_mapM_length h1
    have hi' : i < p.coll.boxes.length := by rw [hlen]; exact hi
    obtain ⟨c, r, h1, h2, h3⟩ := SphereColl.make_box hmake i _ (List.getElem?_eq_getElem hi')
    obtain ⟨k1, k2, k3⟩ := hmod.spheres p hp i c r h1 h2
    exact ⟨_, c, _, lookup_eq_ok.2 (by rw [← h3, List.getElem?_eq_getElem hi']), lookup_eq_ok.2 h1, (SphereColl.make_prim hmake h1 h2).2,
      nice_sphere G k1 k2 k3⟩
  obtain ⟨pl, hp⟩ := commitPart_of part PlaneColl.toCollection s.planes fun p hp => by
    obtain ⟨⟨v, f, g, h, hmake⟩, -⟩ := hok.planes p hp
    refine casts_of_nice G hf fun i hi => ?_
    have hlen : p.coll.boxes.length = p.coll.centers.length := by
      unfold PlaneColl.make at hmake
      rw [run_bind_eq_ok] at hmake
      obtain ⟨bs, h1, h⟩ := hmake
      simp only [run_pure, Except.ok.injEq] at h
      rw [← h]
      exact range_mapM_length h1
    have hi' : i < p.coll.boxes.length := by rw [hlen]; exact hi
    obtain ⟨c, x, y, m, h1, h2, h3, h4, h5⟩ := PlaneColl.make_box hmake i _ (List.getElem?_eq_getElem hi')
    obtain ⟨k1, k2, k3, k4, k5⟩ := hmod.planes p hp i c x y m h1 h2 h3 h4
    refine ⟨_, c, ⟨c, x, y, m, i⟩, lookup_eq_ok.2 (by rw [← h5, List.getElem?_eq_getElem hi']), lookup_eq_ok.2 h1, ?_,
      nice_plane G k1 k2 k3 k4 k5⟩
    simp only [PlaneColl.toCollection, lookup_eq_ok.2 h1, lookup_eq_ok.2 h2, lookup_eq_ok.2 h3, lookup_eq_ok.2 h4, run_bind_ok]
    rfl
  obtain ⟨cy, hc⟩ := commitPart_of part CylColl.toCollection s.cylinders fun p hp => by
    obtain ⟨⟨v, f, g, h, k, hmake⟩, -⟩ := hok.cylinders p hp
    refine casts_of_nice G hf fun i hi => ?_
    have hlen : p.coll.boxes.length = p.coll.centers.length := by
      unfold CylColl.make at hmake
      rw [run_bind_eq_ok] at hmake
      obtain ⟨bs, h1, h⟩ := hmake
      simp only [run_pure, Except.ok.injEq] at h
      rw [← h]
      exact range_mapM_length h1
    have hi' : i < p.coll.boxes.length := by rw [hlen]; exact hi
    obtain ⟨c, x, y, z, m, h1, h2, h3, h4, h5, h6⟩ := cyl_make_box hmake i _ (List.getElem?_eq_getElem hi')
    obtain ⟨k1, k2, k3, k4, k5⟩ := hmod.cylinders p hp i c x y z m h1 h2 h3 h4 h5
    refine ⟨_, c, ⟨c, x, y, z, m, i⟩, lookup_eq_ok.2 (by rw [← h6, List.getElem?_eq_getElem hi']), lookup_eq_ok.2 h1, ?_,
      nice_cylinder G k1 k2 k3 k4 k5⟩
    simp only [CylColl.toCollection, lookup_eq_ok.2 h1, lookup_eq_ok.2 h2, lookup_eq_ok.2 h3, lookup_eq_ok.2 h4, lookup_eq_ok.2 h5, run_bind_ok]
    rfl
  unfold Scene.commit
  rw [hok.options, hm, run_bind_ok, hs, run_bind_ok, hp, run_bind_ok, hc]
  exact ⟨_, rfl⟩

end

namespace Format

theorem binary64_grid : GridOk binary64 (pow2 (-53)) (pow2 (-1075)) binary64.maxVal (pow2 (-450)) (pow2 (-504)) (pow2 1000) where
  rounds := binary64_rounds
  odd := binary64_odd
  ordered := binary64_ordered
  coarse := by
    intro r v h hv
    rw [show pow2 (-450) / 2 = pow2 (-451) by decide +kernel] at hv
    unfold binary64 at h
    exact roundBinary_coarse (f := -504) (g := -451) h (by norm_num) hv
  grid := by
    intro k r h
    rw [show pow2 (-504) * pow2 (-504) / 2 = pow2 (-1009) by decide +kernel] at h ⊢
    unfold binary64 at h
    exact roundBinary_grid (a := -1009) (by norm_num) h
  grid2 := by
    intro k r h
    rw [show pow2 (-504) / 2 = pow2 (-505) by decide +kernel] at h ⊢
    unfold binary64 at h
    exact roundBinary_grid (a := -505) (by norm_num) h
  inv := ⟨2 ^ 504, by decide +kernel⟩
  q_pos := by decide +kernel
  q_le := by decide +kernel
  u_nonneg := by decide +kernel
  u_le := by decide +kernel
  η_nonneg := by decide +kernel
  η_le := by decide +kernel
  lo_pos := by decide +kernel
  η_lo := by decide +kernel
  M_ge := by decide +kernel
  M_hi := by decide +kernel
  hi_max := le_rfl
  tiny_pos := by decide +kernel
  tiny_Q := by decide +kernel
  tiny_lo := by decide +kernel
  η_tiny := by decide +kernel

theorem binary32_grid : GridOk binary32 (pow2 (-24)) (pow2 (-150)) binary32.maxVal (pow2 (-35)) (pow2 (-60)) (pow2 100) where
  rounds := binary32_rounds
  odd := binary32_odd
  ordered := binary32_ordered
  coarse := by
    intro r v h hv
    rw [show pow2 (-35) / 2 = pow2 (-36) by decide +kernel] at hv
    unfold binary32 at h
    exact roundBinary_coarse (f := -60) (g := -36) h (by norm_num) hv
  grid := by
    intro k r h
    rw [show pow2 (-60) * pow2 (-60) / 2 = pow2 (-121) by decide +kernel] at h ⊢
    unfold binary32 at h
    exact roundBinary_grid (a := -121) (by norm_num) h
  grid2 := by
    intro k r h
    rw [show pow2 (-60) / 2 = pow2 (-61) by decide +kernel] at h ⊢
    unfold binary32 at h
    exact roundBinary_grid (a := -61) (by norm_num) h
  inv := ⟨2 ^ 60, by decide +kernel⟩
  q_pos := by decide +kernel
  q_le := by decide +kernel
  u_nonneg := by decide +kernel
  u_le := by decide +kernel
  η_nonneg := by decide +kernel
  η_le := by decide +kernel
  lo_pos := by decide +kernel
  η_lo := by decide +kernel
  M_ge := by decide +kernel
  M_hi := by decide +kernel
  hi_max := le_rfl
  tiny_pos := by decide +kernel
  tiny_Q := by decide +kernel
  tiny_lo := by decide +kernel
  η_tiny := by decide +kernel

theorem binary64_meshFine : MeshFine binary64 (pow2 (-53)) (pow2 (-1075)) binary64.maxVal (pow2 (-450)) (pow2 1000) := by
  constructor <;> decide +kernel

theorem binary32_meshFine : MeshFine binary32 (pow2 (-24)) (pow2 (-150)) binary32.maxVal (pow2 (-35)) (pow2 100) := by
  constructor <;> decide +kernel

theorem binary64_fine' : Fine (pow2 (-53)) (pow2 (-1075)) (9 / 10 * binary64.tiny) binary64.maxVal := by
  constructor <;> decide +kernel

theorem binary32_fine' : Fine (pow2 (-24)) (pow2 (-150)) (9 / 10 * binary32.tiny) binary32.maxVal := by
  constructor <;> decide +kernel

end Format
end Blazert
