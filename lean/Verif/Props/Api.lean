/- C05-C09: the scene API.  All statements hold for every `Scalar` (any arithmetic). -/
import Verif.Proofs.Scene
import Verif.Samples

set_option autoImplicit false

namespace Blazert
open Scalar

variable {T P I C : Type} [Scalar T]

/-! ### C05 -/

/-- **C05** (single BVH).  A traversal that reports no hit returns the caller's `RayHit` unchanged. -/
theorem C05_traverse_miss_untouched (ix : Intersector T P I) (nodes : List (Node T P)) (ray : Ray T)
    (rh rh' : RayHit T) (h : traverse ix nodes ray rh = .ok (false, rh')) : rh' = rh := by
  unfold traverse at h
  rw [run_bind_eq_ok] at h
  obtain ⟨st, _, h⟩ := h
  rw [run_bind_eq_ok] at h
  obtain ⟨s, _, h⟩ := h
  unfold traverseFinish at h
  simp only at h
  split at h
  · rw [run_bind_eq_ok] at h
    obtain ⟨_, _, h⟩ := h
    simp at h
  · simp at h; exact h.symm

/-- **C05** (scene).  `intersect1` that reports no hit returns the caller's `RayHit` unchanged. -/
theorem C05_intersect1_miss_untouched (s : Scene T) (ray : Ray T) (rh rh' : RayHit T)
    (h : s.intersect1 ray rh = .ok (false, rh')) : rh' = rh := by
  unfold Scene.intersect1 at h
  simp only at h
  rw [run_bind_eq_ok] at h
  obtain ⟨s1, h1, h⟩ := h
  rw [run_bind_eq_ok] at h
  obtain ⟨s2, h2, h⟩ := h
  rw [run_bind_eq_ok] at h
  obtain ⟨s3, h3, h⟩ := h
  rw [run_bind_eq_ok] at h
  obtain ⟨s4, h4, h⟩ := h
  simp only [run_pure, Except.ok.injEq, Prod.mk.injEq] at h
  obtain ⟨h5, rfl⟩ := h
  obtain ⟨e4, f4⟩ := intersectPart_miss _ _ _ _ _ _ h4 h5
  obtain ⟨e3, f3⟩ := intersectPart_miss _ _ _ _ _ _ h3 f4
  obtain ⟨e2, f2⟩ := intersectPart_miss _ _ _ _ _ _ h2 f3
  obtain ⟨e1, _⟩ := intersectPart_miss _ _ _ _ _ _ h1 f2
  rw [e4, e3, e2, e1]

example : ∃ r, query stablePartition oneSphere (Ray.make' (dvec 3 0 0) (dvec 1 0 0)) RayHit.fresh = .ok r ∧ r.1 = false :=
  exists_ok_of_eval (by decide +kernel)

/-! ### C06 -/

/-- a `RayHit` with a hit distance left over from an earlier query -/
def staleHit : RayHit Double := { (RayHit.fresh : RayHit Double) with hitDistance := dbl 1 }

/-- **C06 is false**: with a fresh `RayHit` the sphere is hit (at distance 2); with a `RayHit` that still holds the
distance 1 of an earlier query, the very same query reports a miss. -/
theorem C06_depends_on_stale_rayhit :
    (∃ r, query stablePartition oneSphere rayToOrigin RayHit.fresh = .ok r ∧ r.1 = true ∧ r.2.hitDistance = dbl 2) ∧
    (∃ r, query stablePartition oneSphere rayToOrigin staleHit = .ok r ∧ r.1 = false) :=
  ⟨exists_ok_of_eval (by decide +kernel), exists_ok_of_eval (by decide +kernel)⟩

/-- **C06**, what does hold (any arithmetic): the result depends on the caller's `RayHit` only through its
`hit_distance`; in particular every `RayHit` whose `hit_distance` is the default gives the same answer, and the same
fields on a hit.  Missing from the full claim: independence of the prior `hit_distance` itself, which is false. -/
theorem C06_only_prior_distance_matters_partial (s : Scene T) (ray : Ray T) (rh rh' : RayHit T)
    (h : rh.hitDistance = rh'.hitDistance) :
    (∃ e, s.intersect1 ray rh = .error e ∧ s.intersect1 ray rh' = .error e) ∨
    ∃ r r', s.intersect1 ray rh = .ok r ∧ s.intersect1 ray rh' = .ok r' ∧ r.1 = r'.1 ∧
      (r.1 = true → r.2 = r'.2) := by
  unfold Scene.intersect1
  simp only
  have h0 : SameQuery ((RayHit.fresh : RayHit T), rh, false) (RayHit.fresh, rh', false) := ⟨rfl, h, rfl, by simp⟩
  rcases intersectPart_same triIx true ray s.mesh _ _ h0 with ⟨e, e1, e2⟩ | ⟨a1, b1, e1, e2, h1⟩
  · left; exact ⟨e, by simp [e1], by simp [e2]⟩
  rw [e1, e2]; simp only [run_bind_ok]
  rcases intersectPart_same sphereIx false ray s.spheres _ _ h1 with ⟨e, e1, e2⟩ | ⟨a2, b2, e1, e2, h2⟩
  · left; exact ⟨e, by simp [e1], by simp [e2]⟩
  rw [e1, e2]; simp only [run_bind_ok]
  rcases intersectPart_same (fun _ => planeIx) false ray s.planes _ _ h2 with ⟨e, e1, e2⟩ | ⟨a3, b3, e1, e2, h3⟩
  · left; exact ⟨e, by simp [e1], by simp [e2]⟩
  rw [e1, e2]; simp only [run_bind_ok]
  rcases intersectPart_same (fun _ => cylIx) false ray s.cylinders _ _ h3 with ⟨e, e1, e2⟩ | ⟨a4, b4, e1, e2, h4⟩
  · left; exact ⟨e, by simp [e1], by simp [e2]⟩
  rw [e1, e2]
  right
  exact ⟨_, _, rfl, rfl, h4.2.2.1, h4.2.2.2⟩

example : (RayHit.fresh : RayHit Double).hitDistance =
    ({ (RayHit.fresh : RayHit Double) with primId := 7, geomId := 3, uv := (dbl 1, dbl 2) } : RayHit Double).hitDistance :=
  rfl

/-- **C06** for scenes that contain only a mesh: completely independent of the caller's `RayHit`. -/
theorem C06_mesh_only (s : Scene T) (hs : s.spheres = none) (hp : s.planes = none) (hc : s.cylinders = none)
    (ray : Ray T) (rh rh' : RayHit T) :
    (∃ e, s.intersect1 ray rh = .error e ∧ s.intersect1 ray rh' = .error e) ∨
    ∃ r r', s.intersect1 ray rh = .ok r ∧ s.intersect1 ray rh' = .ok r' ∧ r.1 = r'.1 ∧
      (r.1 = true → r.2 = r'.2) := by
  unfold Scene.intersect1
  rw [hs, hp, hc]
  cases hm : s.mesh with
  | none => right; exact ⟨_, _, rfl, rfl, rfl, by simp⟩
  | some m =>
    simp only [intersectPart]
    cases hq : traverse (triIx m.coll) m.nodes ray RayHit.fresh with
    | error e => left; exact ⟨e, rfl, rfl⟩
    | ok q =>
      right
      simp only [run_bind_ok, Bool.true_or, Bool.and_true]
      split
      · exact ⟨_, _, rfl, rfl, rfl, fun _ => rfl⟩
      · exact ⟨_, _, rfl, rfl, rfl, by simp⟩

/-! ### C07, C08 -/

/-- **C07**.  In every history of API calls the successful `add_*` calls (those not returning `-1`) return
`0, 1, 2, ...` in call order; hence no id is returned twice. -/
theorem C07_ids_sequential (s : Scene T) (rs : List Nat) (h : History s rs) :
    ∃ n, rs.filter (· ≠ invalidId) = List.range n := ⟨_, h.geometries_eq.2⟩

theorem C07_ids_distinct (s : Scene T) (rs : List Nat) (h : History s rs) : (rs.filter (· ≠ invalidId)).Nodup := by
  rw [h.geometries_eq.2]; exact List.nodup_range

/-- **C08**.  In every history: an `add_*` call returns `-1` exactly if this kind of geometry is already present or the
scene is committed; then the scene, hence every later answer, is unchanged. -/
theorem C08_rejected_add_no_effect (s : Scene T) (rs : List Nat) (h : History s rs) (part : StdPartition) (c : Call T)
    (s' : Scene T) (i : Nat) (hc : c.exec part s = .ok (s', some i)) :
    (i = invalidId ↔ c.occupied s = true ∨ s.committed = true) ∧
    (i = invalidId → s' = s ∧ ∀ ray rh, s'.intersect1 ray rh = s.intersect1 ray rh) := by
  rcases add_cases _ _ _ _ _ hc with ⟨h1, rfl, rfl⟩ | ⟨h1, h2, rfl, _, _, _⟩
  · exact ⟨by simp [h1], fun _ => ⟨rfl, fun _ _ => rfl⟩⟩
  · have hne : s.geometries ≠ invalidId := by
      have := s.count_le
      rw [h.geometries_eq.1]; unfold invalidId; omega
    simp [h1, h2, hne]

/-- the history of the examples: spheres accepted (0), second spheres rejected, planes accepted (1), commit, mesh
rejected -/
example : evalOk (do
    let (s, i0) ← (Scene.init : Scene Double).addSpheres [dvec 0 0 0] [dbl 1]
    let (s, i1) ← s.addSpheres [dvec 0 0 0] [dbl 1]
    let (s, i2) ← s.addPlanes [dvec 0 0 0] [dbl 1] [dbl 1] [⟨dvec 1 0 0, dvec 0 1 0, dvec 0 0 1⟩]
    let (s, _) ← s.commit stablePartition
    let (_, i3) ← s.addMesh [] []
    return [i0, i1, i2, i3]) (· == [0, invalidId, 1, invalidId]) = true := by decide +kernel

/-! ### C09 -/

/-- **C09**.  Further `commit` calls on a committed scene change no answer, whatever `std::partition` does in them. -/
theorem C09_recommit_changes_no_answer (s s' : Scene T) (rs : List Nat) (h : History s rs) (hcom : s.committed = true)
    (hr : Recommit s s') (ray : Ray T) (rh : RayHit T) : s'.intersect1 ray rh = s.intersect1 ray rh := by
  have hok := h.ok
  suffices hs : (SceneOk s' ∧ s'.committed = true) ∧ s'.intersect1 ray rh = s.intersect1 ray rh from hs.2
  induction hr with
  | refl => exact ⟨⟨hok, hcom⟩, rfl⟩
  | step part s' s'' b hr hc ih =>
    obtain ⟨⟨ih1, ih2⟩, ih3⟩ := ih
    obtain ⟨_, h2, _, _, h3, h4, h5, h6, h7⟩ := commit_cases _ _ _ _ hc
    have a1 := ih1.mesh; have a2 := ih1.spheres; have a3 := ih1.planes; have a4 := ih1.cylinders
    rw [ih2] at a1 a2 a3 a4
    refine ⟨⟨⟨h3.trans ih1.options, ?_, ?_, ?_, ?_⟩, h2⟩, ?_⟩
    · rw [h2, h3]; exact a1.commit part h4
    · rw [h2, h3]; exact a2.commit part h5
    · rw [h2, h3]; exact a3.commit part h6
    · rw [h2, h3]; exact a4.commit part h7
    · rw [← ih3]
      unfold Scene.intersect1
      simp only [intersectPart_recommit a1 part h4, intersectPart_recommit a2 part h5,
        intersectPart_recommit a3 part h6, intersectPart_recommit a4 part h7]

/-- **C09**, progress: a scene that could be committed once can be committed again. -/
theorem C09_recommit_succeeds (part : StdPartition) (s s' : Scene T) (b : Bool) (h : s.commit part = .ok (s', b)) :
    ∃ s'', s'.commit part = .ok (s'', true) := by
  obtain ⟨_, _, _, _, h3, h4, h5, h6, h7⟩ := commit_cases _ _ _ _ h
  obtain ⟨a, ha⟩ := commitPart_again _ _ _ _ _ h4
  obtain ⟨b, hb⟩ := commitPart_again _ _ _ _ _ h5
  obtain ⟨c, hc⟩ := commitPart_again _ _ _ _ _ h6
  obtain ⟨d, hd⟩ := commitPart_again _ _ _ _ _ h7
  exact ⟨_, by unfold Scene.commit; simp only [h3, ha, hb, hc, hd, run_bind_ok]; rfl⟩

/-- committing twice appends a second copy of the nodes -/
example : ∃ s, runCalls stablePartition (oneSphere ++ [.commit]) = .ok s ∧
    (s.spheres.map fun p => p.nodes.length) = some 2 := exists_ok_of_eval (by decide +kernel)

end Blazert
