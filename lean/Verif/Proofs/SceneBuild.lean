/- Helper lemmas: the nodes of a committed scene start with what the first commit built. -/
import Verif.Proofs.Scene
import Verif.Samples

set_option autoImplicit false
set_option linter.unusedSectionVars false

namespace Blazert

variable {T P I C : Type} [Scalar T]

/-- no nodes before commit; afterwards the first nodes are what `build` returned for an empty list -/
def PartFirst (tc : C → Collection T P) (o : BuildOptions) (committed : Bool) (p : Option (Part C T P)) : Prop :=
  ∀ q, p = some q → (committed = false → q.nodes = []) ∧
    (committed = true → ∃ part nodes stats more, build part (tc q.coll) o [] = .ok (nodes, stats) ∧ q.nodes = nodes ++ more)

structure SceneFirst (s : Scene T) : Prop where
  options : s.options = BuildOptions.default
  mesh : PartFirst MeshColl.toCollection s.options s.committed s.mesh
  spheres : PartFirst SphereColl.toCollection s.options s.committed s.spheres
  planes : PartFirst PlaneColl.toCollection s.options s.committed s.planes
  cylinders : PartFirst CylColl.toCollection s.options s.committed s.cylinders

theorem PartFirst.commit {tc : C → Collection T P} {o : BuildOptions} {b : Bool} {p q : Option (Part C T P)}
    (h : PartFirst tc o b p) (part : StdPartition) (hc : commitPart part o tc p = .ok q) : PartFirst tc o true q := by
  cases p with
  | none => simp [commitPart] at hc; subst hc; intro q h; simp at h
  | some p =>
    obtain ⟨h2, h3⟩ := h p rfl
    simp only [commitPart] at hc
    rw [run_bind_eq_ok] at hc
    obtain ⟨⟨nodes, st⟩, h4, hc⟩ := hc
    simp at hc
    subst hc
    intro q hq
    obtain rfl := Option.some.inj hq
    refine ⟨by simp, fun _ => ?_⟩
    cases b with
    | false =>
      rw [h2 rfl] at h4
      exact ⟨part, nodes, st, [], h4, by simp⟩
    | true =>
      obtain ⟨part', nodes', st', more, h7, h8⟩ := h3 rfl
      obtain ⟨t, bad, h5, _, h6⟩ := build_ok _ _ _ _ _ h4
      simp only [Prod.mk.injEq] at h6
      exact ⟨part', nodes', st', more ++ t.layout p.nodes.length, h7, by simp only; rw [h6.1, h8, List.append_assoc]⟩

theorem PartFirst.fresh {tc : C → Collection T P} {o : BuildOptions} {b : Bool} (hb : b = false) (g : Nat) (c : C) :
    PartFirst tc o b (some ⟨c, [], g⟩) := by
  intro q hq
  obtain rfl := Option.some.inj hq
  exact ⟨fun _ => rfl, fun h => (by rw [hb] at h; cases h)⟩

theorem History.first {s : Scene T} {rs : List Nat} (h : History s rs) : SceneFirst s := by
  induction h with
  | init => exact ⟨rfl, by simp [PartFirst, Scene.init], by simp [PartFirst, Scene.init], by simp [PartFirst, Scene.init],
      by simp [PartFirst, Scene.init]⟩
  | commit part s s' rs h hc ih =>
    simp only [Call.exec] at hc
    rw [run_bind_eq_ok] at hc
    obtain ⟨⟨s1, b⟩, h1, h2⟩ := hc
    simp at h2; subst h2
    obtain ⟨_, h2, _, _, h3, h4, h5, h6, h7⟩ := commit_cases _ _ _ _ h1
    refine ⟨h3.trans ih.options, ?_, ?_, ?_, ?_⟩ <;> rw [h2, h3]
    · exact ih.mesh.commit part h4
    · exact ih.spheres.commit part h5
    · exact ih.planes.commit part h6
    · exact ih.cylinders.commit part h7
  | add part s s' rs c i h hc ih =>
    cases c with
    | addMesh v f =>
      simp only [Call.exec] at hc
      rw [run_bind_eq_ok] at hc
      obtain ⟨⟨s1, j⟩, h1, h⟩ := hc
      simp at h
      obtain ⟨rfl, rfl⟩ := h
      rcases addMesh_cases _ _ _ _ _ h1 with ⟨_, rfl, _⟩ | ⟨h2, h3, h4, coll, h5, rfl⟩
      · exact ih
      · exact ⟨ih.options, .fresh h3 _ _, ih.spheres, ih.planes, ih.cylinders⟩
    | addSpheres v f =>
      simp only [Call.exec] at hc
      rw [run_bind_eq_ok] at hc
      obtain ⟨⟨s1, j⟩, h1, h⟩ := hc
      simp at h
      obtain ⟨rfl, rfl⟩ := h
      rcases addSpheres_cases _ _ _ _ _ h1 with ⟨_, rfl, _⟩ | ⟨h2, h3, h4, coll, h5, rfl⟩
      · exact ih
      · exact ⟨ih.options, ih.mesh, .fresh h3 _ _, ih.planes, ih.cylinders⟩
    | addPlanes v f g k =>
      simp only [Call.exec] at hc
      rw [run_bind_eq_ok] at hc
      obtain ⟨⟨s1, j⟩, h1, h⟩ := hc
      simp at h
      obtain ⟨rfl, rfl⟩ := h
      rcases addPlanes_cases _ _ _ _ _ _ _ h1 with ⟨_, rfl, _⟩ | ⟨h2, h3, h4, coll, h5, rfl⟩
      · exact ih
      · exact ⟨ih.options, ih.mesh, ih.spheres, .fresh h3 _ _, ih.cylinders⟩
    | addCylinders v f g k l =>
      simp only [Call.exec] at hc
      rw [run_bind_eq_ok] at hc
      obtain ⟨⟨s1, j⟩, h1, h⟩ := hc
      simp at h
      obtain ⟨rfl, rfl⟩ := h
      rcases addCylinders_cases _ _ _ _ _ _ _ _ h1 with ⟨_, rfl, _⟩ | ⟨h2, h3, h4, coll, h5, rfl⟩
      · exact ih
      · exact ⟨ih.options, ih.mesh, ih.spheres, ih.planes, .fresh h3 _ _⟩
    | commit =>
      simp only [Call.exec] at hc
      rw [run_bind_eq_ok] at hc
      obtain ⟨⟨s1, j⟩, h1, h⟩ := hc
      simp at h

/-- nodes appended by later commits are not looked at -/
theorem PartFirst.query {tc : C → Collection T P} {o : BuildOptions} {q : Part C T P} (h : PartFirst tc o true (some q)) :
    ∃ part nodes stats, build part (tc q.coll) o [] = .ok (nodes, stats) ∧
      ∀ (ix : Intersector T P I) (ray : Ray T) (rh : RayHit T), traverse ix q.nodes ray rh = traverse ix nodes ray rh := by
  obtain ⟨part, nodes, stats, more, h1, h2⟩ := (h q rfl).2 rfl
  refine ⟨part, nodes, stats, h1, fun ix ray rh => ?_⟩
  obtain ⟨t, bad, h5, _, h6⟩ := build_ok _ _ _ _ _ h1
  simp only [Prod.mk.injEq, List.nil_append, List.length_nil] at h6
  have := Tree.layout_represents h5.axesOk []
  rw [List.append_nil, ← h6.1] at this
  rw [h2, traverse_append _ _ _ _ _ _ this.1 this.2]

theorem foldlM_history (part : StdPartition) (calls : List (Call T)) {s s' : Scene T} {rs : List Nat} (h : History s rs)
    (hr : calls.foldlM (init := s) (fun s c => do let r ← c.exec part s; return r.1) = .ok s') : ∃ rs', History s' rs' := by
  induction calls generalizing s rs with
  | nil =>
    simp only [List.foldlM_nil, run_pure, Except.ok.injEq] at hr
    exact hr ▸ ⟨rs, h⟩
  | cons c cs ih =>
    simp only [List.foldlM_cons, run_bind_eq_ok] at hr
    obtain ⟨s1, ⟨⟨s2, i⟩, h1, h2⟩, h3⟩ := hr
    simp only [run_pure, Except.ok.injEq] at h2
    subst h2
    cases i with
    | some i => exact ih (h.add part _ _ _ c i h1) h3
    | none =>
      cases c with
      | commit => exact ih (h.commit part _ _ _ h1) h3
      | _ =>
        simp only [Call.exec, run_bind_eq_ok] at h1
        obtain ⟨⟨_, _⟩, -, h1⟩ := h1
        simp at h1

theorem runCalls_history {part : StdPartition} {calls : List (Call T)} {s : Scene T} (h : runCalls part calls = .ok s) :
    ∃ rs, History s rs := foldlM_history part calls .init h

end Blazert
