/- Helper lemmas about the scene API. -/
import Verif.Proofs.Loop
import Verif.Spec.Scene

set_option autoImplicit false
set_option linter.unusedSectionVars false

namespace Blazert
open Scalar

variable {T P I C : Type} [Scalar T]

theorem intersectPart_miss (ix : C → Intersector T P I) (always : Bool) (ray : Ray T) (p : Option (Part C T P))
    (st st' : RayHit T × RayHit T × Bool) (h : intersectPart ix always ray p st = .ok st')
    (hm : st'.2.2 = false) : st'.2.1 = st.2.1 ∧ st.2.2 = false := by
  obtain ⟨temp, rh, hit⟩ := st
  cases p with
  | none =>
    simp only [intersectPart, Except.ok.injEq] at h
    subst h; exact ⟨rfl, hm⟩
  | some p =>
    simp only [intersectPart] at h
    rw [run_bind_eq_ok] at h
    obtain ⟨q, _, h⟩ := h
    split at h
    · simp only [run_pure, Except.ok.injEq] at h
      subst h; simp at hm
    · simp only [run_pure, Except.ok.injEq] at h
      subst h; exact ⟨rfl, hm⟩

/-- two query states that differ at most in the not yet overwritten caller's `RayHit` -/
def SameQuery (a b : RayHit T × RayHit T × Bool) : Prop :=
  a.1 = b.1 ∧ a.2.1.hitDistance = b.2.1.hitDistance ∧ a.2.2 = b.2.2 ∧ (a.2.2 = true → a.2.1 = b.2.1)

theorem intersectPart_same (ix : C → Intersector T P I) (always : Bool) (ray : Ray T) (p : Option (Part C T P))
    (a b : RayHit T × RayHit T × Bool) (h : SameQuery a b) :
    (∃ e, intersectPart ix always ray p a = .error e ∧ intersectPart ix always ray p b = .error e) ∨
    ∃ a' b', intersectPart ix always ray p a = .ok a' ∧ intersectPart ix always ray p b = .ok b' ∧ SameQuery a' b' := by
  obtain ⟨temp, rh, hit⟩ := a
  obtain ⟨temp', rh', hit'⟩ := b
  obtain ⟨h1, h2, h3, h4⟩ := h
  simp only at h1 h2 h3 h4
  subst h1 h3
  cases p with
  | none => exact .inr ⟨_, _, rfl, rfl, rfl, h2, rfl, h4⟩
  | some p =>
    simp only [intersectPart]
    cases hq : traverse (ix p.coll) p.nodes ray temp with
    | error e => left; exact ⟨e, rfl, rfl⟩
    | ok q =>
      right
      simp only [run_bind_ok, h2]
      split
      · exact ⟨_, _, rfl, rfl, rfl, rfl, rfl, fun _ => rfl⟩
      · exact ⟨_, _, rfl, rfl, rfl, h2, rfl, h4⟩

/-- number of geometries present -/
def Scene.count (s : Scene T) : Nat :=
  s.mesh.isSome.toNat + s.spheres.isSome.toNat + s.planes.isSome.toNat + s.cylinders.isSome.toNat

theorem Scene.count_le (s : Scene T) : s.count ≤ 4 := by
  unfold Scene.count
  cases s.mesh.isSome <;> cases s.spheres.isSome <;> cases s.planes.isSome <;> cases s.cylinders.isSome <;> decide

theorem addMesh_cases (s s' : Scene T) (v : List (Vec3 T)) (f : List (Vec3 Nat)) (i : Nat)
    (h : s.addMesh v f = .ok (s', i)) :
    ((s.mesh.isSome = true ∨ s.committed = true) ∧ s' = s ∧ i = invalidId) ∨
    (s.mesh = none ∧ s.committed = false ∧ i = s.geometries ∧
      ∃ coll, MeshColl.make v f = .ok coll ∧
        s' = { s with mesh := some ⟨coll, [], s.geometries⟩, geometries := s.geometries + 1 }) := by
  unfold Scene.addMesh at h
  split at h
  · rename_i hc
    rw [run_bind_eq_ok] at h
    obtain ⟨coll, h1, h⟩ := h
    simp only [run_pure, Except.ok.injEq, Prod.mk.injEq] at h
    simp at hc
    exact .inr ⟨hc.1, hc.2, h.2.symm, coll, h1, h.1.symm⟩
  · rename_i hc
    simp only [run_pure, Except.ok.injEq, Prod.mk.injEq] at h
    refine .inl ⟨?_, h.1.symm, h.2.symm⟩
    cases hs : s.mesh <;> simp_all

theorem addSpheres_cases (s s' : Scene T) (c : List (Vec3 T)) (r : List T) (i : Nat)
    (h : s.addSpheres c r = .ok (s', i)) :
    ((s.spheres.isSome = true ∨ s.committed = true) ∧ s' = s ∧ i = invalidId) ∨
    (s.spheres = none ∧ s.committed = false ∧ i = s.geometries ∧
      ∃ coll, SphereColl.make c r = .ok coll ∧
        s' = { s with spheres := some ⟨coll, [], s.geometries⟩, geometries := s.geometries + 1 }) := by
  unfold Scene.addSpheres at h
  split at h
  · rename_i hc
    rw [run_bind_eq_ok] at h
    obtain ⟨coll, h1, h⟩ := h
    simp only [run_pure, Except.ok.injEq, Prod.mk.injEq] at h
    simp at hc
    exact .inr ⟨hc.1, hc.2, h.2.symm, coll, h1, h.1.symm⟩
  · rename_i hc
    simp only [run_pure, Except.ok.injEq, Prod.mk.injEq] at h
    refine .inl ⟨?_, h.1.symm, h.2.symm⟩
    cases hs : s.spheres <;> simp_all

theorem addPlanes_cases (s s' : Scene T) (c : List (Vec3 T)) (dx dy : List T) (r : List (Mat3 T)) (i : Nat)
    (h : s.addPlanes c dx dy r = .ok (s', i)) :
    ((s.planes.isSome = true ∨ s.committed = true) ∧ s' = s ∧ i = invalidId) ∨
    (s.planes = none ∧ s.committed = false ∧ i = s.geometries ∧
      ∃ coll, PlaneColl.make c dx dy r = .ok coll ∧
        s' = { s with planes := some ⟨coll, [], s.geometries⟩, geometries := s.geometries + 1 }) := by
  unfold Scene.addPlanes at h
  split at h
  · rename_i hc
    rw [run_bind_eq_ok] at h
    obtain ⟨coll, h1, h⟩ := h
    simp only [run_pure, Except.ok.injEq, Prod.mk.injEq] at h
    simp at hc
    exact .inr ⟨hc.1, hc.2, h.2.symm, coll, h1, h.1.symm⟩
  · rename_i hc
    simp only [run_pure, Except.ok.injEq, Prod.mk.injEq] at h
    refine .inl ⟨?_, h.1.symm, h.2.symm⟩
    cases hs : s.planes <;> simp_all

theorem addCylinders_cases (s s' : Scene T) (c : List (Vec3 T)) (a b hh : List T) (r : List (Mat3 T)) (i : Nat)
    (h : s.addCylinders c a b hh r = .ok (s', i)) :
    ((s.cylinders.isSome = true ∨ s.committed = true) ∧ s' = s ∧ i = invalidId) ∨
    (s.cylinders = none ∧ s.committed = false ∧ i = s.geometries ∧
      ∃ coll, CylColl.make c a b hh r = .ok coll ∧
        s' = { s with cylinders := some ⟨coll, [], s.geometries⟩, geometries := s.geometries + 1 }) := by
  unfold Scene.addCylinders at h
  split at h
  · rename_i hc
    rw [run_bind_eq_ok] at h
    obtain ⟨coll, h1, h⟩ := h
    simp only [run_pure, Except.ok.injEq, Prod.mk.injEq] at h
    simp at hc
    exact .inr ⟨hc.1, hc.2, h.2.symm, coll, h1, h.1.symm⟩
  · rename_i hc
    simp only [run_pure, Except.ok.injEq, Prod.mk.injEq] at h
    refine .inl ⟨?_, h.1.symm, h.2.symm⟩
    cases hs : s.cylinders <;> simp_all

/-- all additions at once -/
theorem add_cases (part : StdPartition) (s s' : Scene T) (c : Call T) (i : Nat) (h : c.exec part s = .ok (s', some i)) :
    ((c.occupied s = true ∨ s.committed = true) ∧ s' = s ∧ i = invalidId) ∨
    (c.occupied s = false ∧ s.committed = false ∧ i = s.geometries ∧ s'.geometries = s.geometries + 1 ∧
      s'.count = s.count + 1 ∧ s'.committed = false) := by
  cases c with
  | addMesh v f =>
    simp only [Call.exec] at h
    rw [run_bind_eq_ok] at h
    obtain ⟨⟨s1, j⟩, h1, h⟩ := h
    simp at h
    obtain ⟨rfl, rfl⟩ := h
    rcases addMesh_cases _ _ _ _ _ h1 with h | ⟨h2, h3, h4, coll, _, rfl⟩
    · exact .inl h
    · exact .inr ⟨by simp [Call.occupied, h2], h3, h4, rfl, by simp [Scene.count, h2]; omega, h3⟩
  | addSpheres v f =>
    simp only [Call.exec] at h
    rw [run_bind_eq_ok] at h
    obtain ⟨⟨s1, j⟩, h1, h⟩ := h
    simp at h
    obtain ⟨rfl, rfl⟩ := h
    rcases addSpheres_cases _ _ _ _ _ h1 with h | ⟨h2, h3, h4, coll, _, rfl⟩
    · exact .inl h
    · exact .inr ⟨by simp [Call.occupied, h2], h3, h4, rfl, by simp [Scene.count, h2]; omega, h3⟩
  | addPlanes v f g h' =>
    simp only [Call.exec] at h
    rw [run_bind_eq_ok] at h
    obtain ⟨⟨s1, j⟩, h1, h⟩ := h
    simp at h
    obtain ⟨rfl, rfl⟩ := h
    rcases addPlanes_cases _ _ _ _ _ _ _ h1 with h | ⟨h2, h3, h4, coll, _, rfl⟩
    · exact .inl h
    · exact .inr ⟨by simp [Call.occupied, h2], h3, h4, rfl, by simp [Scene.count, h2]; omega, h3⟩
  | addCylinders v f g h' k =>
    simp only [Call.exec] at h
    rw [run_bind_eq_ok] at h
    obtain ⟨⟨s1, j⟩, h1, h⟩ := h
    simp at h
    obtain ⟨rfl, rfl⟩ := h
    rcases addCylinders_cases _ _ _ _ _ _ _ _ h1 with h | ⟨h2, h3, h4, coll, _, rfl⟩
    · exact .inl h
    · exact .inr ⟨by simp [Call.occupied, h2], h3, h4, rfl, by simp [Scene.count, h2], h3⟩
  | commit =>
    simp only [Call.exec] at h
    rw [run_bind_eq_ok] at h
    obtain ⟨⟨s1, j⟩, h1, h⟩ := h
    simp at h

theorem commitPart_isSome (part : StdPartition) (o : BuildOptions) (tc : C → Collection T P) (p q : Option (Part C T P))
    (h : commitPart part o tc p = .ok q) : q.isSome = p.isSome := by
  cases p with
  | none => simp [commitPart] at h; subst h; rfl
  | some p =>
    simp only [commitPart] at h
    rw [run_bind_eq_ok] at h
    obtain ⟨_, _, h⟩ := h
    simp at h; subst h; rfl

theorem commit_cases (part : StdPartition) (s s' : Scene T) (b : Bool) (h : s.commit part = .ok (s', b)) :
    b = true ∧ s'.committed = true ∧ s'.geometries = s.geometries ∧ s'.count = s.count ∧ s'.options = s.options ∧
      commitPart part s.options MeshColl.toCollection s.mesh = .ok s'.mesh ∧
      commitPart part s.options SphereColl.toCollection s.spheres = .ok s'.spheres ∧
      commitPart part s.options PlaneColl.toCollection s.planes = .ok s'.planes ∧
      commitPart part s.options CylColl.toCollection s.cylinders = .ok s'.cylinders := by
  unfold Scene.commit at h
  rw [run_bind_eq_ok] at h
  obtain ⟨a, h1, h⟩ := h
  rw [run_bind_eq_ok] at h
  obtain ⟨b', h2, h⟩ := h
  rw [run_bind_eq_ok] at h
  obtain ⟨c, h3, h⟩ := h
  rw [run_bind_eq_ok] at h
  obtain ⟨d, h4, h⟩ := h
  simp only [run_pure, Except.ok.injEq, Prod.mk.injEq] at h
  obtain ⟨rfl, rfl⟩ := h
  refine ⟨rfl, rfl, rfl, ?_, rfl, h1, h2, h3, h4⟩
  simp [Scene.count, commitPart_isSome _ _ _ _ _ h1, commitPart_isSome _ _ _ _ _ h2, commitPart_isSome _ _ _ _ _ h3,
    commitPart_isSome _ _ _ _ _ h4]

theorem History.geometries_eq {s : Scene T} {rs : List Nat} (h : History s rs) :
    s.geometries = s.count ∧ rs.filter (· ≠ invalidId) = List.range s.geometries := by
  induction h with
  | init => exact ⟨rfl, rfl⟩
  | add part s s' rs c i h hc ih =>
    rcases add_cases _ _ _ _ _ hc with ⟨_, rfl, rfl⟩ | ⟨_, _, rfl, h4, h5, _⟩
    · refine ⟨ih.1, ?_⟩
      rw [List.filter_append, ih.2]; simp
    · have hne : s.geometries ≠ invalidId := by
        have := s.count_le
        rw [ih.1]; unfold invalidId; omega
      refine ⟨by omega, ?_⟩
      rw [List.filter_append, ih.2, h4, List.range_succ]
      simp [hne]
  | commit part s s' rs h hc ih =>
    simp only [Call.exec] at hc
    rw [run_bind_eq_ok] at hc
    obtain ⟨⟨s1, b⟩, h1, h2⟩ := hc
    simp at h2; subst h2
    obtain ⟨_, _, h3, h4, _⟩ := commit_cases _ _ _ _ h1
    exact ⟨by rw [h3, h4, ih.1], by rw [h3]; exact ih.2⟩

/-! ### what a part of a reachable scene looks like -/

/-- the collection comes from the constructor; no nodes before commit; afterwards the first nodes are a built tree -/
def PartOk (made : C → Prop) (tc : C → Collection T P) (o : BuildOptions) (committed : Bool) (p : Option (Part C T P)) :
    Prop :=
  ∀ q, p = some q → made q.coll ∧ (committed = false → q.nodes = []) ∧
    (committed = true → ∃ t more, Built (tc q.coll) o 0 (List.range (tc q.coll).size) t ∧ q.nodes = t.layout 0 ++ more)

/-- invariant of reachable scenes -/
structure SceneOk (s : Scene T) : Prop where
  options : s.options = BuildOptions.default
  mesh : PartOk (fun c => ∃ v f, MeshColl.make v f = .ok c) MeshColl.toCollection s.options s.committed s.mesh
  spheres : PartOk (fun c => ∃ v f, SphereColl.make v f = .ok c) SphereColl.toCollection s.options s.committed s.spheres
  planes : PartOk (fun c => ∃ v f g h, PlaneColl.make v f g h = .ok c) PlaneColl.toCollection s.options s.committed
    s.planes
  cylinders : PartOk (fun c => ∃ v f g h i, CylColl.make v f g h i = .ok c) CylColl.toCollection s.options s.committed
    s.cylinders

theorem PartOk.commit {made : C → Prop} {tc : C → Collection T P} {o : BuildOptions} {b : Bool}
    {p q : Option (Part C T P)} (h : PartOk made tc o b p) (part : StdPartition)
    (hc : commitPart part o tc p = .ok q) : PartOk made tc o true q := by
  cases p with
  | none => simp [commitPart] at hc; subst hc; intro q h; simp at h
  | some p =>
    obtain ⟨h1, h2, h3⟩ := h p rfl
    simp only [commitPart] at hc
    rw [run_bind_eq_ok] at hc
    obtain ⟨⟨nodes, st⟩, h4, hc⟩ := hc
    simp at hc
    subst hc
    intro q hq
    obtain rfl := Option.some.inj hq
    refine ⟨h1, by simp, fun _ => ?_⟩
    obtain ⟨t, bad, h5, _, h6⟩ := build_ok _ _ _ _ _ h4
    simp only [Prod.mk.injEq] at h6
    cases b with
    | false =>
      rw [h2 rfl] at h6
      exact ⟨t, [], h5, by simpa using h6.1⟩
    | true =>
      obtain ⟨t', more, h7, h8⟩ := h3 rfl
      exact ⟨t', more ++ t.layout p.nodes.length, h7, by simp only; rw [h6.1, h8, List.append_assoc]⟩

theorem History.ok {s : Scene T} {rs : List Nat} (h : History s rs) : SceneOk s := by
  induction h with
  | init => exact ⟨rfl, by simp [PartOk, Scene.init], by simp [PartOk, Scene.init], by simp [PartOk, Scene.init],
      by simp [PartOk, Scene.init]⟩
  | commit part s s' rs h hc ih =>
    simp only [Call.exec] at hc
    rw [run_bind_eq_ok] at hc
    obtain ⟨⟨s1, b⟩, h1, h2⟩ := hc
    simp at h2; subst h2
    obtain ⟨_, h2, _, _, h3, h4, h5, h6, h7⟩ := commit_cases _ _ _ _ h1
    refine ⟨h3.trans ih.options, ?_, ?_, ?_, ?_⟩ <;> rw [h2, h3]
    · exact ih.mesh.commit part h4
    · exact ih.spheres.commit part h5
    · exact ih.planes.commit part h6
    · exact ih.cylinders.commit part h7
  | add part s s' rs c i h hc ih =>
    cases c with
    | addMesh v f =>
      simp only [Call.exec] at hc
      rw [run_bind_eq_ok] at hc
      obtain ⟨⟨s1, j⟩, h1, h⟩ := hc
      simp at h
      obtain ⟨rfl, rfl⟩ := h
      rcases addMesh_cases _ _ _ _ _ h1 with ⟨_, rfl, _⟩ | ⟨h2, h3, h4, coll, h5, rfl⟩
      · exact ih
      · refine ⟨ih.options, ?_, ih.spheres, ih.planes, ih.cylinders⟩
        intro q hq
        obtain rfl := Option.some.inj hq
        exact ⟨⟨v, f, h5⟩, fun _ => rfl, fun hh => by simp only at hh; rw [h3] at hh; simp at hh⟩
    | addSpheres v f =>
      simp only [Call.exec] at hc
      rw [run_bind_eq_ok] at hc
      obtain ⟨⟨s1, j⟩, h1, h⟩ := hc
      simp at h
      obtain ⟨rfl, rfl⟩ := h
      rcases addSpheres_cases _ _ _ _ _ h1 with ⟨_, rfl, _⟩ | ⟨h2, h3, h4, coll, h5, rfl⟩
      · exact ih
      · refine ⟨ih.options, ih.mesh, ?_, ih.planes, ih.cylinders⟩
        intro q hq
        obtain rfl := Option.some.inj hq
        exact ⟨⟨v, f, h5⟩, fun _ => rfl, fun hh => by simp only at hh; rw [h3] at hh; simp at hh⟩
    | addPlanes v f g k =>
      simp only [Call.exec] at hc
      rw [run_bind_eq_ok] at hc
      obtain ⟨⟨s1, j⟩, h1, h⟩ := hc
      simp at h
      obtain ⟨rfl, rfl⟩ := h
      rcases addPlanes_cases _ _ _ _ _ _ _ h1 with ⟨_, rfl, _⟩ | ⟨h2, h3, h4, coll, h5, rfl⟩
      · exact ih
      · refine ⟨ih.options, ih.mesh, ih.spheres, ?_, ih.cylinders⟩
        intro q hq
        obtain rfl := Option.some.inj hq
        exact ⟨⟨v, f, g, k, h5⟩, fun _ => rfl, fun hh => by simp only at hh; rw [h3] at hh; simp at hh⟩
    | addCylinders v f g k l =>
      simp only [Call.exec] at hc
      rw [run_bind_eq_ok] at hc
      obtain ⟨⟨s1, j⟩, h1, h⟩ := hc
      simp at h
      obtain ⟨rfl, rfl⟩ := h
      rcases addCylinders_cases _ _ _ _ _ _ _ _ h1 with ⟨_, rfl, _⟩ | ⟨h2, h3, h4, coll, h5, rfl⟩
      · exact ih
      · refine ⟨ih.options, ih.mesh, ih.spheres, ih.planes, ?_⟩
        intro q hq
        obtain rfl := Option.some.inj hq
        exact ⟨⟨v, f, g, k, l, h5⟩, fun _ => rfl, fun hh => by simp only at hh; rw [h3] at hh; simp at hh⟩
    | commit =>
      simp only [Call.exec] at hc
      rw [run_bind_eq_ok] at hc
      obtain ⟨⟨s1, j⟩, h1, h⟩ := hc
      simp at h

theorem Tree.layout_represents {t : Tree T P} (h : t.AxesOk) (more : List (Node T P)) :
    Represents (t.layout 0 ++ more) 0 t ∧ t.numNodes ≤ (t.layout 0 ++ more).length := by
  have := layout_occupies t h [] more
  simp only [List.nil_append, List.length_nil] at this
  exact ⟨this.represents, by simp⟩

/-- a committed part stores a built tree at its root -/
theorem PartOk.tree {made : C → Prop} {tc : C → Collection T P} {o : BuildOptions}
    {q : Part C T P} (h : PartOk made tc o true (some q)) :
    ∃ t, Built (tc q.coll) o 0 (List.range (tc q.coll).size) t ∧ Represents q.nodes 0 t ∧
      t.numNodes ≤ q.nodes.length := by
  obtain ⟨_, _, h3⟩ := h q rfl
  obtain ⟨t, more, h4, h5⟩ := h3 rfl
  have := Tree.layout_represents h4.axesOk more
  exact ⟨t, h4, by rw [h5]; exact this.1, by rw [h5]; exact this.2⟩

theorem intersectPart_recommit {made : C → Prop} {tc : C → Collection T P} {o : BuildOptions}
    {p q : Option (Part C T P)} (h : PartOk made tc o true p) (part : StdPartition)
    (hc : commitPart part o tc p = .ok q) (ix : C → Intersector T P I) (always : Bool) (ray : Ray T)
    (st : RayHit T × RayHit T × Bool) : intersectPart ix always ray q st = intersectPart ix always ray p st := by
  cases p with
  | none => simp [commitPart] at hc; subst hc; rfl
  | some p =>
    obtain ⟨t, _, h1, h2⟩ := h.tree
    simp only [commitPart] at hc
    rw [run_bind_eq_ok] at hc
    obtain ⟨⟨nodes, st⟩, h4, hc⟩ := hc
    simp at hc
    subst hc
    obtain ⟨t, bad, h5, _, h6⟩ := build_ok _ _ _ _ _ h4
    simp only [Prod.mk.injEq] at h6
    obtain ⟨temp, rh, hit⟩ := st
    simp only [intersectPart, h6.1]
    rw [traverse_append _ _ _ _ _ _ h1 h2]

theorem commitPart_again (part : StdPartition) (o : BuildOptions) (tc : C → Collection T P) (p q : Option (Part C T P))
    (h : commitPart part o tc p = .ok q) : ∃ r, commitPart part o tc q = .ok r := by
  cases p with
  | none => simp [commitPart] at h; subst h; exact ⟨none, rfl⟩
  | some p =>
    simp only [commitPart] at h
    rw [run_bind_eq_ok] at h
    obtain ⟨⟨nodes, st⟩, h4, hc⟩ := h
    simp at hc
    subst hc
    rw [build_eq, run_bind_eq_ok] at h4
    obtain ⟨tb, h5, _⟩ := h4
    simp only [commitPart, build_eq, h5, run_bind_ok]
    exact ⟨_, rfl⟩

end Blazert
