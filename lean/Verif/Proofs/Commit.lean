/- Committing a scene of spheres, planes and meshes returns normally (exact arithmetic). -/
import Verif.Proofs.Casts
import Verif.Proofs.Kinds
import Verif.Proofs.Scene

set_option autoImplicit false
set_option linter.unusedSectionVars false

namespace Blazert
open Scalar

variable {F : Fmt ℝ}

theorem le_of_inBox {lo hi c : Vec3 (XF F)} {mn mx p : Vec3 ℝ} (h1 : IsV lo mn) (h2 : IsV hi mx) (h3 : IsV c p)
    (h : InBox mn mx p) (k : Fin 3) : le (lo.get k) (c.get k) = true ∧ le (c.get k) (hi.get k) = true := by
  rw [XF.Is.le (h1.get k) (h3.get k), XF.Is.le (h3.get k) (h2.get k)]
  obtain ⟨⟨a1, a2⟩, ⟨b1, b2⟩, ⟨c1, c2⟩⟩ := h
  match k with
  | 0 => exact ⟨a1, a2⟩
  | 1 => exact ⟨b1, b2⟩
  | 2 => exact ⟨c1, c2⟩

theorem range_mapM_length {α : Type} {f : Nat → Run α} {n : Nat} {l : List α} (h : (List.range n).mapM f = .ok l) :
    l.length = n := by
  rw [mapM_length _ _ _ h, List.length_range]

theorem sphere_wellFormed (hF : F.Exact) {cs : List (Vec3 (XF F))} {rs : List (XF F)} {coll : SphereColl (XF F)}
    (hmake : SphereColl.make cs rs = .ok coll)
    (hgood : ∀ (i : Nat) x y, coll.centers[i]? = some x → coll.radii[i]? = some y → ∃ c r, IsV x c ∧ y.Is r ∧ 0 ≤ r)
    (hrange : ∀ b ∈ coll.boxes, BoxInRange b) : WellFormed coll.toCollection := by
  have hlen : coll.boxes.length = coll.centers.length := by
    unfold SphereColl.make at hmake
    rw [run_bind_eq_ok] at hmake
    obtain ⟨bs, h1, h⟩ := hmake
    simp only [run_pure, Except.ok.injEq] at h
    subst h
    exact range_mapM_length h1
  have get : ∀ i, i < coll.toCollection.size → ∃ c r, coll.toCollection.box i = .ok (sphereBox c r) ∧
      coll.centers[i]? = some c ∧ coll.radii[i]? = some r := by
    intro i hi
    have hi' : i < coll.boxes.length := by rw [hlen]; exact hi
    obtain ⟨c, r, h1, h2, h3⟩ := SphereColl.make_box hmake i _ (List.getElem?_eq_getElem hi')
    exact ⟨c, r, lookup_eq_ok.2 (by rw [← h3, List.getElem?_eq_getElem hi']), h1, h2⟩
  refine ⟨fun i hi => ?_, fun i _ b hb => hrange b (List.mem_of_getElem? (lookup_eq_ok.1 hb)), fun i hi b c hb hc => ?_⟩
  · obtain ⟨c, r, h1, h2, h3⟩ := get i hi
    exact ⟨_, c, _, h1, lookup_eq_ok.2 h2, (SphereColl.make_prim hmake h2 h3).2⟩
  · obtain ⟨c', r, h1, h2, h3⟩ := get i hi
    rw [hb, Except.ok.injEq] at h1
    subst h1
    have := lookup_eq_ok.1 hc
    rw [h2, Option.some.injEq] at this
    subst this
    obtain ⟨C, R, hC, hR, hR0⟩ := hgood i _ _ h2 h3
    refine le_of_inBox (hC.subs hF hR) (hC.adds hF hR) hC ?_
    simp only [InBox, Vec3.subs, Vec3.adds]
    refine ⟨⟨?_, ?_⟩, ⟨?_, ?_⟩, ⟨?_, ?_⟩⟩ <;> linarith

theorem plane_wellFormed (hF : F.Exact) {cs : List (Vec3 (XF F))} {xs ys : List (XF F)} {ms : List (Mat3 (XF F))}
    {coll : PlaneColl (XF F)} (hmake : PlaneColl.make cs xs ys ms = .ok coll)
    (hgood : ∀ (i : Nat) x y z w, coll.centers[i]? = some x → coll.dxs[i]? = some y → coll.dys[i]? = some z →
      coll.rotations[i]? = some w →
      ∃ c dx dy R, IsV x c ∧ y.Is dx ∧ z.Is dy ∧ IsM w R ∧ 0 < dx ∧ 0 < dy ∧ Orthonormal R)
    (hrange : ∀ b ∈ coll.boxes, BoxInRange b) : WellFormed coll.toCollection := by
  have hlen : coll.boxes.length = coll.centers.length := by
    unfold PlaneColl.make at hmake
    rw [run_bind_eq_ok] at hmake
    obtain ⟨bs, h1, h⟩ := hmake
    simp only [run_pure, Except.ok.injEq] at h
    subst h
    exact range_mapM_length h1
  have get : ∀ i, i < coll.toCollection.size → ∃ c x y m, coll.toCollection.box i = .ok (planeBox c x y m) ∧
      coll.centers[i]? = some c ∧ coll.dxs[i]? = some x ∧ coll.dys[i]? = some y ∧ coll.rotations[i]? = some m := by
    intro i hi
    have hi' : i < coll.boxes.length := by rw [hlen]; exact hi
    obtain ⟨c, x, y, m, h1, h2, h3, h4, h5⟩ := PlaneColl.make_box hmake i _ (List.getElem?_eq_getElem hi')
    exact ⟨c, x, y, m, lookup_eq_ok.2 (by rw [← h5, List.getElem?_eq_getElem hi']), h1, h2, h3, h4⟩
  refine ⟨fun i hi => ?_, fun i _ b hb => hrange b (List.mem_of_getElem? (lookup_eq_ok.1 hb)), fun i hi b c hb hc => ?_⟩
  · obtain ⟨c, x, y, m, h1, h2, h3, h4, h5⟩ := get i hi
    refine ⟨_, c, ⟨c, x, y, m, i⟩, h1, lookup_eq_ok.2 h2, ?_⟩
    simp only [PlaneColl.toCollection, lookup_eq_ok.2 h2, lookup_eq_ok.2 h3, lookup_eq_ok.2 h4, lookup_eq_ok.2 h5,
      run_bind_ok]
    rfl
  · obtain ⟨c', x, y, m, h1, h2, h3, h4, h5⟩ := get i hi
    rw [hb, Except.ok.injEq] at h1
    subst h1
    have := lookup_eq_ok.1 hc
    rw [h2, Option.some.injEq] at this
    subst this
    obtain ⟨C, dx, dy, R, hC, hx, hy, hR, hx0, hy0, -⟩ := hgood i _ _ _ _ h2 h3 h4 h5
    obtain ⟨mn, mx, e1, e2, e3, -⟩ := planeBox_is hF c' x y m C dx dy R hC hx hy hR hx0.le hy0.le
    exact le_of_inBox e1 e2 hC e3

theorem mesh_wellFormed (hF : F.Exact) {vs : List (Vec3 (XF F))} {fs : List (Vec3 Nat)} {mesh : MeshColl (XF F)}
    (hmake : MeshColl.make vs fs = .ok mesh) (hgood : ∀ v ∈ mesh.vertices, ∃ A, IsV v A)
    (hrange : ∀ b ∈ mesh.boxes, BoxInRange b) : WellFormed mesh.toCollection := by
  obtain ⟨ev, ef, -, -, ⟨bs, rfl, hbs⟩⟩ := MeshColl.make_ok hmake
  have get : ∀ i, i < mesh.toCollection.size → ∃ f a b c, mesh.faces[i]? = some f ∧ mesh.vertices[f.x]? = some a ∧
      mesh.vertices[f.y]? = some b ∧ mesh.vertices[f.z]? = some c ∧ mesh.toCollection.box i = .ok (triBox a b c) ∧
      mesh.toCollection.center i = .ok (triCenter a b c) := by
    intro i hi
    have hi' : i < fs.length := by rw [← ef]; exact hi
    have hi2 : i < mesh.boxes.length := by rw [← hbs.length_eq]; exact hi'
    obtain ⟨v0, v1, v2, e0, e1, e2, e3⟩ := (List.forall₂_iff_get.1 hbs).2 i hi' hi2
    have hf : fs[i]? = some fs[i] := List.getElem?_eq_getElem hi'
    refine ⟨fs[i], v0, v1, v2, by rw [ef]; exact hf, ?_, ?_, ?_, mesh_box hmake hf e0 e1 e2, mesh_center hmake hf e0 e1 e2⟩
    · rw [ev]; exact e0
    · rw [ev]; exact e1
    · rw [ev]; exact e2
  refine ⟨fun i hi => ?_, fun i _ b hb => hrange b (List.mem_of_getElem? (lookup_eq_ok.1 hb)), fun i hi b c hb hc => ?_⟩
  · obtain ⟨f, a, b, c, h1, h2, h3, h4, h5, h6⟩ := get i hi
    refine ⟨_, _, Triangle.make a b c i, h5, h6, ?_⟩
    simp only [MeshColl.toCollection, lookup_eq_ok.2 h1, lookup_eq_ok.2 h2, lookup_eq_ok.2 h3, lookup_eq_ok.2 h4,
      run_bind_ok]
    rfl
  · obtain ⟨f, v0, v1, v2, h1, h2, h3, h4, h5, h6⟩ := get i hi
    rw [hb, Except.ok.injEq] at h5
    rw [hc, Except.ok.injEq] at h6
    subst h5 h6
    obtain ⟨A, hA⟩ := hgood v0 (List.mem_of_getElem? h2)
    obtain ⟨B, hB⟩ := hgood v1 (List.mem_of_getElem? h3)
    obtain ⟨C, hC⟩ := hgood v2 (List.mem_of_getElem? h4)
    obtain ⟨e1, e2, e3⟩ := triBox_is hA hB hC
    have h3is : (nat 3 : XF F).Is 3 := by simpa using XF.Is.nat hF 3
    have hcen : IsV (triCenter v0 v1 v2) (Vec3.divs (A + B + C) 3) := ((hA.add hF hB).add hF hC).divs hF h3is (by norm_num)
    refine le_of_inBox e1 e2 hcen (e3 _ ⟨1 / 3, 1 / 3, by norm_num, by norm_num, by norm_num, ?_⟩)
    ext <;> simp [bary, Vec3.divs, Vec3.smul] <;> ring

/-- a part of a scene can be committed -/
theorem commitPart_total (hF : F.Exact) {C P : Type} (part : StdPartition) (toColl : C → Collection (XF F) P)
    (p : Option (Part C (XF F) P)) (h : ∀ q, p = some q → WellFormed (toColl q.coll)) :
    ∃ q, commitPart part .default toColl p = .ok q := by
  cases p with
  | none => exact ⟨none, rfl⟩
  | some p =>
    have wf := h p rfl
    have hr := wf.reads
    obtain ⟨out, ho⟩ := build_total part (toColl p.coll) .default p.nodes
      (fun i hi => ⟨_, (hr i hi).choose_spec.choose_spec.choose_spec.1⟩)
      (fun i hi => ⟨_, (hr i hi).choose_spec.choose_spec.choose_spec.2.1⟩)
      (fun i hi => ⟨_, (hr i hi).choose_spec.choose_spec.choose_spec.2.2⟩)
      (.inr (.inr ⟨by decide, castsDefined_of_exact hF _ wf _ (by decide) (by decide)⟩))
    simp only [commitPart, ho, run_bind_ok]
    exact ⟨_, rfl⟩

theorem commit_total (hF : F.Exact) {s : Scene (XF F)} {rs : List Nat} (hist : History s rs) (hgood : s.Good)
    (part : StdPartition) : ∃ s', s.commit part = .ok (s', true) := by
  have hok := hist.ok
  obtain ⟨m, hm⟩ := commitPart_total hF part MeshColl.toCollection s.mesh fun q hq => by
    obtain ⟨⟨v, f, hmake⟩, -⟩ := hok.mesh q hq
    exact mesh_wellFormed hF hmake (hgood.vertices q hq) (hgood.meshRange q hq)
  obtain ⟨sp, hs⟩ := commitPart_total hF part SphereColl.toCollection s.spheres fun q hq => by
    obtain ⟨⟨v, f, hmake⟩, -⟩ := hok.spheres q hq
    exact sphere_wellFormed hF hmake (hgood.spheres q hq) (hgood.sphereRange q hq)
  obtain ⟨pl, hp⟩ := commitPart_total hF part PlaneColl.toCollection s.planes fun q hq => by
    obtain ⟨⟨v, f, g, h, hmake⟩, -⟩ := hok.planes q hq
    exact plane_wellFormed hF hmake (hgood.planes q hq) (hgood.planeRange q hq)
  unfold Scene.commit
  rw [hok.options, hm, run_bind_ok, hs, run_bind_ok, hp, run_bind_ok, hgood.noCylinders]
  exact ⟨_, rfl⟩

section
variable {T P C : Type} [Scalar T]

theorem commitPart_none {part : StdPartition} {o : BuildOptions} {tc : C → Collection T P} {q : Option (Part C T P)}
    (h : commitPart part o tc none = .ok q) : q = none := by
  simp [commitPart] at h; exact h.symm

theorem commitPart_some {part : StdPartition} {o : BuildOptions} {tc : C → Collection T P} {p : Part C T P}
    {q : Option (Part C T P)} (h : commitPart part o tc (some p) = .ok q) : ∃ nodes, q = some { p with nodes := nodes } := by
  simp only [commitPart] at h
  rw [run_bind_eq_ok] at h
  obtain ⟨out, _, h⟩ := h
  simp only [run_pure, Except.ok.injEq] at h
  exact ⟨_, h.symm⟩

/-- `commit` changes only the nodes -/
theorem commitPart_coll {part : StdPartition} {o : BuildOptions} {tc : C → Collection T P} {p q : Option (Part C T P)}
    (h : commitPart part o tc p = .ok q) (q' : Part C T P) (hq : q = some q') :
    ∃ p', p = some p' ∧ q'.coll = p'.coll ∧ q'.geomId = p'.geomId := by
  cases p with
  | none => rw [commitPart_none h] at hq; simp at hq
  | some p =>
    obtain ⟨ns, rfl⟩ := commitPart_some h
    obtain rfl := Option.some.inj hq
    exact ⟨p, rfl, rfl, rfl⟩

/-- with at most as many primitives as fit into a leaf, the tree is a leaf -/
theorem PartOk.leaf {made : C → Prop} {tc : C → Collection T P} {q : Part C T P} {t : Tree T P}
    (h : PartOk made tc .default true (some q)) (ht : Represents q.nodes 0 t) (hn : (tc q.coll).size < 5) : t.height ≤ 0 := by
  obtain ⟨t', h4, h5, _⟩ := h.tree
  obtain rfl := ht.unique h5
  cases h4 with
  | leaf => exact le_rfl
  | branch _ _ il ir mn mx ax l r hb hn' => simp only [List.length_range, BuildOptions.default] at hn'; omega

end

theorem Scene.Plain.commit {s s' : Scene (XF F)} {part : StdPartition} {b : Bool} (h : s.Plain)
    (hc : s.commit part = .ok (s', b)) : s'.Plain := by
  obtain ⟨_, _, _, _, _, h1, h2, h3, h4⟩ := commit_cases _ _ _ _ hc
  refine ⟨⟨?_, ?_, ?_⟩, ?_⟩
  · intro p hp; obtain ⟨p', e1, e2, _⟩ := commitPart_coll h1 p hp; rw [e2]; exact h.vertices p' e1
  · intro p hp; obtain ⟨p', e1, e2, _⟩ := commitPart_coll h2 p hp; rw [e2]; exact h.spheres p' e1
  · intro p hp; obtain ⟨p', e1, e2, _⟩ := commitPart_coll h3 p hp; rw [e2]; exact h.planes p' e1
  · rw [h.noCylinders] at h4; exact commitPart_none h4

theorem Scene.Good.commit {s s' : Scene (XF F)} {part : StdPartition} {b : Bool} (h : s.Good)
    (hc : s.commit part = .ok (s', b)) : s'.Good := by
  obtain ⟨_, _, _, _, _, h1, h2, h3, h4⟩ := commit_cases _ _ _ _ hc
  refine ⟨h.toPlain.commit hc, ⟨?_, ?_, ?_⟩⟩
  · intro p hp; obtain ⟨p', e1, e2, _⟩ := commitPart_coll h1 p hp; rw [e2]; exact h.meshRange p' e1
  · intro p hp; obtain ⟨p', e1, e2, _⟩ := commitPart_coll h2 p hp; rw [e2]; exact h.sphereRange p' e1
  · intro p hp; obtain ⟨p', e1, e2, _⟩ := commitPart_coll h3 p hp; rw [e2]; exact h.planeRange p' e1

end Blazert
