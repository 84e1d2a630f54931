/- Every reported hit was found by the test of the primitive it names, in any arithmetic. -/
import Verif.Proofs.Safe
import Verif.Spec.Source

set_option autoImplicit false
set_option linter.unusedSectionVars false

namespace Blazert
open Scalar

variable {T P I C : Type} [Scalar T]

theorem traverse_source (hlt : IrreflLt T) (ix : Intersector T P I) (nodes : List (Node T P)) (ray : Ray T) (temp rh : RayHit T)
    (t : Tree T P) (hrep : Represents nodes 0 t) (hn : t.numNodes ≤ nodes.length) (Start : I → Prop)
    (hstart : Start (ix.prepare ray)) (hprep : ix.hitDistance (ix.prepare ray) = ray.maxHit)
    (hkeep : ∀ p s, Start s → Start (ix.isect s p ray).1)
    (hmiss : ∀ p s, (ix.isect s p ray).2 = false → (ix.isect s p ray).1 = s)
    (h : traverse ix nodes ray temp = .ok (true, rh)) :
    ∃ p ∈ t.prims, ∃ s0 s, Start s0 ∧ ix.isect s0 p ray = (s, true) ∧ lt (ix.hitDistance s) ray.maxHit = true ∧
      ix.post s temp = .ok rh := by
  rcases traverse_J ix nodes ray temp (fun s => Start s ∧ (s = ix.prepare ray ∨
      ∃ p ∈ t.prims, ∃ s0, Start s0 ∧ ix.isect s0 p ray = (s, true))) t hrep hn
    (fun p hp s hs => by
      refine ⟨hkeep p s hs.1, ?_⟩
      cases hq : (ix.isect s p ray).2 with
      | false => rw [hmiss p s hq]; exact hs.2
      | true => exact .inr ⟨p, hp, s, hs.1, by rw [← hq]⟩) ⟨hstart, .inl rfl⟩ with e | ⟨s, ⟨_, hs⟩, e⟩
  · rw [e] at h; simp at h
  · rw [e] at h
    unfold traverseFinish at h
    simp only at h
    split at h
    · rename_i hh
      rw [run_bind_eq_ok] at h
      obtain ⟨rh', h1, h⟩ := h
      simp only [run_pure, Except.ok.injEq, Prod.mk.injEq, true_and] at h
      subst h
      rcases hs with rfl | ⟨p, hp, s0, h2, h3⟩
      · rw [hprep, hlt] at hh; simp at hh
      · exact ⟨p, hp, s0, s, h2, h3, hh, h1⟩
    · simp at h

theorem intersectPart_source (ix : C → Intersector T P I) (always : Bool) (ray : Ray T) (p : Option (Part C T P))
    (st st' : RayHit T × RayHit T × Bool) (h : intersectPart ix always ray p st = .ok st') :
    st'.2 = st.2 ∨ ∃ q rh, p = some q ∧ traverse (ix q.coll) q.nodes ray st.1 = .ok (true, rh) ∧
      st'.2 = ({ rh with geomId := q.geomId }, true) := by
  obtain ⟨temp, rh, hit⟩ := st
  cases p with
  | none =>
    simp only [intersectPart, Except.ok.injEq] at h
    subst h; exact .inl rfl
  | some p =>
    simp only [intersectPart] at h
    rw [run_bind_eq_ok] at h
    obtain ⟨⟨b, rh'⟩, h1, h⟩ := h
    simp only at h
    split at h
    · rename_i hc
      simp only [run_pure, Except.ok.injEq] at h
      subst h
      have : b = true := by simp at hc; exact hc.1
      subst this
      exact .inr ⟨p, rh', rfl, h1, rfl⟩
    · simp only [run_pure, Except.ok.injEq] at h
      subst h; exact .inl rfl

/-- what a committed part contributes -/
theorem part_reportedBy (hlt : IrreflLt T) (ix : C → Intersector T P I) (always : Bool) (ray : Ray T) {made : C → Prop}
    {tc : C → Collection T P} {o : BuildOptions} (p : Option (Part C T P)) (hp : PartOk made tc o true p)
    (Start : I → Prop) (hstart : ∀ c, Start ((ix c).prepare ray)) (hprep : ∀ c, (ix c).hitDistance ((ix c).prepare ray) = ray.maxHit)
    (hkeep : ∀ c p s, Start s → Start ((ix c).isect s p ray).1)
    (hmiss : ∀ c p s, ((ix c).isect s p ray).2 = false → ((ix c).isect s p ray).1 = s)
    (hid : ∀ c i q s0 s temp rh, (tc c).prim i = .ok q → (ix c).isect s0 q ray = (s, true) → (ix c).post s temp = .ok rh →
      rh.primId = i ∧ rh.hitDistance = (ix c).hitDistance s)
    (st st' : RayHit T × RayHit T × Bool) (h : intersectPart ix always ray p st = .ok st') :
    st'.2 = st.2 ∨ ∃ q, p = some q ∧ ReportedBy (ix q.coll) (tc q.coll) Start ray q.geomId st'.2.1 ∧ st'.2.2 = true ∧
      st'.2.1.geomId = q.geomId := by
  rcases intersectPart_source ix always ray p st st' h with h | ⟨q, rh, rfl, h1, h2⟩
  · exact .inl h
  · obtain ⟨t, t1, t2, t3⟩ := hp.tree
    obtain ⟨q', hq', s0, s, k1, k2, k3, k4⟩ := traverse_source hlt (ix q.coll) q.nodes ray st.1 rh t t2 t3 Start (hstart _) (hprep _)
      (hkeep _) (hmiss _) h1
    obtain ⟨i, _, hi⟩ := t1.prim_mem hq'
    obtain ⟨e1, e2⟩ := hid _ _ _ _ _ _ _ hi k2 k4
    refine .inr ⟨q, rfl, ?_, by rw [h2], by rw [h2]⟩
    rw [h2]
    refine ⟨q', s0, s, st.1, rh, ?_, k1, k2, e2.symm, ?_, k4, rfl⟩
    · simp only [e1]; exact hi
    · simp only [e2]; exact k3

/-! ### the four kinds -/

theorem sphereIntersect_frame (s : SphereI T) (p : Sphere T) (ray : Ray T) :
    sphereIntersect s p ray = (s, false) ∨ ∃ v, sphereIntersect s p ray = ({ s with hd := Vec3.norm v, primId := p.primId }, true) := by
  unfold sphereIntersect
  dsimp only
  split_ifs <;> first | exact .inl rfl | exact .inr ⟨_, rfl⟩

theorem triIntersect_frame (s : TriI T) (p : Triangle T) (ray : Ray T) :
    triIntersect s p ray = (s, false) ∨ ∃ x u, triIntersect s p ray = ({ s with hd := x, uv := u, primId := p.primId }, true) := by
  unfold triIntersect
  dsimp only
  split_ifs <;> simp

/-- the test leaves the state alone, or it records a normal, a distance and the id -/
def Frame (s : PlaneI T) (id : Nat) (r : PlaneI T × Bool) : Prop :=
  r = (s, false) ∨ ∃ n v, r = ({ s with normal := n, hd := Vec3.norm v, primId := id }, true)

theorem Frame.record (s : PlaneI T) (n : Vec3 T) (t : T) (d : Vec3 T) (id : Nat) : Frame s id (s.record n t d id) :=
  .inr ⟨_, _, rfl⟩

theorem Frame.ite {s : PlaneI T} {id : Nat} {c : Prop} [Decidable c] {a b : PlaneI T × Bool} (ha : Frame s id a) (hb : Frame s id b) :
    Frame s id (if c then a else b) := by
  split
  · exact ha
  · exact hb

theorem planeIntersect_frame (s : PlaneI T) (p : Plane T) (ray : Ray T) : Frame s p.primId (planeIntersect s p ray) := by
  unfold planeIntersect
  dsimp only
  iterate 9 refine .ite (.record ..) ?_
  exact .inl rfl

theorem cylLateralOutside_frame (s : PlaneI T) (p : Cylinder T) (org dir : Vec3 T) :
    Frame s p.primId (cylLateralOutside s p org dir) := by
  unfold cylLateralOutside
  dsimp only
  split_ifs <;> first | exact .inl rfl | exact .record ..

theorem cylAboveBelow_frame (s : PlaneI T) (p : Cylinder T) (org dir : Vec3 T) (cap nz : T) :
    Frame s p.primId (cylAboveBelow s p org dir cap nz) := by
  unfold cylAboveBelow
  dsimp only
  split_ifs <;> first | exact .inl rfl | exact .record .. | exact cylLateralOutside_frame ..

theorem cylCapsInside_frame (s : PlaneI T) (p : Cylinder T) (org dir : Vec3 T) :
    Frame s p.primId (cylCapsInside s p org dir) := by
  unfold cylCapsInside
  dsimp only
  split_ifs <;> first | exact .inl rfl | exact .record ..

theorem cylInside_frame (s : PlaneI T) (p : Cylinder T) (org dir : Vec3 T) : Frame s p.primId (cylInside s p org dir) := by
  unfold cylInside
  dsimp only
  split_ifs <;> first | exact .inl rfl | exact .record .. | exact cylCapsInside_frame ..

theorem cylIntersect_frame (s : PlaneI T) (p : Cylinder T) (ray : Ray T) : Frame s p.primId (cylIntersect s p ray) := by
  unfold cylIntersect
  dsimp only
  split_ifs <;> first | exact .inl rfl | exact cylAboveBelow_frame .. | exact cylLateralOutside_frame .. | exact cylInside_frame ..

theorem Frame.start {ray : Ray T} {s : PlaneI T} {id : Nat} {r : PlaneI T × Bool} (h : Frame s id r) (hs : PlaneStart ray s) :
    PlaneStart ray r.1 := by
  rcases h with rfl | ⟨n, x, rfl⟩ <;> exact hs

theorem Frame.miss {s : PlaneI T} {id : Nat} {r : PlaneI T × Bool} (h : Frame s id r) (hr : r.2 = false) : r.1 = s := by
  rcases h with rfl | ⟨n, x, rfl⟩
  · rfl
  · simp at hr

theorem Frame.post {s s' : PlaneI T} {id : Nat} {r : PlaneI T × Bool} (h : Frame s id r) (hr : r = (s', true)) {temp rh : RayHit T}
    (hp : planePost s' temp = .ok rh) : rh.primId = id ∧ rh.hitDistance = s'.hd := by
  simp only [planePost, Except.ok.injEq] at hp
  subst hp
  rcases h with rfl | ⟨n, x, rfl⟩
  · simp at hr
  · simp only [Prod.mk.injEq, and_true] at hr
    subst hr; exact ⟨rfl, rfl⟩

theorem CylColl.prim_ok {c : CylColl T} {i : Nat} {p : Cylinder T} (h : c.toCollection.prim i = .ok p) :
    p.primId = i ∧ c.centers[i]? = some p.center ∧ c.as[i]? = some p.a ∧ c.bs[i]? = some p.b ∧ c.heights[i]? = some p.height ∧
      c.rotations[i]? = some p.rotation := by
  simp only [CylColl.toCollection] at h
  rw [run_bind_eq_ok] at h
  obtain ⟨x, hx, h⟩ := h
  rw [run_bind_eq_ok] at h
  obtain ⟨y, hy, h⟩ := h
  rw [run_bind_eq_ok] at h
  obtain ⟨z, hz, h⟩ := h
  rw [run_bind_eq_ok] at h
  obtain ⟨w, hw, h⟩ := h
  rw [run_bind_eq_ok] at h
  obtain ⟨v, hv, h⟩ := h
  simp only [run_pure, Except.ok.injEq] at h
  subst h
  exact ⟨rfl, lookup_eq_ok.1 hx, lookup_eq_ok.1 hy, lookup_eq_ok.1 hz, lookup_eq_ok.1 hw, lookup_eq_ok.1 hv⟩

theorem PlaneColl.prim_id {c : PlaneColl T} {i : Nat} {p : Plane T} (h : c.toCollection.prim i = .ok p) : p.primId = i := by
  simp only [PlaneColl.toCollection] at h
  rw [run_bind_eq_ok] at h
  obtain ⟨x, hx, h⟩ := h
  rw [run_bind_eq_ok] at h
  obtain ⟨y, hy, h⟩ := h
  rw [run_bind_eq_ok] at h
  obtain ⟨z, hz, h⟩ := h
  rw [run_bind_eq_ok] at h
  obtain ⟨w, hw, h⟩ := h
  simp only [run_pure, Except.ok.injEq] at h
  subst h
  rfl

theorem spherePost_fields {c : SphereColl T} {s : SphereI T} {temp rh : RayHit T} (h : spherePost c s temp = .ok rh) :
    rh.primId = s.primId ∧ rh.hitDistance = s.hd := by
  unfold spherePost at h
  rw [run_bind_eq_ok] at h
  obtain ⟨x, hx, h⟩ := h
  simp only [run_pure, Except.ok.injEq] at h
  subst h
  exact ⟨rfl, rfl⟩

theorem triPost_fields {c : MeshColl T} {s : TriI T} {temp rh : RayHit T} (h : triPost c s temp = .ok rh) :
    rh.primId = s.primId ∧ rh.hitDistance = s.hd := by
  unfold triPost at h
  rw [run_bind_eq_ok] at h
  obtain ⟨x, hx, h⟩ := h
  rw [run_bind_eq_ok] at h
  obtain ⟨y, hy, h⟩ := h
  rw [run_bind_eq_ok] at h
  obtain ⟨z, hz, h⟩ := h
  rw [run_bind_eq_ok] at h
  obtain ⟨w, hw, h⟩ := h
  simp only [run_pure, Except.ok.injEq] at h
  subst h
  exact ⟨rfl, rfl⟩

section
variable (hlt : IrreflLt T) {s : Scene T} (hok : SceneOk s) (hc : s.committed = true) (ray : Ray T) {st st' : RayHit T × RayHit T × Bool}
include hlt hok hc

theorem mesh_reportedBy (h : intersectPart triIx true ray s.mesh st = .ok st') :
    st'.2 = st.2 ∨ ∃ q, s.mesh = some q ∧ ReportedBy (triIx q.coll) q.coll.toCollection (TriStart ray) ray q.geomId st'.2.1 ∧
      st'.2.2 = true ∧ st'.2.1.geomId = q.geomId := by
  have hp := hok.mesh
  rw [hc] at hp
  refine part_reportedBy hlt triIx true ray s.mesh hp (TriStart ray) (fun _ => rfl) (fun _ => rfl) ?_ ?_ ?_ st st' h
  · intro c p s hs
    rcases triIntersect_frame s p ray with e | ⟨x, u, e⟩ <;> simp only [triIx, e] <;> exact hs
  · intro c p s hs
    rcases triIntersect_frame s p ray with e | ⟨x, u, e⟩ <;> simp only [triIx, e] at hs ⊢
    simp at hs
  · intro c i q s0 s temp rh hq hs hr
    obtain ⟨_, _, _, _, _, _, _, _, rfl⟩ := MeshColl.prim_ok hq
    obtain ⟨e1, e2⟩ := triPost_fields hr
    refine ⟨e1.trans ?_, e2⟩
    simp only [triIx] at hs
    rcases triIntersect_frame s0 (Triangle.make _ _ _ i) ray with e | ⟨x, u, e⟩ <;> rw [e] at hs
    · simp at hs
    · simp only [Prod.mk.injEq, and_true] at hs
      subst hs; rfl

theorem spheres_reportedBy (h : intersectPart sphereIx false ray s.spheres st = .ok st') :
    st'.2 = st.2 ∨ ∃ q, s.spheres = some q ∧
      ReportedBy (sphereIx q.coll) q.coll.toCollection (SphereStart ray) ray q.geomId st'.2.1 ∧ st'.2.2 = true ∧
      st'.2.1.geomId = q.geomId := by
  have hp := hok.spheres
  rw [hc] at hp
  refine part_reportedBy hlt sphereIx false ray s.spheres hp (SphereStart ray) (fun _ => ⟨rfl, rfl, rfl⟩) (fun _ => rfl) ?_ ?_ ?_ st st' h
  · intro c p s hs
    rcases sphereIntersect_frame s p ray with e | ⟨x, e⟩ <;> simp only [sphereIx, e] <;> exact hs
  · intro c p s hs
    rcases sphereIntersect_frame s p ray with e | ⟨x, e⟩ <;> simp only [sphereIx, e] at hs ⊢
    simp at hs
  · intro c i q s0 s temp rh hq hs hr
    obtain ⟨e0, _⟩ := SphereColl.prim_ok hq
    obtain ⟨e1, e2⟩ := spherePost_fields hr
    refine ⟨e1.trans ?_, e2⟩
    simp only [sphereIx] at hs
    rcases sphereIntersect_frame s0 q ray with e | ⟨x, e⟩ <;> rw [e] at hs
    · simp at hs
    · simp only [Prod.mk.injEq, and_true] at hs
      subst hs; exact e0

theorem planes_reportedBy (h : intersectPart (fun _ => planeIx) false ray s.planes st = .ok st') :
    st'.2 = st.2 ∨ ∃ q, s.planes = some q ∧ ReportedBy planeIx q.coll.toCollection (PlaneStart ray) ray q.geomId st'.2.1 ∧
      st'.2.2 = true ∧ st'.2.1.geomId = q.geomId := by
  have hp := hok.planes
  rw [hc] at hp
  exact part_reportedBy hlt (fun _ => planeIx) false ray s.planes hp (PlaneStart ray) (fun _ => ⟨rfl, rfl, rfl⟩) (fun _ => rfl)
    (fun c p s hs => Frame.start (planeIntersect_frame s p ray) hs) (fun c p s hs => Frame.miss (planeIntersect_frame s p ray) hs)
    (fun c i q s0 s temp rh hq hs hr => by
      have := Frame.post (planeIntersect_frame s0 q ray) hs hr
      rw [PlaneColl.prim_id hq] at this; exact this) st st' h

theorem cylinders_reportedBy (h : intersectPart (fun _ => cylIx) false ray s.cylinders st = .ok st') :
    st'.2 = st.2 ∨ ∃ q, s.cylinders = some q ∧ ReportedBy cylIx q.coll.toCollection (PlaneStart ray) ray q.geomId st'.2.1 ∧
      st'.2.2 = true ∧ st'.2.1.geomId = q.geomId := by
  have hp := hok.cylinders
  rw [hc] at hp
  exact part_reportedBy hlt (fun _ => cylIx) false ray s.cylinders hp (PlaneStart ray) (fun _ => ⟨rfl, rfl, rfl⟩) (fun _ => rfl)
    (fun c p s hs => Frame.start (cylIntersect_frame s p ray) hs) (fun c p s hs => Frame.miss (cylIntersect_frame s p ray) hs)
    (fun c i q s0 s temp rh hq hs hr => by
      have := Frame.post (cylIntersect_frame s0 q ray) hs hr
      rw [(CylColl.prim_ok hq).1] at this; exact this) st st' h

/-- the record comes from the test of the primitive it names -/
theorem intersect1_reportedBy (rh0 rh : RayHit T) (h : s.intersect1 ray rh0 = .ok (true, rh)) :
    (∃ q, s.mesh = some q ∧ ReportedBy (triIx q.coll) q.coll.toCollection (TriStart ray) ray q.geomId rh) ∨
    (∃ q, s.spheres = some q ∧ ReportedBy (sphereIx q.coll) q.coll.toCollection (SphereStart ray) ray q.geomId rh) ∨
    (∃ q, s.planes = some q ∧ ReportedBy planeIx q.coll.toCollection (PlaneStart ray) ray q.geomId rh) ∨
    (∃ q, s.cylinders = some q ∧ ReportedBy cylIx q.coll.toCollection (PlaneStart ray) ray q.geomId rh) := by
  simp only [Scene.intersect1] at h
  rw [run_bind_eq_ok] at h
  obtain ⟨a, h1, h⟩ := h
  rw [run_bind_eq_ok] at h
  obtain ⟨b, h2, h⟩ := h
  rw [run_bind_eq_ok] at h
  obtain ⟨c, h3, h⟩ := h
  rw [run_bind_eq_ok] at h
  obtain ⟨d, h4, h⟩ := h
  simp only [run_pure, Except.ok.injEq, Prod.mk.injEq] at h
  obtain ⟨hd, rfl⟩ := h
  rcases cylinders_reportedBy hlt hok hc ray h4 with e | ⟨q, e1, e2, _⟩
  · rw [e] at hd ⊢
    rcases planes_reportedBy hlt hok hc ray h3 with e | ⟨q, e1, e2, _⟩
    · rw [e] at hd ⊢
      rcases spheres_reportedBy hlt hok hc ray h2 with e | ⟨q, e1, e2, _⟩
      · rw [e] at hd ⊢
        rcases mesh_reportedBy hlt hok hc ray h1 with e | ⟨q, e1, e2, _⟩
        · rw [e] at hd; simp at hd
        · exact .inl ⟨q, e1, e2⟩
      · exact .inr (.inl ⟨q, e1, e2⟩)
    · exact .inr (.inr (.inl ⟨q, e1, e2⟩))
  · exact .inr (.inr (.inr ⟨q, e1, e2⟩))

end
end Blazert
