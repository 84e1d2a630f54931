/- Helper lemmas: whole scenes that refer to the caller's containers. -/
import Verif.Proofs.Memory
import Verif.Spec.Scene
import Verif.Samples

set_option autoImplicit false
set_option linter.unusedSectionVars false

namespace Blazert
open Scalar

section
variable {α : Type} {s s' : Store α} {x b i : Nat} {l : List α}

theorem Store.data_ok : s.data x = .ok (b, l) ↔ s.buffer x = some b ∧ s.elems b = some l := by
  unfold Store.data
  cases h : s.buffer x with
  | none => simp
  | some c =>
    simp only
    cases h2 : s.elems c with
    | none =>
      simp only [Option.some.injEq, reduceCtorEq, false_iff, not_and]
      rintro rfl
      rw [h2]; simp
    | some l' =>
      simp only [Except.ok.injEq, Prod.mk.injEq, Option.some.injEq]
      constructor
      · rintro ⟨rfl, rfl⟩; exact ⟨rfl, h2⟩
      · rintro ⟨rfl, h3⟩; rw [h2] at h3; exact ⟨rfl, Option.some.inj h3⟩

theorem Same.data (h : Same s s' x) (hd : s.data x = .ok (b, l)) : s'.data x = .ok (b, l) := by
  rw [Store.data_ok] at hd ⊢
  exact ⟨h.1.trans hd.1, (h.2 b hd.1).trans hd.2⟩

theorem Store.read_ok (h : s.data x = .ok (b, l)) : s.read x = .ok l := by
  unfold Store.read; rw [h]; rfl

theorem Store.of_read (h : s.read x = .ok l) : ∃ b, s.data x = .ok (b, l) := by
  unfold Store.read at h
  cases hd : s.data x with
  | error e => rw [hd] at h; cases h
  | ok d =>
    rw [hd, run_bind_ok] at h
    cases h
    exact ⟨d.1, rfl⟩

theorem Store.elem_ok (h : s.data x = .ok (b, l)) (i : Nat) : s.elem x i = lookup .oobIndex l i := by
  unfold Store.elem; rw [h]; rfl

theorem Store.elemRef_rel (h : s.data x = .ok (b, l)) (i : Nat) :
    RunRel (fun r a => r.buf = b ∧ l[r.idx]? = some a) (s.elemRef x i) (lookup .oobIndex l i) := by
  unfold Store.elemRef
  rw [h, run_bind_ok]
  cases hi : l[i]? with
  | none => simp only [lookup, hi]; exact .error _
  | some a => simp only [lookup, hi]; exact .ok ⟨rfl, hi⟩

theorem Store.deref_ok (h : s.data x = .ok (b, l)) {r : ElemRef} {a : α} (hr : r.buf = b ∧ l[r.idx]? = some a) :
    s.deref r = .ok a := by
  unfold Store.deref
  rw [hr.1, (Store.data_ok.1 h).2]
  simp only [lookup, hr.2]

end

variable {T : Type}

/-! ### The two representations of the primitives -/

/-- a sphere and its representation with a reference into the buffer `b`, which contains `cs` -/
def SphereR (b : Nat) (cs : List (Vec3 T)) (r : SphereRef T) (s : Sphere T) : Prop :=
  (r.center.buf = b ∧ cs[r.center.idx]? = some s.center) ∧ r.radius = s.radius ∧ r.primId = s.primId

/-- a rectangle and its representation with references -/
def PlaneR (b : Nat) (cs : List (Vec3 T)) (d : Nat) (ms : List (Mat3 T)) (r : PlaneRef T) (s : Plane T) : Prop :=
  (r.center.buf = b ∧ cs[r.center.idx]? = some s.center) ∧ (r.rotation.buf = d ∧ ms[r.rotation.idx]? = some s.rotation) ∧
    r.dx = s.dx ∧ r.dy = s.dy ∧ r.primId = s.primId

/-- a triangle and its representation with a reference -/
def TriR (b : Nat) (vs : List (Vec3 T)) (r : TriRef T) (t : Triangle T) : Prop :=
  (r.a.buf = b ∧ vs[r.a.idx]? = some t.a) ∧ r.b = t.b ∧ r.c = t.c ∧ r.primId = t.primId

/-- a cylinder and its representation with references -/
def CylR (b : Nat) (cs : List (Vec3 T)) (d1 : Nat) (va : List T) (d2 : Nat) (vb : List T) (d3 : Nat) (hs : List T) (d4 : Nat)
    (ms : List (Mat3 T)) (r : CylRef) (s : Cylinder T) : Prop :=
  (r.center.buf = b ∧ cs[r.center.idx]? = some s.center) ∧ (r.a.buf = d1 ∧ va[r.a.idx]? = some s.a) ∧
    (r.b.buf = d2 ∧ vb[r.b.idx]? = some s.b) ∧ (r.height.buf = d3 ∧ hs[r.height.idx]? = some s.height) ∧
    (r.rotation.buf = d4 ∧ ms[r.rotation.idx]? = some s.rotation) ∧ r.primId = s.primId

/-- the spheres of a scene, with references and copied -/
structure SphereSim (m : Memory T) (p : Part (SphereRefs T) T (SphereRef T)) (q : Part (SphereColl T) T (Sphere T)) (b : Nat)
    (d : Nat) : Prop where
  centers : m.vecs.data p.coll.centers = .ok (b, q.coll.centers)
  radii : m.nums.data p.coll.radii = .ok (d, q.coll.radii)
  boxes : p.coll.boxes = q.coll.boxes
  geomId : p.geomId = q.geomId
  nodes : NodesRel (SphereR b q.coll.centers) p.nodes q.nodes

/-- the rectangles of a scene, with references and copied -/
structure PlaneSim (m : Memory T) (p : Part (PlaneRefs T) T (PlaneRef T)) (q : Part (PlaneColl T) T (Plane T)) (b d1 d2 d : Nat) :
    Prop where
  centers : m.vecs.data p.coll.centers = .ok (b, q.coll.centers)
  dxs : m.nums.data p.coll.dxs = .ok (d1, q.coll.dxs)
  dys : m.nums.data p.coll.dys = .ok (d2, q.coll.dys)
  rotations : m.mats.data p.coll.rotations = .ok (d, q.coll.rotations)
  boxes : p.coll.boxes = q.coll.boxes
  geomId : p.geomId = q.geomId
  nodes : NodesRel (PlaneR b q.coll.centers d q.coll.rotations) p.nodes q.nodes

/-- the triangles of a scene, with references and copied -/
structure MeshSim (m : Memory T) (p : Part (MeshRefs T) T (TriRef T)) (q : Part (MeshColl T) T (Triangle T)) (b d : Nat) : Prop where
  vertices : m.vecs.data p.coll.vertices = .ok (b, q.coll.vertices)
  faces : m.faces.data p.coll.faces = .ok (d, q.coll.faces)
  boxes : p.coll.boxes = q.coll.boxes
  centers : p.coll.centers = q.coll.centers
  normals : p.coll.vertexNormals = q.coll.vertexNormals
  geomId : p.geomId = q.geomId
  nodes : NodesRel (TriR b q.coll.vertices) p.nodes q.nodes

/-- the cylinders of a scene, with references and copied -/
structure CylSim (m : Memory T) (p : Part (CylRefs T) T CylRef) (q : Part (CylColl T) T (Cylinder T)) (b d1 d2 d3 d : Nat) :
    Prop where
  centers : m.vecs.data p.coll.centers = .ok (b, q.coll.centers)
  as : m.nums.data p.coll.as = .ok (d1, q.coll.as)
  bs : m.nums.data p.coll.bs = .ok (d2, q.coll.bs)
  heights : m.nums.data p.coll.heights = .ok (d3, q.coll.heights)
  rotations : m.mats.data p.coll.rotations = .ok (d, q.coll.rotations)
  boxes : p.coll.boxes = q.coll.boxes
  geomId : p.geomId = q.geomId
  nodes : NodesRel (CylR b q.coll.centers d1 q.coll.as d2 q.coll.bs d3 q.coll.heights d q.coll.rotations) p.nodes q.nodes

/-- both absent, or both present and related; `h` is what the scene refers to -/
inductive OptSim {A B H : Type} (S : A → B → H → Prop) : Option A → Option B → Option H → Prop
  | none : OptSim S none none none
  | some {a : A} {b : B} {h : H} (hs : S a b h) : OptSim S (some a) (some b) (some h)

/-- a scene that keeps references and one that copied -/
structure SceneSim (m : Memory T) (h : Held) (r : RefScene T) (s : Scene T) : Prop where
  options : r.options = s.options
  committed : r.committed = s.committed
  closed : h.closed = s.committed
  geometries : r.geometries = s.geometries
  mesh : OptSim (fun p q h => (∃ b d, MeshSim m p q b d) ∧ h = (p.coll.vertices, p.coll.faces)) r.mesh s.mesh h.mesh
  spheres : OptSim (fun p q h => (∃ b d, SphereSim m p q b d) ∧ h = (p.coll.centers, p.coll.radii)) r.spheres s.spheres h.spheres
  planes : OptSim (fun p q h => (∃ b d1 d2 d, PlaneSim m p q b d1 d2 d) ∧
    h = (p.coll.centers, p.coll.dxs, p.coll.dys, p.coll.rotations)) r.planes s.planes h.planes
  cylinders : OptSim (fun p q h => (∃ b d1 d2 d3 d, CylSim m p q b d1 d2 d3 d) ∧
    h = (p.coll.centers, p.coll.as, p.coll.bs, p.coll.heights, p.coll.rotations)) r.cylinders s.cylinders h.cylinders

section
variable [Scalar T] {m m' : Memory T} {h : Held} {r : RefScene T} {s : Scene T}

theorem OptSim.mono {A B H : Type} {S S' : A → B → H → Prop} {a : Option A} {b : Option B} {h : Option H} (hs : OptSim S a b h)
    (hm : ∀ x y z, h = Option.some z → S x y z → S' x y z) : OptSim S' a b h := by
  cases hs with
  | none => exact .none
  | some hs => exact .some (hm _ _ _ rfl hs)

/-! ### Changes of memory -/

theorem SceneSim.change (hs : SceneSim m h r s) (hk : h.Kept m m') : SceneSim m' h r s where
  options := hs.options
  committed := hs.committed
  closed := hs.closed
  geometries := hs.geometries
  mesh := hs.mesh.mono fun p q z hz ⟨⟨b, d, hm⟩, hh⟩ => by
    obtain ⟨k1, k2⟩ := hk.mesh _ _ (hz.trans (congrArg _ hh))
    exact ⟨⟨b, d, k1.data hm.vertices, k2.data hm.faces, hm.boxes, hm.centers, hm.normals, hm.geomId, hm.nodes⟩, hh⟩
  spheres := hs.spheres.mono fun p q z hz ⟨⟨b, d, hm⟩, hh⟩ => by
    obtain ⟨k1, k2⟩ := hk.spheres _ _ (hz.trans (congrArg _ hh))
    exact ⟨⟨b, d, k1.data hm.centers, k2.data hm.radii, hm.boxes, hm.geomId, hm.nodes⟩, hh⟩
  planes := hs.planes.mono fun p q z hz ⟨⟨b, d1, d2, d, hm⟩, hh⟩ => by
    obtain ⟨k1, k2, k3, k4⟩ := hk.planes _ _ _ _ (hz.trans (congrArg _ hh))
    exact ⟨⟨b, d1, d2, d, k1.data hm.centers, k2.data hm.dxs, k3.data hm.dys, k4.data hm.rotations, hm.boxes, hm.geomId,
      hm.nodes⟩, hh⟩
  cylinders := hs.cylinders.mono fun p q z hz ⟨⟨b, d1, d2, d3, d, hm⟩, hh⟩ => by
    obtain ⟨k1, k2, k3, k4, k5⟩ := hk.cylinders _ _ _ _ _ (hz.trans (congrArg _ hh))
    exact ⟨⟨b, d1, d2, d3, d, k1.data hm.centers, k2.data hm.as, k3.data hm.bs, k4.data hm.heights, k5.data hm.rotations,
      hm.boxes, hm.geomId, hm.nodes⟩, hh⟩

/-! ### Commit -/

theorem SphereRefs.coll_rel {p : Part (SphereRefs T) T (SphereRef T)} {q : Part (SphereColl T) T (Sphere T)} {b d : Nat}
    (h : SphereSim m p q b d) : ∃ c, p.coll.toCollection m = .ok c ∧ CollRel (SphereR b q.coll.centers) c q.coll.toCollection := by
  unfold SphereRefs.toCollection
  rw [Store.read_ok h.centers, run_bind_ok]
  refine ⟨_, rfl, rfl, congrArg (lookup .oobIndex) h.boxes, funext fun i => Store.elem_ok h.centers i, fun i => ?_⟩
  refine (Store.elemRef_rel h.centers i).bind fun x y hxy => ?_
  rw [Store.elem_ok h.radii]
  exact .bindEq _ fun rad => .ok ⟨hxy, rfl, rfl⟩

theorem PlaneRefs.coll_rel {p : Part (PlaneRefs T) T (PlaneRef T)} {q : Part (PlaneColl T) T (Plane T)} {b d1 d2 d : Nat}
    (h : PlaneSim m p q b d1 d2 d) :
    ∃ c, p.coll.toCollection m = .ok c ∧ CollRel (PlaneR b q.coll.centers d q.coll.rotations) c q.coll.toCollection := by
  unfold PlaneRefs.toCollection
  rw [Store.read_ok h.centers, run_bind_ok]
  refine ⟨_, rfl, rfl, congrArg (lookup .oobIndex) h.boxes, funext fun i => Store.elem_ok h.centers i, fun i => ?_⟩
  refine (Store.elemRef_rel h.centers i).bind fun x y hxy => ?_
  rw [Store.elem_ok h.dxs, Store.elem_ok h.dys]
  exact .bindEq _ fun dx => .bindEq _ fun dy => (Store.elemRef_rel h.rotations i).bind fun u v huv => .ok ⟨hxy, huv, rfl, rfl, rfl⟩

theorem CylRefs.coll_rel {p : Part (CylRefs T) T CylRef} {q : Part (CylColl T) T (Cylinder T)} {b d1 d2 d3 d : Nat}
    (h : CylSim m p q b d1 d2 d3 d) : ∃ c, p.coll.toCollection m = .ok c ∧
      CollRel (CylR b q.coll.centers d1 q.coll.as d2 q.coll.bs d3 q.coll.heights d q.coll.rotations) c q.coll.toCollection := by
  unfold CylRefs.toCollection
  rw [Store.read_ok h.centers, run_bind_ok]
  refine ⟨_, rfl, rfl, congrArg (lookup .oobIndex) h.boxes, funext fun i => Store.elem_ok h.centers i, fun i => ?_⟩
  exact (Store.elemRef_rel h.centers i).bind fun _ _ h1 => (Store.elemRef_rel h.as i).bind fun _ _ h2 =>
    (Store.elemRef_rel h.bs i).bind fun _ _ h3 => (Store.elemRef_rel h.heights i).bind fun _ _ h4 =>
    (Store.elemRef_rel h.rotations i).bind fun _ _ h5 => .ok ⟨h1, h2, h3, h4, h5, rfl⟩

theorem MeshRefs.coll_rel {p : Part (MeshRefs T) T (TriRef T)} {q : Part (MeshColl T) T (Triangle T)} {b d : Nat}
    (h : MeshSim m p q b d) : ∃ c, p.coll.toCollection m = .ok c ∧ CollRel (TriR b q.coll.vertices) c q.coll.toCollection := by
  unfold MeshRefs.toCollection
  rw [Store.read_ok h.faces, run_bind_ok]
  refine ⟨_, rfl, rfl, congrArg (lookup .oobIndex) h.boxes, congrArg (lookup .oobIndex) h.centers, fun i => ?_⟩
  simp only [Store.elem_ok h.faces, Store.elem_ok h.vertices]
  refine .bindEq _ fun f => ?_
  unfold Store.elemRef
  rw [h.vertices, run_bind_ok]
  cases hx : q.coll.vertices[f.x]? with
  | none =>
    have : lookup .oobIndex q.coll.vertices f.x = .error .oobIndex := by simp only [lookup, hx]
    rw [this]
    exact .error _
  | some a =>
    have : lookup .oobIndex q.coll.vertices f.x = .ok a := by simp only [lookup, hx]
    simp only [this]
    exact .bindEq _ fun y => .bindEq _ fun z => .ok ⟨⟨rfl, hx⟩, rfl, rfl, rfl⟩

/-- what a commit does to one kind -/
theorem commitRefs_rel {C C' P Q : Type} {part : StdPartition} {o : BuildOptions} {f : C → Run (Collection T Q)}
    {g : C' → Collection T P} {R : Q → P → Prop} {p : Part C T Q} {q : Part C' T P} (hc : ∃ c, f p.coll = .ok c ∧ CollRel R c (g q.coll))
    (hn : NodesRel R p.nodes q.nodes) :
    RunRel (fun p' q' => ∃ ns ns', p' = some { p with nodes := ns } ∧ q' = some { q with nodes := ns' } ∧ NodesRel R ns ns')
      (commitRefs part o f (some p)) (commitPart part o g (some q)) := by
  obtain ⟨c, hc, hr⟩ := hc
  unfold commitRefs commitPart
  simp only [hc, run_bind_ok]
  exact (build_rel hr part o hn).bind fun a b hab => .ok ⟨_, _, rfl, rfl, hab⟩

theorem SceneSim.commit (hs : SceneSim m h r s) (part : StdPartition) :
    RunRel (fun a b => SceneSim m { h with closed := true } a.1 b.1) (r.commit part m) (s.commit part) := by
  obtain ⟨h1, h2, h3, h4, hm, hsp, hp, hc⟩ := hs
  obtain ⟨ro, rc, rg, rm, rsp, rp, rcy⟩ := r
  obtain ⟨so, sc, sg, sm, ssp, sp, scy⟩ := s
  obtain ⟨gm, gs, gp, gc, gcl⟩ := h
  simp only at h1 h2 h3 h4 hm hsp hp hc
  subst h1 h2 h3 h4
  unfold RefScene.commit Scene.commit
  simp only
  have em : RunRel (fun a b => OptSim (fun p q h => (∃ b d, MeshSim m p q b d) ∧ h = (p.coll.vertices, p.coll.faces)) a b gm)
      (commitRefs part ro (MeshRefs.toCollection m) rm) (commitPart part ro MeshColl.toCollection sm) := by
    cases hm with
    | none => exact .ok .none
    | some hm =>
      obtain ⟨⟨b, d, hm⟩, hh⟩ := hm
      refine (commitRefs_rel (MeshRefs.coll_rel hm) hm.nodes).mono ?_
      rintro _ _ ⟨ns, ns', rfl, rfl, hn⟩
      exact .some ⟨⟨b, d, hm.vertices, hm.faces, hm.boxes, hm.centers, hm.normals, hm.geomId, hn⟩, hh⟩
  have es : RunRel (fun a b => OptSim (fun p q h => (∃ b d, SphereSim m p q b d) ∧ h = (p.coll.centers, p.coll.radii)) a b gs)
      (commitRefs part ro (SphereRefs.toCollection m) rsp) (commitPart part ro SphereColl.toCollection ssp) := by
    cases hsp with
    | none => exact .ok .none
    | some hm =>
      obtain ⟨⟨b, d, hm⟩, hh⟩ := hm
      refine (commitRefs_rel (SphereRefs.coll_rel hm) hm.nodes).mono ?_
      rintro _ _ ⟨ns, ns', rfl, rfl, hn⟩
      exact .some ⟨⟨b, d, hm.centers, hm.radii, hm.boxes, hm.geomId, hn⟩, hh⟩
  have ep : RunRel (fun a b => OptSim (fun p q h => (∃ b d1 d2 d, PlaneSim m p q b d1 d2 d) ∧
        h = (p.coll.centers, p.coll.dxs, p.coll.dys, p.coll.rotations)) a b gp)
      (commitRefs part ro (PlaneRefs.toCollection m) rp) (commitPart part ro PlaneColl.toCollection sp) := by
    cases hp with
    | none => exact .ok .none
    | some hm =>
      obtain ⟨⟨b, d1, d2, d, hm⟩, hh⟩ := hm
      refine (commitRefs_rel (PlaneRefs.coll_rel hm) hm.nodes).mono ?_
      rintro _ _ ⟨ns, ns', rfl, rfl, hn⟩
      exact .some ⟨⟨b, d1, d2, d, hm.centers, hm.dxs, hm.dys, hm.rotations, hm.boxes, hm.geomId, hn⟩, hh⟩
  have ec : RunRel (fun a b => OptSim (fun p q h => (∃ b d1 d2 d3 d, CylSim m p q b d1 d2 d3 d) ∧
        h = (p.coll.centers, p.coll.as, p.coll.bs, p.coll.heights, p.coll.rotations)) a b gc)
      (commitRefs part ro (CylRefs.toCollection m) rcy) (commitPart part ro CylColl.toCollection scy) := by
    cases hc with
    | none => exact .ok .none
    | some hm =>
      obtain ⟨⟨b, d1, d2, d3, d, hm⟩, hh⟩ := hm
      refine (commitRefs_rel (CylRefs.coll_rel hm) hm.nodes).mono ?_
      rintro _ _ ⟨ns, ns', rfl, rfl, hn⟩
      exact .some ⟨⟨b, d1, d2, d3, d, hm.centers, hm.as, hm.bs, hm.heights, hm.rotations, hm.boxes, hm.geomId, hn⟩, hh⟩
  exact em.bind fun _ _ h1 => es.bind fun _ _ h2 => ep.bind fun _ _ h3 => ec.bind fun _ _ h4 =>
    .ok ⟨rfl, rfl, rfl, rfl, h1, h2, h3, h4⟩

/-! ### Adding -/

theorem OptSim.isNone {A B H : Type} {S : A → B → H → Prop} {a : Option A} {b : Option B} {h : Option H} (hs : OptSim S a b h) :
    a.isNone = b.isNone ∧ h.isNone = b.isNone := by
  cases hs <;> exact ⟨rfl, rfl⟩

theorem hold_accept {α : Type} {old : Option α} {closed : Bool} (new : α) (h : (old.isNone && !closed) = true) :
    hold closed old new = some new := by
  cases old with
  | some x => simp at h
  | none => cases closed <;> simp_all [hold]

theorem hold_reject {α : Type} {old : Option α} {closed : Bool} (new : α) (h : ¬(old.isNone && !closed) = true) :
    hold closed old new = old := by
  cases old with
  | some x => rfl
  | none => cases closed <;> simp_all [hold]

theorem sphereMake_fields {cs : List (Vec3 T)} {rs : List T} {c : SphereColl T} (h : SphereColl.make cs rs = .ok c) :
    c.centers = cs ∧ c.radii = rs := by
  unfold SphereColl.make at h
  obtain ⟨bs, -, h⟩ := run_bind_eq_ok.1 h
  cases h; exact ⟨rfl, rfl⟩

theorem planeMake_fields {cs : List (Vec3 T)} {xs ys : List T} {rs : List (Mat3 T)} {c : PlaneColl T}
    (h : PlaneColl.make cs xs ys rs = .ok c) : c.centers = cs ∧ c.dxs = xs ∧ c.dys = ys ∧ c.rotations = rs := by
  unfold PlaneColl.make at h
  obtain ⟨bs, -, h⟩ := run_bind_eq_ok.1 h
  cases h; exact ⟨rfl, rfl, rfl, rfl⟩

theorem cylMake_fields {cs : List (Vec3 T)} {va vb hs : List T} {rs : List (Mat3 T)} {c : CylColl T}
    (h : CylColl.make cs va vb hs rs = .ok c) :
    c.centers = cs ∧ c.as = va ∧ c.bs = vb ∧ c.heights = hs ∧ c.rotations = rs := by
  unfold CylColl.make at h
  obtain ⟨bs, -, h⟩ := run_bind_eq_ok.1 h
  cases h; exact ⟨rfl, rfl, rfl, rfl, rfl⟩

theorem meshMake_fields {vs : List (Vec3 T)} {fs : List (Vec3 Nat)} {c : MeshColl T}
    (h : MeshColl.make vs fs = .ok c) : c.vertices = vs ∧ c.faces = fs := by
  unfold MeshColl.make at h
  have key : ∀ (l : List (Vec3 Nat)) (a b : MeshColl T), l.foldlM (meshFace vs) a = .ok b → b.vertices = a.vertices ∧ b.faces = a.faces := by
    intro l
    induction l with
    | nil => intro a b hab; cases hab; exact ⟨rfl, rfl⟩
    | cons f l ih =>
      intro a b hab
      rw [List.foldlM_cons] at hab
      obtain ⟨a', ha, hab⟩ := run_bind_eq_ok.1 hab
      obtain ⟨e1, e2⟩ := ih _ _ hab
      unfold meshFace at ha
      obtain ⟨_, -, ha⟩ := run_bind_eq_ok.1 ha
      obtain ⟨_, -, ha⟩ := run_bind_eq_ok.1 ha
      obtain ⟨_, -, ha⟩ := run_bind_eq_ok.1 ha
      obtain ⟨_, -, ha⟩ := run_bind_eq_ok.1 ha
      obtain ⟨_, -, ha⟩ := run_bind_eq_ok.1 ha
      obtain ⟨_, -, ha⟩ := run_bind_eq_ok.1 ha
      cases ha
      exact ⟨e1, e2⟩
  exact key _ _ _ h

theorem RunRel.bindOk {α γ δ : Type} {S : γ → δ → Prop} (x : Run α) {f : α → Run γ} {g : α → Run δ}
    (hf : ∀ a, x = .ok a → RunRel S (f a) (g a)) : RunRel S (x >>= f) (x >>= g) := by
  cases x with
  | ok a => exact hf a rfl
  | error e => exact .error e

/-- relation of the states after an event -/
def StepRel (m : Memory T) (h : Held) (a : Memory T × RefScene T) (b : Memory T × Scene T) : Prop :=
  a.1 = m ∧ b.1 = m ∧ SceneSim m h a.2 b.2

theorem SceneSim.addSpheres (hs : SceneSim m h r s) (c d : Nat) :
    RunRel (StepRel m (h.next (.addSpheres c d : Event T))) (Event.exec (m, r) (.addSpheres c d)) (Event.execCopy (m, s) (.addSpheres c d)) := by
  simp only [Event.exec, Event.execCopy, RefScene.addSpheres, Scene.addSpheres, bind_assoc, hs.spheres.isNone.1, hs.committed]
  refine .bindOk _ fun cs hcs => .bindOk _ fun rs hrs => ?_
  by_cases ha : (s.spheres.isNone && !s.committed) = true
  · rw [if_pos ha, if_pos ha]
    simp only [bind_assoc]
    refine .bindOk _ fun coll hcoll => .ok ⟨rfl, rfl, ?_⟩
    obtain ⟨e1, e2⟩ := sphereMake_fields hcoll
    obtain ⟨b, hb⟩ := Store.of_read hcs
    obtain ⟨d', hd⟩ := Store.of_read hrs
    refine ⟨hs.options, rfl, hs.closed, congrArg (· + 1) hs.geometries, hs.mesh, ?_, hs.planes, hs.cylinders⟩
    simp only [Held.next]
    rw [hold_accept (c, d) (by rw [hs.spheres.isNone.2, hs.closed]; exact ha)]
    exact .some ⟨⟨b, d', by rw [e1]; exact hb, by rw [e2]; exact hd, rfl, hs.geometries, .nil⟩, rfl⟩
  · rw [if_neg ha, if_neg ha]
    refine .ok ⟨rfl, rfl, hs.options, hs.committed, hs.closed, hs.geometries, hs.mesh, ?_, hs.planes, hs.cylinders⟩
    simp only [Held.next]
    rw [hold_reject (c, d) (by rw [hs.spheres.isNone.2, hs.closed]; exact ha)]
    exact hs.spheres

theorem SceneSim.addMesh (hs : SceneSim m h r s) (v f : Nat) :
    RunRel (StepRel m (h.next (.addMesh v f : Event T))) (Event.exec (m, r) (.addMesh v f)) (Event.execCopy (m, s) (.addMesh v f)) := by
  simp only [Event.exec, Event.execCopy, RefScene.addMesh, Scene.addMesh, bind_assoc, hs.mesh.isNone.1, hs.committed]
  refine .bindOk _ fun cs hcs => .bindOk _ fun rs hrs => ?_
  by_cases ha : (s.mesh.isNone && !s.committed) = true
  · rw [if_pos ha, if_pos ha]
    simp only [bind_assoc]
    refine .bindOk _ fun coll hcoll => .ok ⟨rfl, rfl, ?_⟩
    obtain ⟨e1, e2⟩ := meshMake_fields hcoll
    obtain ⟨b, hb⟩ := Store.of_read hcs
    obtain ⟨d', hd⟩ := Store.of_read hrs
    refine ⟨hs.options, rfl, hs.closed, congrArg (· + 1) hs.geometries, ?_, hs.spheres, hs.planes, hs.cylinders⟩
    simp only [Held.next]
    rw [hold_accept (v, f) (by rw [hs.mesh.isNone.2, hs.closed]; exact ha)]
    exact .some ⟨⟨b, d', by rw [e1]; exact hb, by rw [e2]; exact hd, rfl, rfl, rfl, hs.geometries, .nil⟩, rfl⟩
  · rw [if_neg ha, if_neg ha]
    refine .ok ⟨rfl, rfl, hs.options, hs.committed, hs.closed, hs.geometries, ?_, hs.spheres, hs.planes, hs.cylinders⟩
    simp only [Held.next]
    rw [hold_reject (v, f) (by rw [hs.mesh.isNone.2, hs.closed]; exact ha)]
    exact hs.mesh

theorem SceneSim.addPlanes (hs : SceneSim m h r s) (c x y d : Nat) :
    RunRel (StepRel m (h.next (.addPlanes c x y d : Event T))) (Event.exec (m, r) (.addPlanes c x y d))
      (Event.execCopy (m, s) (.addPlanes c x y d)) := by
  simp only [Event.exec, Event.execCopy, RefScene.addPlanes, Scene.addPlanes, bind_assoc, hs.planes.isNone.1, hs.committed]
  refine .bindOk _ fun cs hcs => .bindOk _ fun xs hxs => .bindOk _ fun ys hys => .bindOk _ fun rs hrs => ?_
  by_cases ha : (s.planes.isNone && !s.committed) = true
  · rw [if_pos ha, if_pos ha]
    simp only [bind_assoc]
    refine .bindOk _ fun coll hcoll => .ok ⟨rfl, rfl, ?_⟩
    obtain ⟨e1, e2, e3, e4⟩ := planeMake_fields hcoll
    obtain ⟨b, hb⟩ := Store.of_read hcs
    obtain ⟨d1, hd1⟩ := Store.of_read hxs
    obtain ⟨d2, hd2⟩ := Store.of_read hys
    obtain ⟨d', hd⟩ := Store.of_read hrs
    refine ⟨hs.options, rfl, hs.closed, congrArg (· + 1) hs.geometries, hs.mesh, hs.spheres, ?_, hs.cylinders⟩
    simp only [Held.next]
    rw [hold_accept (c, x, y, d) (by rw [hs.planes.isNone.2, hs.closed]; exact ha)]
    exact .some ⟨⟨b, d1, d2, d', by rw [e1]; exact hb, by rw [e2]; exact hd1, by rw [e3]; exact hd2, by rw [e4]; exact hd, rfl,
      hs.geometries, .nil⟩, rfl⟩
  · rw [if_neg ha, if_neg ha]
    refine .ok ⟨rfl, rfl, hs.options, hs.committed, hs.closed, hs.geometries, hs.mesh, hs.spheres, ?_, hs.cylinders⟩
    simp only [Held.next]
    rw [hold_reject (c, x, y, d) (by rw [hs.planes.isNone.2, hs.closed]; exact ha)]
    exact hs.planes

theorem SceneSim.addCylinders (hs : SceneSim m h r s) (c x y z d : Nat) :
    RunRel (StepRel m (h.next (.addCylinders c x y z d : Event T))) (Event.exec (m, r) (.addCylinders c x y z d))
      (Event.execCopy (m, s) (.addCylinders c x y z d)) := by
  simp only [Event.exec, Event.execCopy, RefScene.addCylinders, Scene.addCylinders, bind_assoc, hs.cylinders.isNone.1, hs.committed]
  refine .bindOk _ fun cs hcs => .bindOk _ fun xs hxs => .bindOk _ fun ys hys => .bindOk _ fun zs hzs => .bindOk _ fun rs hrs => ?_
  by_cases ha : (s.cylinders.isNone && !s.committed) = true
  · rw [if_pos ha, if_pos ha]
    simp only [bind_assoc]
    refine .bindOk _ fun coll hcoll => .ok ⟨rfl, rfl, ?_⟩
    obtain ⟨e1, e2, e3, e4, e5⟩ := cylMake_fields hcoll
    obtain ⟨b, hb⟩ := Store.of_read hcs
    obtain ⟨d1, hd1⟩ := Store.of_read hxs
    obtain ⟨d2, hd2⟩ := Store.of_read hys
    obtain ⟨d3, hd3⟩ := Store.of_read hzs
    obtain ⟨d', hd⟩ := Store.of_read hrs
    refine ⟨hs.options, rfl, hs.closed, congrArg (· + 1) hs.geometries, hs.mesh, hs.spheres, hs.planes, ?_⟩
    simp only [Held.next]
    rw [hold_accept (c, x, y, z, d) (by rw [hs.cylinders.isNone.2, hs.closed]; exact ha)]
    exact .some ⟨⟨b, d1, d2, d3, d', by rw [e1]; exact hb, by rw [e2]; exact hd1, by rw [e3]; exact hd2, by rw [e4]; exact hd3,
      by rw [e5]; exact hd, rfl, hs.geometries, .nil⟩, rfl⟩
  · rw [if_neg ha, if_neg ha]
    refine .ok ⟨rfl, rfl, hs.options, hs.committed, hs.closed, hs.geometries, hs.mesh, hs.spheres, hs.planes, ?_⟩
    simp only [Held.next]
    rw [hold_reject (c, x, y, z, d) (by rw [hs.cylinders.isNone.2, hs.closed]; exact ha)]
    exact hs.cylinders

theorem SceneSim.call (hs : SceneSim m h r s) (e : Event T) (he : ∀ m', e ≠ .change m') :
    RunRel (StepRel m (h.next e)) (e.exec (m, r)) (e.execCopy (m, s)) := by
  cases e with
  | change m' => exact absurd rfl (he m')
  | addMesh v f => exact hs.addMesh v f
  | addSpheres c d => exact hs.addSpheres c d
  | addPlanes c x y d => exact hs.addPlanes c x y d
  | addCylinders c x y z d => exact hs.addCylinders c x y z d
  | commit part =>
    simp only [Event.exec, Event.execCopy, Held.next]
    exact (hs.commit part).bind fun _ _ hab => .ok ⟨rfl, rfl, hab⟩

theorem SceneSim.init (m : Memory T) : SceneSim m Held.nothing RefScene.init Scene.init :=
  ⟨rfl, rfl, rfl, rfl, .none, .none, .none, .none⟩

theorem SceneSim.run {es : List (Event T)} (hl : LeftAlone m h es) : ∀ r s, SceneSim m h r s →
    RunRel (fun a b => ∃ m', StepRel m' (es.foldl Held.next h) a b) (runEvents (m, r) es) (runCopies (m, s) es) := by
  induction hl with
  | nil m h => intro r s hs; exact .ok ⟨m, rfl, rfl, hs⟩
  | change m m' h es hk ht ih =>
    intro r s hs
    unfold runEvents runCopies
    rw [List.foldlM_cons, List.foldlM_cons]
    exact ih r s (hs.change hk)
  | call m h e es he ht ih =>
    intro r s hs
    unfold runEvents runCopies
    rw [List.foldlM_cons, List.foldlM_cons]
    refine (hs.call e he).bind fun a b hab => ?_
    obtain ⟨a1, a2⟩ := a
    obtain ⟨b1, b2⟩ := b
    obtain ⟨rfl, rfl, hab⟩ := hab
    exact ih a2 b2 hab

/-! ### Queries -/

theorem intersectRefs_eq {C C' P Q I : Type} {f : C → Intersector T P I} {g : C' → Intersector T P I} {load : Q → Run P}
    {R : Q → P → Prop} {always : Bool} {ray : Ray T} {p : Part C T Q} {q : Part C' T P} (hl : ∀ a b, R a b → load a = .ok b)
    (hn : NodesRel R p.nodes q.nodes) (hg : p.geomId = q.geomId) (hf : f p.coll = g q.coll) (st : RayHit T × RayHit T × Bool) :
    intersectRefs f load always ray (some p) st = intersectPart g always ray (some q) st := by
  obtain ⟨temp, rh, hit⟩ := st
  simp only [intersectRefs, intersectPart, traverseR_eq _ hl hn, hf, hg]

theorem SceneSim.intersect1 (hs : SceneSim m h r s) (ray : Ray T) (rh : RayHit T) :
    r.intersect1 m ray rh = s.intersect1 ray rh := by
  obtain ⟨-, -, -, -, hm, hsp, hp, hc⟩ := hs
  have em : ∀ st, intersectRefs (MeshRefs.ix m) (TriRef.load m) true ray r.mesh st = intersectPart triIx true ray s.mesh st := by
    intro st
    generalize r.mesh = x, s.mesh = y, h.mesh = z at hm
    cases hm with
    | none => rfl
    | some hm =>
      obtain ⟨⟨b, d, hm⟩, -⟩ := hm
      refine intersectRefs_eq (R := TriR b _) ?_ hm.nodes hm.geomId ?_ st
      · rintro ⟨ra, rb, rc, ri⟩ ⟨ta, tb, tc, ti⟩ ⟨h1, rfl, rfl, rfl⟩
        unfold TriRef.load
        rw [Store.deref_ok hm.vertices h1]; rfl
      · unfold MeshRefs.ix triIx
        congr 1
        funext i rh
        rw [Store.read_ok hm.faces, run_bind_ok]
        simp only [triPost, hm.normals]
  have es : ∀ st, intersectRefs (SphereRefs.ix m) (SphereRef.load m) false ray r.spheres st =
      intersectPart sphereIx false ray s.spheres st := by
    intro st
    generalize r.spheres = x, s.spheres = y, h.spheres = z at hsp
    cases hsp with
    | none => rfl
    | some hm =>
      obtain ⟨⟨b, d, hm⟩, -⟩ := hm
      refine intersectRefs_eq (R := SphereR b _) ?_ hm.nodes hm.geomId ?_ st
      · rintro ⟨rc, rr, ri⟩ ⟨tc, tr, ti⟩ ⟨h1, rfl, rfl⟩
        unfold SphereRef.load
        rw [Store.deref_ok hm.centers h1]; rfl
      · unfold SphereRefs.ix sphereIx
        congr 1
        funext i rh
        rw [Store.read_ok hm.centers, run_bind_ok]
        simp only [spherePost]
  have ep : ∀ st, intersectRefs (fun _ => planeIx) (PlaneRef.load m) false ray r.planes st =
      intersectPart (fun _ => planeIx) false ray s.planes st := by
    intro st
    generalize r.planes = x, s.planes = y, h.planes = z at hp
    cases hp with
    | none => rfl
    | some hm =>
      obtain ⟨⟨b, d1, d2, d, hm⟩, -⟩ := hm
      refine intersectRefs_eq (R := PlaneR b _ d _) ?_ hm.nodes hm.geomId rfl st
      rintro ⟨rc, rx, ry, rr, ri⟩ ⟨tc, tx, ty, tr, ti⟩ ⟨h1, h2, rfl, rfl, rfl⟩
      unfold PlaneRef.load
      rw [Store.deref_ok hm.centers h1, run_bind_ok, Store.deref_ok hm.rotations h2]; rfl
  have ec : ∀ st, intersectRefs (fun _ => cylIx) (CylRef.load m) false ray r.cylinders st =
      intersectPart (fun _ => cylIx) false ray s.cylinders st := by
    intro st
    generalize r.cylinders = x, s.cylinders = y, h.cylinders = z at hc
    cases hc with
    | none => rfl
    | some hm =>
      obtain ⟨⟨b, d1, d2, d3, d, hm⟩, -⟩ := hm
      refine intersectRefs_eq (R := CylR b _ d1 _ d2 _ d3 _ d _) ?_ hm.nodes hm.geomId rfl st
      rintro ⟨rc, ra, rb, rh, rr, ri⟩ ⟨tc, ta, tb, th, tr, ti⟩ ⟨h1, h2, h3, h4, h5, rfl⟩
      unfold CylRef.load
      rw [Store.deref_ok hm.centers h1, run_bind_ok, Store.deref_ok hm.as h2, run_bind_ok, Store.deref_ok hm.bs h3, run_bind_ok,
        Store.deref_ok hm.heights h4, run_bind_ok, Store.deref_ok hm.rotations h5]; rfl
  unfold RefScene.intersect1 Scene.intersect1
  simp only [em, es, ep, ec]

/-! ### The copying scene is one of the scenes of the other theorems -/

theorem runCopies_history {es : List (Event T)} : ∀ {m m' : Memory T} {s s' : Scene T} {rs : List Nat}, History s rs →
    runCopies (m, s) es = .ok (m', s') → ∃ rs', History s' rs' := by
  induction es with
  | nil => intro m m' s s' rs hh h; cases h; exact ⟨rs, hh⟩
  | cons e es ih =>
    intro m m' s s' rs hh h
    unfold runCopies at h
    rw [List.foldlM_cons] at h
    obtain ⟨⟨m1, s1⟩, h1, h2⟩ := run_bind_eq_ok.1 h
    cases e with
    | change m2 => cases h1; exact ih hh h2
    | addMesh v f =>
      obtain ⟨vs, -, h1⟩ := run_bind_eq_ok.1 h1
      obtain ⟨fs, -, h1⟩ := run_bind_eq_ok.1 h1
      obtain ⟨⟨s3, i⟩, h3, h1⟩ := run_bind_eq_ok.1 h1
      cases h1
      exact ih (.add stablePartition s s1 rs (.addMesh vs fs) i hh (by simp only [Call.exec, h3, run_bind_ok]; rfl)) h2
    | addSpheres v f =>
      obtain ⟨vs, -, h1⟩ := run_bind_eq_ok.1 h1
      obtain ⟨fs, -, h1⟩ := run_bind_eq_ok.1 h1
      obtain ⟨⟨s3, i⟩, h3, h1⟩ := run_bind_eq_ok.1 h1
      cases h1
      exact ih (.add stablePartition s s1 rs (.addSpheres vs fs) i hh (by simp only [Call.exec, h3, run_bind_ok]; rfl)) h2
    | addPlanes c x y d =>
      obtain ⟨v1, -, h1⟩ := run_bind_eq_ok.1 h1
      obtain ⟨v2, -, h1⟩ := run_bind_eq_ok.1 h1
      obtain ⟨v3, -, h1⟩ := run_bind_eq_ok.1 h1
      obtain ⟨v4, -, h1⟩ := run_bind_eq_ok.1 h1
      obtain ⟨⟨s3, i⟩, h3, h1⟩ := run_bind_eq_ok.1 h1
      cases h1
      exact ih (.add stablePartition s s1 rs (.addPlanes v1 v2 v3 v4) i hh (by simp only [Call.exec, h3, run_bind_ok]; rfl)) h2
    | addCylinders c x y z d =>
      obtain ⟨v1, -, h1⟩ := run_bind_eq_ok.1 h1
      obtain ⟨v2, -, h1⟩ := run_bind_eq_ok.1 h1
      obtain ⟨v3, -, h1⟩ := run_bind_eq_ok.1 h1
      obtain ⟨v4, -, h1⟩ := run_bind_eq_ok.1 h1
      obtain ⟨v5, -, h1⟩ := run_bind_eq_ok.1 h1
      obtain ⟨⟨s3, i⟩, h3, h1⟩ := run_bind_eq_ok.1 h1
      cases h1
      exact ih (.add stablePartition s s1 rs (.addCylinders v1 v2 v3 v4 v5) i hh (by simp only [Call.exec, h3, run_bind_ok]; rfl)) h2
    | commit part =>
      obtain ⟨⟨s3, i⟩, h3, h1⟩ := run_bind_eq_ok.1 h1
      cases h1
      exact ih (.commit part s s1 rs hh (by simp only [Call.exec, h3, run_bind_ok]; rfl)) h2

end
end Blazert
