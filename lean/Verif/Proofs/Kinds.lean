/- Spheres, planes and triangle meshes obey the contract of the traversal, in exact arithmetic. -/
import Verif.Proofs.Cover
import Verif.Proofs.Safe
import Verif.Proofs.Sphere
import Verif.Proofs.Plane
import Verif.Proofs.Mesh

set_option autoImplicit false
set_option linter.unusedSectionVars false

namespace Blazert
open Scalar

theorem range_mapM_get {β : Type} {n : Nat} {f : Nat → Run β} {bs : List β} (h : (List.range n).mapM f = .ok bs) {i : Nat}
    {b : β} (hb : bs[i]? = some b) : f i = .ok b := by
  have hf := mapM_ok_forall₂ _ _ _ h
  obtain ⟨hlen, hget⟩ := List.forall₂_iff_get.1 hf
  obtain ⟨hi, he⟩ := List.getElem?_eq_some_iff.1 hb
  have := hget i (by rw [hlen]; exact hi) hi
  simpa [he] using this

section
variable {T : Type} [Scalar T]

theorem SphereColl.make_box {cs : List (Vec3 T)} {rs : List T} {coll : SphereColl T} (h : SphereColl.make cs rs = .ok coll) :
    ∀ (i : Nat) b, coll.boxes[i]? = some b → ∃ c r, coll.centers[i]? = some c ∧ coll.radii[i]? = some r ∧ b = sphereBox c r := by
  unfold SphereColl.make at h
  rw [run_bind_eq_ok] at h
  obtain ⟨bs, h1, h⟩ := h
  simp only [run_pure, Except.ok.injEq] at h
  subst h
  intro i b hb
  have := range_mapM_get h1 hb
  rw [run_bind_eq_ok] at this
  obtain ⟨c, hc, this⟩ := this
  rw [run_bind_eq_ok] at this
  obtain ⟨r, hr, this⟩ := this
  simp only [run_pure, Except.ok.injEq] at this
  exact ⟨c, r, lookup_eq_ok.1 hc, lookup_eq_ok.1 hr, this.symm⟩

theorem SphereColl.make_prim {cs : List (Vec3 T)} {rs : List T} {coll : SphereColl T} (h : SphereColl.make cs rs = .ok coll)
    {i : Nat} {c : Vec3 T} {r : T} (hc : coll.centers[i]? = some c) (hr : coll.radii[i]? = some r) :
    i < coll.toCollection.size ∧ coll.toCollection.prim i = .ok ⟨c, r, i⟩ := by
  refine ⟨(List.getElem?_eq_some_iff.1 hc).1, ?_⟩
  simp only [SphereColl.toCollection, lookup_eq_ok.2 hc, lookup_eq_ok.2 hr]
  rfl

theorem PlaneColl.make_box {cs : List (Vec3 T)} {xs ys : List T} {ms : List (Mat3 T)} {coll : PlaneColl T}
    (h : PlaneColl.make cs xs ys ms = .ok coll) :
    ∀ (i : Nat) b, coll.boxes[i]? = some b → ∃ c x y m, coll.centers[i]? = some c ∧ coll.dxs[i]? = some x ∧
      coll.dys[i]? = some y ∧ coll.rotations[i]? = some m ∧ b = planeBox c x y m := by
  unfold PlaneColl.make at h
  rw [run_bind_eq_ok] at h
  obtain ⟨bs, h1, h⟩ := h
  simp only [run_pure, Except.ok.injEq] at h
  subst h
  intro i b hb
  have := range_mapM_get h1 hb
  rw [run_bind_eq_ok] at this
  obtain ⟨c, hc, this⟩ := this
  rw [run_bind_eq_ok] at this
  obtain ⟨x, hx, this⟩ := this
  rw [run_bind_eq_ok] at this
  obtain ⟨y, hy, this⟩ := this
  rw [run_bind_eq_ok] at this
  obtain ⟨m, hm, this⟩ := this
  simp only [run_pure, Except.ok.injEq] at this
  exact ⟨c, x, y, m, lookup_eq_ok.1 hc, lookup_eq_ok.1 hx, lookup_eq_ok.1 hy, lookup_eq_ok.1 hm, this.symm⟩

theorem PlaneColl.prim_of {coll : PlaneColl T} {i : Nat} {c : Vec3 T} {x y : T} {m : Mat3 T} (hc : coll.centers[i]? = some c)
    (hx : coll.dxs[i]? = some x) (hy : coll.dys[i]? = some y) (hm : coll.rotations[i]? = some m) :
    i < coll.toCollection.size ∧ coll.toCollection.prim i = .ok ⟨c, x, y, m, i⟩ := by
  refine ⟨(List.getElem?_eq_some_iff.1 hc).1, ?_⟩
  simp only [PlaneColl.toCollection, lookup_eq_ok.2 hc, lookup_eq_ok.2 hx, lookup_eq_ok.2 hy, lookup_eq_ok.2 hm]
  rfl

theorem PlaneColl.prim_ok {coll : PlaneColl T} {i : Nat} {p : Plane T} (h : coll.toCollection.prim i = .ok p) :
    p.primId = i ∧ coll.centers[i]? = some p.center ∧ coll.dxs[i]? = some p.dx ∧ coll.dys[i]? = some p.dy ∧
      coll.rotations[i]? = some p.rotation := by
  simp only [PlaneColl.toCollection] at h
  rw [run_bind_eq_ok] at h
  obtain ⟨c, hc, h⟩ := h
  rw [run_bind_eq_ok] at h
  obtain ⟨x, hx, h⟩ := h
  rw [run_bind_eq_ok] at h
  obtain ⟨y, hy, h⟩ := h
  rw [run_bind_eq_ok] at h
  obtain ⟨m, hm, h⟩ := h
  simp only [run_pure, Except.ok.injEq] at h
  subst h
  exact ⟨rfl, lookup_eq_ok.1 hc, lookup_eq_ok.1 hx, lookup_eq_ok.1 hy, lookup_eq_ok.1 hm⟩

theorem MeshColl.prim_of {mesh : MeshColl T} {i : Nat} {f : Vec3 Nat} {a b c : Vec3 T} (hf : mesh.faces[i]? = some f)
    (ha : mesh.vertices[f.x]? = some a) (hb : mesh.vertices[f.y]? = some b) (hc : mesh.vertices[f.z]? = some c) :
    i < mesh.toCollection.size ∧ mesh.toCollection.prim i = .ok (Triangle.make a b c i) := by
  refine ⟨(List.getElem?_eq_some_iff.1 hf).1, ?_⟩
  simp only [MeshColl.toCollection, lookup_eq_ok.2 hf, lookup_eq_ok.2 ha, lookup_eq_ok.2 hb, lookup_eq_ok.2 hc, run_bind_ok]
  rfl

end

variable {F : Fmt ℝ}

section
variable {origin direction : Vec3 (XF F)} {minHit maxHit : XF F} {o d : Vec3 ℝ} {m M : ℝ}

theorem above_of_lt {x : XF F} {t t' : ℝ} (h : x.Above t) (hlt : t' < t) : x.Above t' := by
  rcases h with h | ⟨a, h1, h2⟩
  · exact .inl h
  · exact .inr ⟨a, h1, hlt.trans h2⟩

/-! ### spheres -/

/-- the points of a sphere -/
def Sphere.Surf (q : Sphere (XF F)) (x : Vec3 ℝ) : Prop := ∃ c r, IsV q.center c ∧ q.radius.Is r ∧ OnSphere c r x

/-- the hits of the ray with a sphere -/
def Sphere.G (o u : Vec3 ℝ) (m : ℝ) (q : Sphere (XF F)) (x : XF F) : Prop :=
  ∃ t, x.Is t ∧ m < t ∧ q.Surf (along o u t)

theorem sphereContract (hF : F.Exact) (h : RayBase origin direction minHit maxHit o d m M) (strict : Prop)
    (hstrict : strict → RayFor origin direction minHit maxHit o d m M) (any : Bool)
    (coll : SphereColl (XF F)) :
    Contract (sphereIx coll) (Ray.make origin direction minHit maxHit any)
      (fun q => ∃ c r, IsV q.center c ∧ q.radius.Is r ∧ 0 ≤ r) (fun s => s.For o (unit d) m)
      (fun q x => strict ∧ Sphere.G o (unit d) m q x) (Sphere.G o (unit d) m) (fun b q => strict → CoversOf Sphere.Surf o d b q) where
  lawful := XF.lawful F
  prep_hd := rfl
  prep_inv := ⟨h.org, h.dirUnit hF any, h.min⟩
  inv := by
    rintro s q ⟨c, r, hc, hr, hr0⟩ hs
    rcases sphereIntersect_cases hF s q (Ray.make origin direction minHit maxHit any) c o (unit d) r m hc hr hr0 hs h.unit_sq
      h.nonneg with ⟨he, _⟩ | ⟨t, _, _, _, _, hd', _, he⟩
    · simp only [sphereIx, he]; exact hs
    · simp only [sphereIx, he]; exact ⟨hs.org, hs.dir, hs.min⟩
  miss := by
    rintro s q s' ⟨c, r, hc, hr, hr0⟩ hs he'
    simp only [sphereIx] at he' ⊢
    rcases sphereIntersect_cases hF s q (Ray.make origin direction minHit maxHit any) c o (unit d) r m hc hr hr0 hs h.unit_sq
      h.nonneg with ⟨he, hn⟩ | ⟨t, _, _, _, _, hd', _, he⟩
    · rw [he] at he'
      simp only [Prod.mk.injEq, and_true] at he'
      refine ⟨he'.symm, ?_⟩
      rintro x ⟨-, t, hx, hmt, c', r', hc', hr', hs'⟩
      cases hc.unique hc'; cases hr.unique hr'
      rw [Bool.eq_false_iff, ne_eq, hx.lt_iff]
      exact fun ha => hn t hmt ha hs'
    · rw [he] at he'; simp at he'
  hit := by
    rintro s q s' ⟨c, r, hc, hr, hr0⟩ hs he'
    simp only [sphereIx] at he' ⊢
    rcases sphereIntersect_cases hF s q (Ray.make origin direction minHit maxHit any) c o (unit d) r m hc hr hr0 hs h.unit_sq
      h.nonneg with ⟨he, hn⟩ | ⟨t, h1, h2, h3, h4, hd', h5, he⟩
    · rw [he] at he'; simp at he'
    · rw [he] at he'
      simp only [Prod.mk.injEq, and_true] at he'
      subst he'
      refine ⟨⟨t, h5, h1, c, r, hc, hr, h3⟩, h5.lt_iff.2 h2, ?_⟩
      rintro x ⟨-, t', hx, hmt, c', r', hc', hr', hs'⟩
      cases hc.unique hc'; cases hr.unique hr'
      rw [Bool.eq_false_iff, ne_eq, hx.lt h5]
      intro hlt
      have := h4 t' hmt hs' (above_of_lt h2 hlt)
      linarith
  cull := by
    rintro box q x hd _ hc ⟨hst, t, hx, hmt, hs⟩ hlt
    exact cull hF (hstrict hst) any (hc hst) hx hmt.le hs hlt

theorem spherePart (hF : F.Exact) (h : RayBase origin direction minHit maxHit o d m M) (strict : Prop)
    (hstrict : strict → RayFor origin direction minHit maxHit o d m M) (any : Bool)
    {cs : List (Vec3 (XF F))} {rs : List (XF F)} {coll : SphereColl (XF F)} (hmake : SphereColl.make cs rs = .ok coll)
    (hgood : ∀ (i : Nat) x y, coll.centers[i]? = some x → coll.radii[i]? = some y → ∃ c r, IsV x c ∧ y.Is r ∧ 0 ≤ r)
    (hrange : strict → ∀ b ∈ coll.boxes, BoxInRange b)
    (hface : strict → d.z = 0 → ∀ b ∈ coll.boxes, ¬ b.1.z.Is o.z ∧ ¬ b.2.z.Is o.z)
    (opts : BuildOptions) (nodes : List (Node (XF F) (Sphere (XF F)))) (t : Tree (XF F) (Sphere (XF F)))
    (hb : Built coll.toCollection opts 0 (List.range coll.toCollection.size) t)
    (hrep : Represents nodes 0 t) (hn : t.numNodes ≤ nodes.length) :
    PartSpec (sphereIx coll) nodes (Ray.make origin direction minHit maxHit any) M
      (fun i t => strict ∧ SphereHit coll.centers coll.radii o (unit d) m i t) (SphereRep coll o (unit d) m) ∧
    ScanSpec (sphereIx coll) coll.toCollection (Ray.make origin direction minHit maxHit any) M
      (fun i t => strict ∧ SphereHit coll.centers coll.radii o (unit d) m i t) (SphereRep coll o (unit d) m) := by
  have mem : ∀ i b, coll.toCollection.box i = .ok b → b ∈ coll.boxes := fun i b hb => List.mem_of_getElem? (lookup_eq_ok.1 hb)
  refine partSpec_of_contract (sphereContract hF h strict hstrict any coll) coll.toCollection opts nodes t hb hrep hn ?_ ?_ _ _ h.max ?_ ?_
  · intro hst
    refine ⟨fun i _ b hb => hrange hst b (mem i b hb), ?_, fun hz i _ b hb => hface hst hz b (mem i b hb)⟩
    intro i hi q b hq hb
    obtain ⟨x, y, h1, h2, rfl⟩ := SphereColl.make_box hmake i b (lookup_eq_ok.1 hb)
    obtain ⟨_, _, e1, e2⟩ := SphereColl.prim_ok hq
    rw [h1] at e1; cases e1
    rw [h2] at e2; cases e2
    obtain ⟨c, r, hc, hr, hr0⟩ := hgood i _ _ h1 h2
    refine ⟨_, _, hc.subs hF hr, hc.adds hF hr, ?_⟩
    rintro p ⟨c', r', hc', hr', hs⟩
    cases hc.unique hc'; cases hr.unique hr'
    have h3 : ∀ k, |(p - c).get k| ≤ r := fun k => (abs_get_le_len _ k).trans (le_of_eq hs)
    have h0 := abs_le.1 (h3 0); have h1 := abs_le.1 (h3 1); have h2 := abs_le.1 (h3 2)
    simp only [Vec3.get_zero, Vec3.get_one, Vec3.get_two, Vec3.sub_x, Vec3.sub_y, Vec3.sub_z] at h0 h1 h2
    simp only [InBox, Vec3.subs, Vec3.adds]
    refine ⟨⟨?_, ?_⟩, ⟨?_, ?_⟩, ⟨?_, ?_⟩⟩ <;> linarith
  · intro i hi q hq
    obtain ⟨_, _, e1, e2⟩ := SphereColl.prim_ok hq
    exact hgood i _ _ e1 e2
  · rintro i t ⟨hst, x, y, c, r, h1, h2, h3, h4, h5, h6⟩
    obtain ⟨h7, h8⟩ := SphereColl.make_prim hmake h1 h2
    exact ⟨_, .fin t false, h7, h8, ⟨_, rfl⟩, hst, t, ⟨_, rfl⟩, h5, c, r, h3, h4, h6⟩
  · intro i q s0 s rh hi hq hs0 hs
    obtain ⟨e0, _, e1, e2⟩ := SphereColl.prim_ok hq
    obtain ⟨c, r, hc, hr, hr0⟩ := hgood i _ _ e1 e2
    simp only [sphereIx] at hs ⊢
    rcases sphereIntersect_cases hF s0 q (Ray.make origin direction minHit maxHit any) c o (unit d) r m hc hr hr0 hs0 h.unit_sq
      h.nonneg with ⟨he, hn⟩ | ⟨t, h1, h2, h3, h4, hd', h5, he⟩
    · rw [he] at hs; simp at hs
    · rw [he] at hs
      simp only [Prod.mk.injEq, and_true] at hs
      subst hs
      refine ⟨_, t, by simp only [spherePost, e0, lookup_eq_ok.2 e1, run_bind_ok]; rfl, rfl, h5, q.center, q.radius, c, r, ?_, ?_, hc,
        hr, h1, h3, ?_⟩
      · exact e1
      · exact e2
      · intro hr0
        have hp : dist3 (along o (unit d) t) c = r := h3
        have hne : along o (unit d) t - c ≠ ⟨0, 0, 0⟩ := by
          rw [Vec3.sub_ne_zero]
          intro h
          rw [h, dist3, show c - c = (⟨0, 0, 0⟩ : Vec3 ℝ) by ext <;> simp] at hp
          rw [len, sq_eq_zero.2 rfl, Real.sqrt_zero] at hp
          exact hr0.ne hp
        have hn := ((hs0.org.add hF (IsV.smul hF h5 hs0.dir)).sub hF hc).normalize hF hne
        refine ⟨_, hn, len_divs_len hne, ?_⟩
        have hl : len (o + Vec3.smul t (unit d) - c) = r := hp
        rw [hl]
        unfold along
        ext <;> simp <;> field_simp <;> ring

/-! ### planes -/

/-- the points of a rectangle -/
def Plane.Surf (q : Plane (XF F)) (x : Vec3 ℝ) : Prop := ∃ c dx dy R, q.For c dx dy R ∧ InRect c dx dy R x

/-- the hits of the ray with a rectangle -/
def Plane.G (o u : Vec3 ℝ) (m : ℝ) (q : Plane (XF F)) (x : XF F) : Prop :=
  ∃ t, x.Is t ∧ m < t ∧ ∃ c dx dy R, q.For c dx dy R ∧ Vec3.dot (perp R) u ≠ 0 ∧ InRect c dx dy R (along o u t)

theorem IsM.unique {w : Mat3 (XF F)} {R R' : Mat3 ℝ} (h : IsM w R) (h' : IsM w R') : R = R' := by
  cases R; cases R'
  simp only [Mat3.mk.injEq]
  exact ⟨h.1.unique h'.1, h.2.1.unique h'.2.1, h.2.2.unique h'.2.2⟩

theorem Plane.For.unique {q : Plane (XF F)} {c c' : Vec3 ℝ} {dx dy dx' dy' : ℝ} {R R' : Mat3 ℝ} (h : q.For c dx dy R)
    (h' : q.For c' dx' dy' R') : c = c' ∧ dx = dx' ∧ dy = dy' ∧ R = R' :=
  ⟨h.center.unique h'.center, h.dx.unique h'.dx, h.dy.unique h'.dy, h.rot.unique h'.rot⟩

theorem rect_param_unique {c o d : Vec3 ℝ} {dx dy t t' : ℝ} {R : Mat3 ℝ} (hR : Orthonormal R)
    (hz : Vec3.dot (perp R) d ≠ 0) (h : InRect c dx dy R (along o d t)) (h' : InRect c dx dy R (along o d t')) : t = t' := by
  obtain ⟨x, y, _, _, _, _, h⟩ := h
  obtain ⟨x', y', _, _, _, _, h'⟩ := h'
  rw [hR.local_iff, trans_along] at h h'
  have e1 := congrArg Vec3.z h; have e2 := congrArg Vec3.z h'
  rw [← trans_mulVec_z] at hz
  simp only [along, Vec3.add_z, Vec3.smul_z] at e1 e2
  exact mul_right_cancel₀ hz (by linarith)

theorem planeContract (hF : F.Exact) (h : RayBase origin direction minHit maxHit o d m M) (strict : Prop)
    (hstrict : strict → RayFor origin direction minHit maxHit o d m M) (any : Bool) :
    Contract planeIx (Ray.make origin direction minHit maxHit any)
      (fun q => ∃ c dx dy R, q.For c dx dy R ∧ 0 < dx ∧ 0 < dy ∧ Orthonormal R) (fun s => s.For o (unit d) m)
      (fun q x => strict ∧ Plane.G o (unit d) m q x) (Plane.G o (unit d) m) (fun b q => strict → CoversOf Plane.Surf o d b q) where
  lawful := XF.lawful F
  prep_hd := rfl
  prep_inv := ⟨h.org, h.dirUnit hF any, h.min⟩
  inv := by
    rintro s q ⟨c, dx, dy, R, hq, hdx, hdy, hR⟩ hs
    rcases planeIntersect_cases hF s q (Ray.make origin direction minHit maxHit any) c o (unit d) dx dy m R hq hdx hdy hR hs
      h.unit_sq h.nonneg with ⟨he, _⟩ | ⟨_, t, x, y, _, _, _, _, _, _, _, n, hd', _, he, _⟩
    · simp only [planeIx, he]; exact hs
    · simp only [planeIx, he]; exact ⟨hs.org, hs.dir, hs.min⟩
  miss := by
    rintro s q s' ⟨c, dx, dy, R, hq, hdx, hdy, hR⟩ hs he'
    simp only [planeIx] at he' ⊢
    rcases planeIntersect_cases hF s q (Ray.make origin direction minHit maxHit any) c o (unit d) dx dy m R hq hdx hdy hR hs
      h.unit_sq h.nonneg with ⟨he, hn⟩ | ⟨_, t, x, y, _, _, _, _, _, _, _, n, hd', _, he, _⟩
    · rw [he] at he'
      simp only [Prod.mk.injEq, and_true] at he'
      refine ⟨he'.symm, ?_⟩
      rintro x ⟨-, t, hx, hmt, c', dx', dy', R', hq', hz, hin⟩
      obtain ⟨rfl, rfl, rfl, rfl⟩ := hq.unique hq'
      rw [Bool.eq_false_iff, ne_eq, hx.lt_iff]
      rw [← trans_mulVec_z] at hz
      exact fun ha => hn hz t hmt ha hin
    · rw [he] at he'; simp at he'
  hit := by
    rintro s q s' ⟨c, dx, dy, R, hq, hdx, hdy, hR⟩ hs he'
    simp only [planeIx] at he' ⊢
    rcases planeIntersect_cases hF s q (Ray.make origin direction minHit maxHit any) c o (unit d) dx dy m R hq hdx hdy hR hs
      h.unit_sq h.nonneg with ⟨he, hn⟩ | ⟨hz, t, x, y, h1, h2, h3, k1, k2, k3, k4, n, hd', h4, he, _⟩
    · rw [he] at he'; simp at he'
    · rw [he] at he'
      simp only [Prod.mk.injEq, and_true] at he'
      subst he'
      rw [trans_mulVec_z] at hz
      have hin : InRect c dx dy R (along o (unit d) t) := ⟨x, y, k1, k2, k3, k4, h3⟩
      refine ⟨⟨t, h4, h1, c, dx, dy, R, hq, hz, hin⟩, h4.lt_iff.2 h2, ?_⟩
      rintro x ⟨-, t', hx, hmt, c', dx', dy', R', hq', hz', hin'⟩
      obtain ⟨rfl, rfl, rfl, rfl⟩ := hq.unique hq'
      rw [Bool.eq_false_iff, ne_eq, hx.lt h4, rect_param_unique hR hz hin hin']
      exact lt_irrefl _
  cull := by
    rintro box q x hd _ hc ⟨hst, t, hx, hmt, c, dx, dy, R, hq, _, hin⟩ hlt
    exact cull hF (hstrict hst) any (hc hst) hx hmt.le ⟨c, dx, dy, R, hq, hin⟩ hlt

theorem planePart (hF : F.Exact) (h : RayBase origin direction minHit maxHit o d m M) (strict : Prop)
    (hstrict : strict → RayFor origin direction minHit maxHit o d m M) (any : Bool)
    {cs : List (Vec3 (XF F))} {xs ys : List (XF F)} {ms : List (Mat3 (XF F))} {coll : PlaneColl (XF F)}
    (hmake : PlaneColl.make cs xs ys ms = .ok coll)
    (hgood : ∀ (i : Nat) x y z w, coll.centers[i]? = some x → coll.dxs[i]? = some y → coll.dys[i]? = some z →
      coll.rotations[i]? = some w → ∃ c dx dy R, IsV x c ∧ y.Is dx ∧ z.Is dy ∧ IsM w R ∧ 0 < dx ∧ 0 < dy ∧ Orthonormal R)
    (hrange : strict → ∀ b ∈ coll.boxes, BoxInRange b)
    (hface : strict → d.z = 0 → ∀ b ∈ coll.boxes, ¬ b.1.z.Is o.z ∧ ¬ b.2.z.Is o.z)
    (opts : BuildOptions) (nodes : List (Node (XF F) (Plane (XF F)))) (t : Tree (XF F) (Plane (XF F)))
    (hb : Built coll.toCollection opts 0 (List.range coll.toCollection.size) t)
    (hrep : Represents nodes 0 t) (hn : t.numNodes ≤ nodes.length) :
    PartSpec planeIx nodes (Ray.make origin direction minHit maxHit any) M
      (fun i t => strict ∧ PlaneHit coll.centers coll.dxs coll.dys coll.rotations o (unit d) m i t) (PlaneRep coll o (unit d) m) ∧
    ScanSpec planeIx coll.toCollection (Ray.make origin direction minHit maxHit any) M
      (fun i t => strict ∧ PlaneHit coll.centers coll.dxs coll.dys coll.rotations o (unit d) m i t) (PlaneRep coll o (unit d) m) := by
  have mem : ∀ i b, coll.toCollection.box i = .ok b → b ∈ coll.boxes := fun i b hb => List.mem_of_getElem? (lookup_eq_ok.1 hb)
  refine partSpec_of_contract (planeContract hF h strict hstrict any) coll.toCollection opts nodes t hb hrep hn ?_ ?_ _ _ h.max ?_ ?_
  · intro hst
    refine ⟨fun i _ b hb => hrange hst b (mem i b hb), ?_, fun hz i _ b hb => hface hst hz b (mem i b hb)⟩
    intro i hi q b hq hb
    obtain ⟨x, y, z, w, h1, h2, h3, h4, rfl⟩ := PlaneColl.make_box hmake i b (lookup_eq_ok.1 hb)
    obtain ⟨_, e1, e2, e3, e4⟩ := PlaneColl.prim_ok hq
    rw [h1] at e1; cases e1
    rw [h2] at e2; cases e2
    rw [h3] at e3; cases e3
    rw [h4] at e4; cases e4
    obtain ⟨c, dx, dy, R, hc, hdx, hdy, hR, hx0, hy0, _⟩ := hgood i _ _ _ _ h1 h2 h3 h4
    obtain ⟨mn, mx, k1, k2, _, k3⟩ := planeBox_is hF _ _ _ _ c dx dy R hc hdx hdy hR hx0.le hy0.le
    refine ⟨mn, mx, k1, k2, ?_⟩
    rintro p ⟨c', dx', dy', R', hq', hs⟩
    obtain ⟨rfl, rfl, rfl, rfl⟩ := Plane.For.unique ⟨hc, hdx, hdy, hR⟩ hq'
    exact k3 p hs
  · intro i hi q hq
    obtain ⟨_, e1, e2, e3, e4⟩ := PlaneColl.prim_ok hq
    obtain ⟨c, dx, dy, R, hc, hdx, hdy, hR, hx0, hy0, ho⟩ := hgood i _ _ _ _ e1 e2 e3 e4
    exact ⟨c, dx, dy, R, ⟨hc, hdx, hdy, hR⟩, hx0, hy0, ho⟩
  · rintro i t ⟨hst, x, y, z, w, c, dx, dy, R, h1, h2, h3, h4, k1, k2, k3, k4, k5, k6, k7⟩
    obtain ⟨h7, h8⟩ := PlaneColl.prim_of h1 h2 h3 h4
    exact ⟨_, .fin t false, h7, h8, ⟨_, rfl⟩, hst, t, ⟨_, rfl⟩, k5, c, dx, dy, R, ⟨k1, k2, k3, k4⟩, k6, k7⟩
  · intro i q s0 s rh hi hq hs0 hs
    obtain ⟨e0, e1, e2, e3, e4⟩ := PlaneColl.prim_ok hq
    obtain ⟨c, dx, dy, R, hc, hdx, hdy, hR, hx0, hy0, ho⟩ := hgood i _ _ _ _ e1 e2 e3 e4
    simp only [planeIx] at hs ⊢
    rcases planeIntersect_cases hF s0 q (Ray.make origin direction minHit maxHit any) c o (unit d) dx dy m R ⟨hc, hdx, hdy, hR⟩
      hx0 hy0 ho hs0 h.unit_sq h.nonneg with ⟨he, hn⟩ | ⟨hz, t, x, y, h1, h2, h3, k1, k2, k3, k4, n, hd', h4, he, hnn⟩
    · rw [he] at hs; simp at hs
    · rw [he] at hs
      simp only [Prod.mk.injEq, and_true] at hs
      subst hs
      refine ⟨_, t, rfl, rfl, h4, q.center, q.dx, q.dy, q.rotation, c, dx, dy, R, x, y, ?_, ?_, ?_, ?_, hc, hdx, hdy, hR, h1, ?_,
        abs_le.2 ⟨k1, k2⟩, abs_le.2 ⟨k3, k4⟩, h3,
        fun hx1 hy1 => plane_normal hF hx0 hy0 ho hz (lt_of_le_of_lt h.nonneg h1) h3 hnn hx1 hy1⟩
      · rw [e0]; exact e1
      · rw [e0]; exact e2
      · rw [e0]; exact e3
      · rw [e0]; exact e4
      · rw [← trans_mulVec_z]; exact hz

/-! ### triangle meshes -/

/-- the points of a triangle -/
def Triangle.Surf (q : Triangle (XF F)) (x : Vec3 ℝ) : Prop := ∃ A B C, q.For A B C ∧ InTriangle A B C x

/-- the hits of the ray with a triangle -/
def Triangle.G (o u : Vec3 ℝ) (m : ℝ) (q : Triangle (XF F)) (x : XF F) : Prop :=
  ∃ t, x.Is t ∧ m ≤ t ∧ ∃ A B C, q.For A B C ∧ Vec3.dot (triPerp A B C) u ≠ 0 ∧ InTriangle A B C (along o u t)

/-- the hits of the ray with a triangle, up to the tolerance -/
def Triangle.Near (tol : ℝ) (o u : Vec3 ℝ) (m : ℝ) (q : Triangle (XF F)) (x : XF F) : Prop :=
  ∃ t, x.Is t ∧ m ≤ t ∧ ∃ A B C p r, q.For A B C ∧ Vec3.dot (triPerp A B C) u ≠ 0 ∧ along o u t = bary A B C p r ∧
    ∀ y ∈ [p, r, 1 - p - r], -tol ≤ y * |Vec3.dot (triPerp A B C) u|

theorem Triangle.For.unique {q : Triangle (XF F)} {A B C A' B' C' : Vec3 ℝ} (h : q.For A B C) (h' : q.For A' B' C') :
    A = A' ∧ B = B' ∧ C = C' := by
  have e1 := h.a.unique h'.a
  have e2 := h.b.unique h'.b
  have e3 := h.c.unique h'.c
  subst e1
  have x2 := congrArg Vec3.x e2; have y2 := congrArg Vec3.y e2; have z2 := congrArg Vec3.z e2
  have x3 := congrArg Vec3.x e3; have y3 := congrArg Vec3.y e3; have z3 := congrArg Vec3.z e3
  simp only [Vec3.sub_x, Vec3.sub_y, Vec3.sub_z] at x2 y2 z2 x3 y3 z3
  refine ⟨rfl, ?_, ?_⟩ <;> ext <;> linarith

theorem tri_margin {A B C u : Vec3 ℝ} {e p q : ℝ} (hdet : triDet A B C u ≠ 0) (k1 : -(e / |triDet A B C u|) ≤ p)
    (k2 : -(e / |triDet A B C u|) ≤ q) (k3 : -(e / |triDet A B C u|) ≤ 1 - p - q) :
    ∀ x ∈ [p, q, 1 - p - q], -e ≤ x * |Vec3.dot (triPerp A B C) u| := by
  have hpos : 0 < |triDet A B C u| := abs_pos.2 hdet
  have key : ∀ x, -(e / |triDet A B C u|) ≤ x → -e ≤ x * |triDet A B C u| := by
    intro x hx
    rwa [← neg_div, div_le_iff₀ hpos] at hx
  unfold triPerp
  rw [← abs_triDet]
  intro x hx
  simp only [List.mem_cons, List.not_mem_nil, or_false] at hx
  rcases hx with rfl | rfl | rfl
  · exact key _ k1
  · exact key _ k2
  · exact key _ k3

theorem triContract (hF : F.Exact) (h : RayBase origin direction minHit maxHit o d m M) (strict : Prop)
    (hstrict : strict → RayFor origin direction minHit maxHit o d m M) (any : Bool)
    (mesh : MeshColl (XF F)) :
    Contract (triIx mesh) (Ray.make origin direction minHit maxHit any)
      (fun q => ∃ A B C, q.For A B C) (fun s => s.minHit.Is m)
      (fun q x => strict ∧ Triangle.G o (unit d) m q x) (Triangle.Near (4 * F.eps) o (unit d) m) (fun b q => strict → CoversOf Triangle.Surf o d b q) where
  lawful := XF.lawful F
  prep_hd := rfl
  prep_inv := h.min
  inv := by
    rintro s q _ hs
    simp only [triIx, triIntersect_minHit]; exact hs
  miss := by
    rintro s q s' ⟨A, B, C, hq⟩ hs he'
    simp only [triIx] at he' ⊢
    rcases triIntersect_cases hF s q (Ray.make origin direction minHit maxHit any) A B C o (unit d) m hq h.org (h.dirUnit hF any) hs
      with ⟨he, hn⟩ | ⟨_, t, u, v, _, _, _, _, _, _, hd', u', v', _, _, _, he⟩
    · rw [he] at he'
      simp only [Prod.mk.injEq, and_true] at he'
      refine ⟨he'.symm, ?_⟩
      rintro x ⟨-, t, hx, hmt, A', B', C', hq', hz, hin⟩
      obtain ⟨rfl, rfl, rfl⟩ := hq.unique hq'
      rw [Bool.eq_false_iff, ne_eq, hx.lt_iff]
      exact fun ha => hn ((triDet_ne_zero _ _ _ _).2 hz) t hmt ha hin
    · rw [he] at he'; simp at he'
  hit := by
    rintro s q s' ⟨A, B, C, hq⟩ hs he'
    simp only [triIx] at he' ⊢
    rcases triIntersect_cases hF s q (Ray.make origin direction minHit maxHit any) A B C o (unit d) m hq h.org (h.dirUnit hF any) hs
      with ⟨he, hn⟩ | ⟨hdet, t, u, v, h1, h2, h3, k1, k2, k3, hd', u', v', h4, _, _, he⟩
    · rw [he] at he'; simp at he'
    · rw [he] at he'
      simp only [Prod.mk.injEq, and_true] at he'
      subst he'
      refine ⟨⟨t, h4, h1, A, B, C, u, v, hq, (triDet_ne_zero _ _ _ _).1 hdet, h3, tri_margin hdet k1 k2 k3⟩, h4.lt_iff.2 h2, ?_⟩
      rintro x ⟨-, t', hx, hmt, A', B', C', hq', hz, ⟨u0, v0, _, _, _, hin⟩⟩
      obtain ⟨rfl, rfl, rfl⟩ := hq.unique hq'
      rw [Bool.eq_false_iff, ne_eq, hx.lt h4, triangle_param_unique hdet h3 hin]
      exact lt_irrefl _
  cull := by
    rintro box q x hd _ hc ⟨hst, t, hx, hmt, A, B, C, hq, _, hin⟩ hlt
    exact cull hF (hstrict hst) any (hc hst) hx hmt ⟨A, B, C, hq, hin⟩ hlt

theorem meshPart (hF : F.Exact) (h : RayBase origin direction minHit maxHit o d m M) (strict : Prop)
    (hstrict : strict → RayFor origin direction minHit maxHit o d m M) (any : Bool)
    {vs : List (Vec3 (XF F))} {fs : List (Vec3 Nat)} {mesh : MeshColl (XF F)} (hmake : MeshColl.make vs fs = .ok mesh)
    (hgood : ∀ v ∈ mesh.vertices, ∃ A, IsV v A)
    (hrange : strict → ∀ b ∈ mesh.boxes, BoxInRange b)
    (hface : strict → d.z = 0 → ∀ b ∈ mesh.boxes, ¬ b.1.z.Is o.z ∧ ¬ b.2.z.Is o.z)
    (opts : BuildOptions) (nodes : List (Node (XF F) (Triangle (XF F)))) (t : Tree (XF F) (Triangle (XF F)))
    (hb : Built mesh.toCollection opts 0 (List.range mesh.toCollection.size) t)
    (hrep : Represents nodes 0 t) (hn : t.numNodes ≤ nodes.length) :
    PartSpec (triIx mesh) nodes (Ray.make origin direction minHit maxHit any) M
      (fun i t => strict ∧ FaceHit mesh.vertices mesh.faces o (unit d) m i t) (FaceRep mesh o (unit d) m) ∧
    ScanSpec (triIx mesh) mesh.toCollection (Ray.make origin direction minHit maxHit any) M
      (fun i t => strict ∧ FaceHit mesh.vertices mesh.faces o (unit d) m i t) (FaceRep mesh o (unit d) m) := by
  have mem : ∀ i b, mesh.toCollection.box i = .ok b → b ∈ mesh.boxes := fun i b hb => List.mem_of_getElem? (lookup_eq_ok.1 hb)
  obtain ⟨e1, e2, e3, _⟩ := MeshColl.make_ok hmake
  have hprim : ∀ i q, mesh.toCollection.prim i = .ok q → ∃ f a b c A B C, mesh.faces[i]? = some f ∧
      mesh.vertices[f.x]? = some a ∧ mesh.vertices[f.y]? = some b ∧ mesh.vertices[f.z]? = some c ∧
      IsV a A ∧ IsV b B ∧ IsV c C ∧ q = Triangle.make a b c i := by
    intro i q hq
    obtain ⟨f, a, b, c, hf, ha, hb, hc, he⟩ := MeshColl.prim_ok hq
    obtain ⟨A, hA⟩ := hgood a (List.mem_of_getElem? ha)
    obtain ⟨B, hB⟩ := hgood b (List.mem_of_getElem? hb)
    obtain ⟨C, hC⟩ := hgood c (List.mem_of_getElem? hc)
    exact ⟨f, a, b, c, A, B, C, hf, ha, hb, hc, hA, hB, hC, he⟩
  refine partSpec_of_contract (triContract hF h strict hstrict any mesh) mesh.toCollection opts nodes t hb hrep hn ?_ ?_ _ _ h.max ?_ ?_
  · intro hst
    refine ⟨fun i _ b hb => hrange hst b (mem i b hb), ?_, fun hz i _ b hb => hface hst hz b (mem i b hb)⟩
    intro i hi q b hq hb
    obtain ⟨f, a, b', c, A, B, C, hf, ha, hb', hc, hA, hB, hC, rfl⟩ := hprim i q hq
    rw [mesh_box hmake (e2 ▸ hf) (e1 ▸ ha) (e1 ▸ hb') (e1 ▸ hc), Except.ok.injEq] at hb
    subst hb
    obtain ⟨k1, k2, k3⟩ := triBox_is hA hB hC
    refine ⟨_, _, k1, k2, ?_⟩
    rintro x ⟨A', B', C', hq', hin⟩
    obtain ⟨rfl, rfl, rfl⟩ := (Triangle.make_for hF hA hB hC i).unique hq'
    exact k3 x hin
  · intro i hi q hq
    obtain ⟨f, a, b', c, A, B, C, hf, ha, hb', hc, hA, hB, hC, rfl⟩ := hprim i q hq
    exact ⟨A, B, C, Triangle.make_for hF hA hB hC i⟩
  · rintro i t ⟨hst, A, B, C, ⟨f, a, b, c, hf, ha, hb, hc, hA, hB, hC⟩, hmt, hz, hin⟩
    obtain ⟨h7, h8⟩ := MeshColl.prim_of hf ha hb hc
    exact ⟨_, .fin t false, h7, h8, ⟨_, rfl⟩, hst, t, ⟨_, rfl⟩, hmt, A, B, C, Triangle.make_for hF hA hB hC i, hz, hin⟩
  · intro i q s0 s rh hi hq hs0 hs
    obtain ⟨f, a, b, c, A, B, C, hf, ha, hb, hc, hA, hB, hC, rfl⟩ := hprim i q hq
    simp only [triIx] at hs ⊢
    rcases triIntersect_cases hF s0 _ (Ray.make origin direction minHit maxHit any) A B C o (unit d) m
      (Triangle.make_for hF hA hB hC i) h.org (h.dirUnit hF any) hs0
      with ⟨he, hn⟩ | ⟨hdet, t, u, v, h1, h2, h3, k1, k2, k3, hd', u', v', h4, h5, h6, he⟩
    · rw [he] at hs; simp at hs
    · rw [he] at hs
      simp only [Prod.mk.injEq, and_true] at hs
      subst hs
      have look : ∀ k x, mesh.vertices[k]? = some x → ∃ n, lookup .oobIndex mesh.vertexNormals k = .ok n := by
        intro k x hx
        have := (List.getElem?_eq_some_iff.1 hx).1
        rw [e1] at this
        exact ⟨_, lookup_ok_of_lt (by omega)⟩
      obtain ⟨n0, hn0⟩ := look _ _ ha
      obtain ⟨n1, hn1⟩ := look _ _ hb
      obtain ⟨n2, hn2⟩ := look _ _ hc
      refine ⟨_, t, by
        simp only [triPost, Triangle.make, lookup_eq_ok.2 hf, hn0, hn1, hn2, run_bind_ok]; rfl, rfl, h4, A, B, C, u, v,
        ⟨f, a, b, c, hf, ha, hb, hc, hA, hB, hC⟩, h1, (triDet_ne_zero _ _ _ _).1 hdet, h3,
        tri_margin hdet k1 k2 k3, h5, h6⟩

end
end Blazert
