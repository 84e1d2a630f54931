/- C28-C32: triangle meshes. -/
import Verif.Proofs.Triangle
import Verif.Proofs.Mesh
import Verif.Samples
import Verif.SamplesReal

set_option autoImplicit false

namespace Blazert
open Scalar

section
variable {F : Fmt ℝ}

/-- **C28**.  For the triangle with vertices `A B C` and a ray `o + t d` that is not parallel to it (the triangle is then
not degenerate either): if the ray meets the closed triangle at `t` with `min ≤ t` and `t` below the closest distance so far,
the test accepts and records exactly `t`. -/
theorem C28_triangle_complete (hF : F.Exact) (i : TriI (XF F)) (a b c : Vec3 (XF F)) (id : Nat) (ray : Ray (XF F))
    (A B C o d : Vec3 ℝ) (m t : ℝ) (ha : IsV a A) (hb : IsV b B) (hc : IsV c C) (ho : IsV ray.origin o)
    (hd : IsV ray.direction d) (hm : i.minHit.Is m)
    (htrans : Vec3.dot (Vec3.cross (B - A) (C - A)) d ≠ 0)
    (hmeet : InTriangle A B C (along o d t)) (hmt : m ≤ t) (hth : i.hd.Above t) :
    (triIntersect i (Triangle.make a b c id) ray).2 = true ∧
    (triIntersect i (Triangle.make a b c id) ray).1.hd.Is t ∧
    (triIntersect i (Triangle.make a b c id) ray).1.primId = id := by
  have hdet := (triDet_ne_zero A B C d).2 htrans
  rcases triIntersect_cases hF i _ ray A B C o d m (Triangle.make_for hF ha hb hc id) ho hd hm with
    ⟨_, hn⟩ | ⟨_, t', u, v, _, _, h3, _, _, _, hd', u', v', h4, _, _, he⟩
  · exact absurd hmeet (hn hdet t hmt hth)
  · obtain ⟨u0, v0, _, _, _, h5⟩ := hmeet
    have := triangle_param_unique hdet h3 h5
    subst this
    rw [he]
    exact ⟨rfl, h4, rfl⟩

/-- **C28**, converse.  Whatever the test accepts is a crossing of the triangle's plane at a distance `t` in
`[min, closest so far)`, which is recorded, and the barycentric coordinates of the crossing are at least `-4 eps / |det|`,
where `det = n·d` for the (not normalised) normal `n = (A-B)×(C-A)`. -/
theorem C28_triangle_sound (hF : F.Exact) (i : TriI (XF F)) (a b c : Vec3 (XF F)) (id : Nat) (ray : Ray (XF F))
    (A B C o d : Vec3 ℝ) (m : ℝ) (ha : IsV a A) (hb : IsV b B) (hc : IsV c C) (ho : IsV ray.origin o)
    (hd : IsV ray.direction d) (hm : i.minHit.Is m)
    (hacc : (triIntersect i (Triangle.make a b c id) ray).2 = true) :
    ∃ t u v, m ≤ t ∧ i.hd.Above t ∧ (triIntersect i (Triangle.make a b c id) ray).1.hd.Is t ∧
      along o d t = bary A B C u v ∧
      ∀ x ∈ [u, v, 1 - u - v], -(4 * F.eps) ≤ x * |Vec3.dot (Vec3.cross (B - A) (C - A)) d| := by
  rcases triIntersect_cases hF i _ ray A B C o d m (Triangle.make_for hF ha hb hc id) ho hd hm with
    ⟨he, _⟩ | ⟨hdet, t, u, v, h1, h2, h3, k1, k2, k3, hd', u', v', h4, _, _, he⟩
  · rw [he] at hacc; simp at hacc
  · rw [he]
    refine ⟨t, u, v, h1, h2, h4, h3, ?_⟩
    rw [← abs_triDet]
    have hpos : 0 < |triDet A B C d| := abs_pos.2 hdet
    have key : ∀ x, -(4 * F.eps / |triDet A B C d|) ≤ x → -(4 * F.eps) ≤ x * |triDet A B C d| := by
      intro x hx
      rwa [← neg_div, div_le_iff₀ hpos] at hx
    intro x hx
    simp only [List.mem_cons, List.not_mem_nil, or_false] at hx
    rcases hx with rfl | rfl | rfl
    · exact key _ k1
    · exact key _ k2
    · exact key _ k3

/-- **C28**/**C30**.  A degenerate triangle, or one whose plane is parallel to the ray, is never hit (even if the ray runs
through it). -/
theorem C28_parallel_never_hit (hF : F.Exact) (i : TriI (XF F)) (a b c : Vec3 (XF F)) (id : Nat) (ray : Ray (XF F))
    (A B C o d : Vec3 ℝ) (m : ℝ) (ha : IsV a A) (hb : IsV b B) (hc : IsV c C) (ho : IsV ray.origin o)
    (hd : IsV ray.direction d) (hm : i.minHit.Is m)
    (hpar : Vec3.dot (Vec3.cross (B - A) (C - A)) d = 0) :
    triIntersect i (Triangle.make a b c id) ray = (i, false) :=
  triIntersect_det_zero hF i _ ray A B C o d m (Triangle.make_for hF ha hb hc id) ho hd hm
    (by by_contra h; exact (triDet_ne_zero A B C d).1 h hpar)

/-- the ray from `(1/4,1/4,-1)` along `z` hits the triangle `(0,0,0) (1,0,0) (0,1,0)` at distance 1 -/
example : (triIntersect (T := XF exactFmt) ⟨rl 0, (rl 0, rl 0), rl 5, 0⟩
    (Triangle.make (rvec 0 0 0) (rvec 1 0 0) (rvec 0 1 0) 3)
    ⟨rvec (1/4) (1/4) (-1), rvec 0 0 1, rvec 0 0 0, ⟨0, 0, 0⟩, rl 0, rl 5, false, false⟩).1.hd.Is 1 := by
  refine (C28_triangle_complete exactFmt_exact _ _ _ _ _ _ ⟨0, 0, 0⟩ ⟨1, 0, 0⟩ ⟨0, 1, 0⟩ ⟨1/4, 1/4, -1⟩ ⟨0, 0, 1⟩ 0 1
    (rvec_is _ _ _) (rvec_is _ _ _) (rvec_is _ _ _) (rvec_is _ _ _) (rvec_is _ _ _) (rl_is _) ?_ ?_ (by norm_num)
    (.inr ⟨5, rl_is _, by norm_num⟩)).2.1
  · norm_num [Vec3.dot, Vec3.cross]
  · refine ⟨1/4, 1/4, by norm_num, by norm_num, by norm_num, ?_⟩
    ext <;> norm_num [along, bary]

/-- The tolerance of C28 is absolute while `det` scales with the area: in `double`, a triangle with edges `2^-30` in the
plane `z = 0` is reported as hit by a ray crossing this plane at `(2^-22, 2^-22)`, 256 edge lengths away. -/
theorem C28_tolerance_is_absolute :
    (triIntersect (T := Double) ⟨dbl 0, (dbl 0, dbl 0), maxVal, 0⟩
      (Triangle.make (dvec 0 0 0) (dvec (1/2^30) 0 0) (dvec 0 (1/2^30) 0) 3)
      (Ray.make' (dvec (1/2^22) (1/2^22) (-1)) (dvec 0 0 1))).2 = true ∧
    (triIntersect (T := Double) ⟨dbl 0, (dbl 0, dbl 0), maxVal, 0⟩
      (Triangle.make (dvec 0 0 0) (dvec (1/2^30) 0 0) (dvec 0 (1/2^30) 0) 3)
      (Ray.make' (dvec (1/2^22) (1/2^22) (-1)) (dvec 0 0 1))).1.uv = (dbl 256, dbl 256) := by
  decide +kernel

/-- **C29**.  After a mesh hit on face `(A, B, C)` the reported `(u, v)` are the barycentric coordinates of the hit point
`o + t d`, where `t` is the reported distance. -/
theorem C29_uv_barycentric (hF : F.Exact) (mesh : MeshColl (XF F)) (i i' : TriI (XF F)) (tri : Triangle (XF F))
    (face : Vec3 Nat) (a b c : Vec3 (XF F)) (ray : Ray (XF F)) (rh rh' : RayHit (XF F)) (A B C o d : Vec3 ℝ) (m : ℝ)
    (hprim : mesh.toCollection.prim tri.primId = .ok tri) (hface : mesh.faces[tri.primId]? = some face)
    (hva : mesh.vertices[face.x]? = some a) (hvb : mesh.vertices[face.y]? = some b)
    (hvc : mesh.vertices[face.z]? = some c) (ha : IsV a A) (hb : IsV b B) (hc : IsV c C)
    (ho : IsV ray.origin o) (hd : IsV ray.direction d) (hm : i.minHit.Is m)
    (hhit : triIntersect i tri ray = (i', true)) (hpost : triPost mesh i' rh = .ok rh') :
    ∃ t u v, rh'.hitDistance.Is t ∧ rh'.uv.1.Is u ∧ rh'.uv.2.Is v ∧ rh'.primId = tri.primId ∧
      along o d t = bary A B C u v := by
  have htri := mesh_tri hprim hface hva hvb hvc
  have hfor : tri.For A B C := by rw [htri]; exact Triangle.make_for hF ha hb hc _
  rcases triIntersect_cases hF i _ ray A B C o d m hfor ho hd hm with
    ⟨he, _⟩ | ⟨hdet, t, u, v, h1, h2, h3, k1, k2, k3, hd', u', v', h4, h5, h6, he⟩
  · rw [he] at hhit; simp at hhit
  · rw [he] at hhit
    simp only [Prod.mk.injEq, and_true] at hhit
    subst hhit
    obtain ⟨_, _, _, _, _, _, _, _, rfl⟩ := triPost_ok hpost
    exact ⟨t, u, v, h4, h5, h6, rfl, h3⟩

/-- a hit at `(1/4, 1/2)` of the single face of a mesh meets the hypotheses of C29 -/
example : ∃ (mesh : MeshColl (XF exactFmt)) (i' : TriI (XF exactFmt)) (rh' : RayHit (XF exactFmt)),
    MeshColl.make [rvec 0 0 0, rvec 1 0 0, rvec 0 1 0] [⟨0, 1, 2⟩] = .ok mesh ∧
    triPost mesh i' RayHit.fresh = .ok rh' ∧ rh'.uv.1.Is (1/4) ∧ rh'.uv.2.Is (1/2) := by
  obtain ⟨mesh, hmesh⟩ : ∃ mesh, MeshColl.make (T := XF exactFmt) [rvec 0 0 0, rvec 1 0 0, rvec 0 1 0] [⟨0, 1, 2⟩] = .ok mesh :=
    ⟨_, rfl⟩
  let ray : Ray (XF exactFmt) := ⟨rvec (1/4) (1/2) (-1), rvec 0 0 1, rvec 0 0 0, ⟨0, 0, 0⟩, rl 0, rl 5, false, false⟩
  let i : TriI (XF exactFmt) := ⟨rl 0, (rl 0, rl 0), rl 5, 0⟩
  let tri : Triangle (XF exactFmt) := Triangle.make (rvec 0 0 0) (rvec 1 0 0) (rvec 0 1 0) 0
  have hb : InTriangle (⟨0, 0, 0⟩ : Vec3 ℝ) ⟨1, 0, 0⟩ ⟨0, 1, 0⟩ (along ⟨1/4, 1/2, -1⟩ ⟨0, 0, 1⟩ 1) := by
    refine ⟨1/4, 1/2, by norm_num, by norm_num, by norm_num, ?_⟩
    ext <;> norm_num [along, bary]
  obtain ⟨h1, h2, h3⟩ := C28_triangle_complete exactFmt_exact i (rvec 0 0 0) (rvec 1 0 0) (rvec 0 1 0) 0 ray ⟨0, 0, 0⟩ ⟨1, 0, 0⟩
    ⟨0, 1, 0⟩ ⟨1/4, 1/2, -1⟩ ⟨0, 0, 1⟩ 0 1 (rvec_is _ _ _) (rvec_is _ _ _) (rvec_is _ _ _) (rvec_is _ _ _) (rvec_is _ _ _)
    (rl_is _) (by norm_num [Vec3.dot, Vec3.cross]) hb (by norm_num) (.inr ⟨5, rl_is _, by norm_num⟩)
  have hpost : ∃ rh', triPost mesh (triIntersect i tri ray).1 RayHit.fresh = .ok rh' := by
    obtain rfl := Except.ok.inj hmesh
    simp only [triPost, show (triIntersect i tri ray).1.primId = 0 from h3]
    exact ⟨_, rfl⟩
  obtain ⟨rh', hrh⟩ := hpost
  obtain ⟨t, u, v, g1, g2, g3, _, g4⟩ := C29_uv_barycentric exactFmt_exact mesh i (triIntersect i tri ray).1 tri ⟨0, 1, 2⟩ (rvec 0 0 0)
    (rvec 1 0 0) (rvec 0 1 0) ray RayHit.fresh rh' ⟨0, 0, 0⟩ ⟨1, 0, 0⟩ ⟨0, 1, 0⟩ ⟨1/4, 1/2, -1⟩ ⟨0, 0, 1⟩ 0
    (by obtain rfl := Except.ok.inj hmesh; rfl) (by obtain rfl := Except.ok.inj hmesh; rfl)
    (by obtain rfl := Except.ok.inj hmesh; rfl) (by obtain rfl := Except.ok.inj hmesh; rfl)
    (by obtain rfl := Except.ok.inj hmesh; rfl) (rvec_is _ _ _) (rvec_is _ _ _) (rvec_is _ _ _) (rvec_is _ _ _) (rvec_is _ _ _)
    (rl_is _) (Prod.ext rfl h1) hrh
  have e1 := congrArg Vec3.x g4; have e2 := congrArg Vec3.y g4
  simp [along, bary] at e1 e2
  subst e1 e2
  exact ⟨mesh, _, rh', hmesh, hrh, by simpa using g2, by simpa using g3⟩

/-- **C30**.  If the ray meets two triangles in a common point at distance `t` in `[min, closest so far)`, and is not
parallel to both of them, then looking at both reports a hit at exactly `t`. -/
theorem C30_common_point (hF : F.Exact) (mesh : MeshColl (XF F)) (i : TriI (XF F)) (a b c a' b' c' : Vec3 (XF F)) (id id' : Nat)
    (ray : Ray (XF F)) (A B C A' B' C' o d : Vec3 ℝ) (m t : ℝ) (ha : IsV a A) (hb : IsV b B) (hc : IsV c C)
    (ha' : IsV a' A') (hb' : IsV b' B') (hc' : IsV c' C') (ho : IsV ray.origin o)
    (hd : IsV ray.direction d) (hm : i.minHit.Is m)
    (htrans : Vec3.dot (Vec3.cross (B - A) (C - A)) d ≠ 0 ∨ Vec3.dot (Vec3.cross (B' - A') (C' - A')) d ≠ 0)
    (h1 : InTriangle A B C (along o d t)) (h2 : InTriangle A' B' C' (along o d t)) (hmt : m ≤ t) (hth : i.hd.Above t) :
    (intersectLeaf (triIx mesh) ray [Triangle.make a b c id, Triangle.make a' b' c' id'] i false).2 = true ∧
    (intersectLeaf (triIx mesh) ray [Triangle.make a b c id, Triangle.make a' b' c' id'] i false).1.hd.Is t := by
  by_cases hp : Vec3.dot (Vec3.cross (B - A) (C - A)) d = 0
  · have e1 := C28_parallel_never_hit hF i a b c id ray A B C o d m ha hb hc ho hd hm hp
    have hp' := htrans.resolve_left (fun h => h hp)
    obtain ⟨e2, e3, _⟩ := C28_triangle_complete hF i a' b' c' id' ray A' B' C' o d m t ha' hb' hc' ho hd hm hp' h2
      hmt hth
    simp only [intersectLeaf, triIx, e1, e2]
    cases ray.anyHit <;> simp [e3]
  · obtain ⟨e1, e2, _⟩ := C28_triangle_complete hF i a b c id ray A B C o d m t ha hb hc ho hd hm hp h1 hmt hth
    have hm' : (triIntersect i (Triangle.make a b c id) ray).1.minHit.Is m := by
      rw [triIntersect_minHit]; exact hm
    have e3 : triIntersect (triIntersect i (Triangle.make a b c id) ray).1 (Triangle.make a' b' c' id') ray =
        ((triIntersect i (Triangle.make a b c id) ray).1, false) := by
      rcases triIntersect_cases hF (triIntersect i (Triangle.make a b c id) ray).1 _ ray A' B' C' o d m
        (Triangle.make_for hF ha' hb' hc' id') ho hd hm' with ⟨he, _⟩ | ⟨hdet, t', u, v, _, h4, h5, _⟩
      · exact he
      · exfalso
        obtain ⟨u0, v0, _, _, _, h6⟩ := h2
        have := triangle_param_unique hdet h5 h6
        subst this
        rcases h4 with h4 | ⟨x, h4, h7⟩
        · obtain ⟨_, e2⟩ := e2; rw [h4] at e2; cases e2
        · have := e2.unique h4; linarith
    simp only [intersectLeaf, triIx, e1, e3]
    cases ray.anyHit <;> simp [e2]

/-- **C30**.  A ray that crosses the common edge `AB` of the triangles `A B C` and `B A D` is reported. -/
theorem C30_shared_edge (hF : F.Exact) (mesh : MeshColl (XF F)) (i : TriI (XF F)) (a b c e : Vec3 (XF F)) (id id' : Nat)
    (ray : Ray (XF F)) (A B C D o d : Vec3 ℝ) (m t s : ℝ) (ha : IsV a A) (hb : IsV b B) (hc : IsV c C)
    (he : IsV e D) (ho : IsV ray.origin o) (hd : IsV ray.direction d) (hm : i.minHit.Is m)
    (htrans : Vec3.dot (Vec3.cross (B - A) (C - A)) d ≠ 0 ∨ Vec3.dot (Vec3.cross (A - B) (D - B)) d ≠ 0)
    (hs0 : 0 ≤ s) (hs1 : s ≤ 1) (hedge : along o d t = Vec3.smul (1 - s) A + Vec3.smul s B)
    (hmt : m ≤ t) (hth : i.hd.Above t) :
    (intersectLeaf (triIx mesh) ray [Triangle.make a b c id, Triangle.make b a e id'] i false).2 = true ∧
    (intersectLeaf (triIx mesh) ray [Triangle.make a b c id, Triangle.make b a e id'] i false).1.hd.Is t := by
  refine C30_common_point hF mesh i a b c b a e id id' ray A B C B A D o d m t ha hb hc hb ha he ho hd hm htrans
    ⟨s, 0, hs0, le_rfl, by linarith, ?_⟩ ⟨1 - s, 0, by linarith, le_rfl, by linarith, ?_⟩ hmt hth
  · rw [hedge]; ext <;> simp [bary]
  · rw [hedge]; ext <;> simp [bary] <;> ring

/-- a ray through the middle of the common edge of two triangles forming a roof -/
example : (intersectLeaf (triIx ⟨[], [], [], [], [], []⟩)
    ⟨rvec (1/2) 0 (-1), rvec 0 0 1, rvec 0 0 0, ⟨0, 0, 0⟩, rl 0, rl 5, false, false⟩
    [Triangle.make (rvec 0 0 0) (rvec 1 0 0) (rvec 0 1 1) 0, Triangle.make (rvec 1 0 0) (rvec 0 0 0) (rvec 0 (-1) 1) 1]
    (⟨rl 0, (rl 0, rl 0), rl 5, 0⟩ : TriI (XF exactFmt)) false).1.hd.Is 1 := by
  refine (C30_shared_edge exactFmt_exact _ _ _ _ _ _ _ _ _ ⟨0, 0, 0⟩ ⟨1, 0, 0⟩ ⟨0, 1, 1⟩ ⟨0, -1, 1⟩ ⟨1/2, 0, -1⟩ ⟨0, 0, 1⟩ 0 1
    (1/2) (rvec_is _ _ _) (rvec_is _ _ _) (rvec_is _ _ _) (rvec_is _ _ _) (rvec_is _ _ _) (rvec_is _ _ _) (rl_is _)
    (.inl ?_) (by norm_num) (by norm_num) ?_ (by norm_num) (.inr ⟨5, rl_is _, by norm_num⟩)).2
  · norm_num [Vec3.dot, Vec3.cross]
  · ext <;> norm_num [along]

end

section
variable {K : Type} [Field K] [LinearOrder K] [IsStrictOrderedRing K] [FloorRing K] {F : Fmt K}

/-- **C31**, any arithmetic.  The box stored for a face of a mesh contains every point of the triangle, and any box that
contains the three vertices contains it. -/
theorem C31_triangle_box (vertices : List (Vec3 (XF F))) (faces : List (Vec3 Nat)) (mesh : MeshColl (XF F))
    (hmake : MeshColl.make vertices faces = .ok mesh) (i : Nat) (face : Vec3 Nat) (a b c : Vec3 (XF F)) (A B C : Vec3 K)
    (hface : faces[i]? = some face) (hva : vertices[face.x]? = some a) (hvb : vertices[face.y]? = some b)
    (hvc : vertices[face.z]? = some c) (ha : IsV a A) (hb : IsV b B) (hc : IsV c C) :
    ∃ box mn mx, mesh.toCollection.box i = .ok box ∧ IsV box.1 mn ∧ IsV box.2 mx ∧
      (∀ p, InTriangle A B C p → InBox mn mx p) ∧
      (∀ mn' mx', InBox mn' mx' A → InBox mn' mx' B → InBox mn' mx' C → InBox mn' mx' mn ∧ InBox mn' mx' mx) := by
  obtain ⟨h1, h2, h3⟩ := triBox_is ha hb hc
  exact ⟨_, _, _, mesh_box hmake hface hva hvb hvc, h1, h2, h3, fun mn' mx' => triBox_least A B C mn' mx'⟩

end

section
variable {F : Fmt ℝ}

/-- **C31**, exact arithmetic.  The center stored for a face is in its box. -/
theorem C31_triangle_center (hF : F.Exact) (vertices : List (Vec3 (XF F))) (faces : List (Vec3 Nat)) (mesh : MeshColl (XF F))
    (hmake : MeshColl.make vertices faces = .ok mesh) (i : Nat) (face : Vec3 Nat) (a b c : Vec3 (XF F)) (A B C : Vec3 ℝ)
    (hface : faces[i]? = some face) (hva : vertices[face.x]? = some a) (hvb : vertices[face.y]? = some b)
    (hvc : vertices[face.z]? = some c) (ha : IsV a A) (hb : IsV b B) (hc : IsV c C) :
    ∃ ce p, mesh.toCollection.center i = .ok ce ∧ IsV ce p ∧ p = bary A B C (1/3) (1/3) ∧
      ∃ box mn mx, mesh.toCollection.box i = .ok box ∧ IsV box.1 mn ∧ IsV box.2 mx ∧ InBox mn mx p := by
  obtain ⟨box, mn, mx, h1, h2, h3, h4, _⟩ := C31_triangle_box vertices faces mesh hmake i face a b c A B C hface hva hvb hvc
    ha hb hc
  have hce := IsV.divs hF (XF.Is.nat hF 3) (by norm_num) ((ha.add hF hb).add hF hc)
  have hp : Vec3.divs (A + B + C) ((3 : ℕ) : ℝ) = bary A B C (1/3) (1/3) := by
    unfold bary; ext <;> simp <;> ring
  rw [hp] at hce
  exact ⟨_, _, mesh_center hmake hface hva hvb hvc, hce, rfl, box, mn, mx, h1, h2, h3,
    h4 _ ⟨1/3, 1/3, by norm_num, by norm_num, by norm_num, rfl⟩⟩

/-- a mesh with one face -/
example : ∃ mesh box mn mx, MeshColl.make (T := XF exactFmt) [rvec 0 0 0, rvec 2 0 0, rvec 0 2 4] [⟨0, 1, 2⟩] = .ok mesh ∧
    mesh.toCollection.box 0 = .ok box ∧ IsV box.1 mn ∧ IsV box.2 mx ∧ InBox mn mx ⟨1/2, 1/2, 1⟩ := by
  obtain ⟨mesh, hmesh⟩ : ∃ mesh, MeshColl.make (T := XF exactFmt) [rvec 0 0 0, rvec 2 0 0, rvec 0 2 4] [⟨0, 1, 2⟩] = .ok mesh :=
    ⟨_, rfl⟩
  obtain ⟨box, mn, mx, h1, h2, h3, h4, _⟩ := C31_triangle_box _ _ mesh hmesh 0 ⟨0, 1, 2⟩ _ _ _ ⟨0, 0, 0⟩ ⟨2, 0, 0⟩ ⟨0, 2, 4⟩ rfl rfl
    rfl rfl (rvec_is _ _ _) (rvec_is _ _ _) (rvec_is _ _ _)
  refine ⟨mesh, box, mn, mx, hmesh, h1, h2, h3, h4 _ ⟨1/4, 1/4, by norm_num, by norm_num, by norm_num, ?_⟩⟩
  ext <;> norm_num [bary]

/-- **C32**.  The normal reported for a mesh hit is the interpolation of the vertex normals, normalised: it has length 1
whenever the interpolation does not vanish.  Missing: vanishing interpolations, see `C32_opposite_faces`. -/
theorem C32_unit_normal_partial (hF : F.Exact) (mesh : MeshColl (XF F)) (i : TriI (XF F)) (rh rh' : RayHit (XF F))
    (face : Vec3 Nat) (a b c : Vec3 (XF F)) (A B C : Vec3 ℝ) (u v : ℝ)
    (hface : mesh.faces[i.primId]? = some face) (hva : mesh.vertexNormals[face.x]? = some a)
    (hvb : mesh.vertexNormals[face.y]? = some b) (hvc : mesh.vertexNormals[face.z]? = some c)
    (ha : IsV a A) (hb : IsV b B) (hc : IsV c C) (hu : i.uv.1.Is u) (hv : i.uv.2.Is v)
    (hne : bary A B C u v ≠ ⟨0, 0, 0⟩) (hpost : triPost mesh i rh = .ok rh') :
    ∃ n, IsV rh'.normal n ∧ len n = 1 ∧ bary A B C u v = Vec3.smul (len (bary A B C u v)) n := by
  obtain ⟨f', a', b', c', e1, e2, e3, e4, rfl⟩ := triPost_ok hpost
  rw [hface] at e1; cases e1
  rw [hva] at e2; cases e2
  rw [hvb] at e3; cases e3
  rw [hvc] at e4; cases e4
  have h := ((IsV.smul hF (((XF.Is.one hF).sub hF hu).sub hF hv) ha).add hF (IsV.smul hF hu hb)).add hF (IsV.smul hF hv hc)
  refine ⟨_, h.normalize hF hne, len_divs_len hne, ?_⟩
  have hl := (len_pos hne).ne'
  change _ = Vec3.smul _ (Vec3.divs (bary A B C u v) (len (bary A B C u v)))
  ext <;> simp only [Vec3.smul_x, Vec3.smul_y, Vec3.smul_z, Vec3.divs_x, Vec3.divs_y, Vec3.divs_z] <;> field_simp

/-- **C32**, flat shading.  For a face that shares no vertex with another face, a hit reports the geometric unit normal
`(B-A)×(C-A) / |(B-A)×(C-A)|`. -/
theorem C32_isolated_face (hF : F.Exact) (vertices : List (Vec3 (XF F))) (pre post : List (Vec3 Nat)) (face : Vec3 Nat)
    (mesh : MeshColl (XF F)) (hmake : MeshColl.make vertices (pre ++ face :: post) = .ok mesh)
    (hxy : face.x ≠ face.y) (hxz : face.x ≠ face.z) (hyz : face.y ≠ face.z)
    (hiso : ∀ g ∈ pre ++ post, ∀ k ∈ [face.x, face.y, face.z], g.x ≠ k ∧ g.y ≠ k ∧ g.z ≠ k)
    (a b c : Vec3 (XF F)) (A B C : Vec3 ℝ) (hva : vertices[face.x]? = some a) (hvb : vertices[face.y]? = some b)
    (hvc : vertices[face.z]? = some c) (ha : IsV a A) (hb : IsV b B) (hc : IsV c C)
    (hne : Vec3.cross (B - A) (C - A) ≠ ⟨0, 0, 0⟩)
    (i : TriI (XF F)) (u v : ℝ) (hid : i.primId = pre.length) (hu : i.uv.1.Is u) (hv : i.uv.2.Is v)
    (rh rh' : RayHit (XF F)) (hpost : triPost mesh i rh = .ok rh') :
    IsV rh'.normal (Vec3.divs (Vec3.cross (B - A) (C - A)) (len (Vec3.cross (B - A) (C - A)))) := by
  obtain ⟨a', b', c', k1, k2, k3, n1, n2, n3⟩ := isolated_normals hF hmake hxy hxz hyz hiso hva hvb hvc ha hb hc hne
  have hface : mesh.faces[i.primId]? = some face := by
    rw [(MeshColl.make_ok hmake).2.1, hid]; simp
  have hl := len_pos hne
  set N := Vec3.cross (B - A) (C - A) with hN
  set w := Vec3.divs (Vec3.divs N (len N)) 3 with hw
  have hbary : bary w w w u v = w := by unfold bary; ext <;> simp <;> ring
  have hwn : w = Vec3.smul (1 / 3) (Vec3.divs N (len N)) := by rw [hw]; ext <;> simp <;> ring
  have hlw : len w = 1 / 3 := by rw [hwn, len_smul, len_divs_len hne, abs_of_pos (by norm_num)]; norm_num
  have hwne : w ≠ ⟨0, 0, 0⟩ := by
    intro h
    rw [h, len, sq_eq_zero.2 rfl, Real.sqrt_zero] at hlw
    norm_num at hlw
  obtain ⟨n, h1, h2, h3⟩ := C32_unit_normal_partial hF mesh i rh rh' face a' b' c' w w w u v hface k1 k2 k3 n1 n2 n3 hu hv
    (by rw [hbary]; exact hwne) hpost
  rw [hbary, hlw, hwn] at h3
  convert h1 using 1
  have hx := congrArg Vec3.x h3; have hy := congrArg Vec3.y h3; have hz := congrArg Vec3.z h3
  simp only [Vec3.smul_x, Vec3.smul_y, Vec3.smul_z] at hx hy hz
  ext <;> linarith

/-- one triangle in the plane `z = 0`: the reported normal is `(0,0,1)` -/
example (rh' : RayHit (XF exactFmt)) (mesh : MeshColl (XF exactFmt))
    (hmake : MeshColl.make [rvec 0 0 0, rvec 1 0 0, rvec 0 1 0] [⟨0, 1, 2⟩] = .ok mesh)
    (h : triPost mesh ⟨rl 0, (rl (1/4), rl (1/4)), rl 5, 0⟩ RayHit.fresh = .ok rh') : IsV rh'.normal ⟨0, 0, 1⟩ := by
  have := C32_isolated_face exactFmt_exact [rvec 0 0 0, rvec 1 0 0, rvec 0 1 0] [] [] ⟨0, 1, 2⟩ mesh hmake (by decide) (by decide)
    (by decide) (by simp) _ _ _ ⟨0, 0, 0⟩ ⟨1, 0, 0⟩ ⟨0, 1, 0⟩ rfl rfl rfl (rvec_is _ _ _) (rvec_is _ _ _) (rvec_is _ _ _)
    (by intro h; have := congrArg Vec3.z h; norm_num [Vec3.cross] at this) _ (1/4) (1/4) rfl (rl_is _) (rl_is _) _ _ h
  convert this using 1
  have hN : Vec3.cross ((⟨1, 0, 0⟩ : Vec3 ℝ) - ⟨0, 0, 0⟩) (⟨0, 1, 0⟩ - ⟨0, 0, 0⟩) = ⟨0, 0, 1⟩ := by
    ext <;> norm_num [Vec3.cross]
  have hl : len ⟨0, 0, 1⟩ = 1 := len_unit (by norm_num [sq, Vec3.dot])
  rw [hN, hl]
  ext <;> norm_num

/-- **C32** is false in general: if two faces use the same vertices with opposite orientation the vertex normals cancel,
and a hit reports a NaN normal. -/
theorem C32_opposite_faces :
    ∃ r, query stablePartition [.addMesh [dvec 0 0 0, dvec 1 0 0, dvec 0 1 0] [⟨0, 1, 2⟩, ⟨0, 2, 1⟩], .commit]
      (Ray.make' (dvec (1/4) (1/4) (-1)) (dvec 0 0 1)) RayHit.fresh = .ok r ∧
      (r.1 = true ∧ r.2.hitDistance = dbl 1 ∧ r.2.normal = ⟨.nan, .nan, .nan⟩) :=
  exists_ok_of_eval (by decide +kernel)

end
end Blazert
