/- Triangle meshes: boxes, centers, vertex normals. -/
import Verif.Proofs.Triangle
import Verif.Proofs.Safe

set_option autoImplicit false
set_option linter.unusedSectionVars false

namespace Blazert
open Scalar

theorem triDet_eq_neg (A B C d : Vec3 ℝ) : triDet A B C d = -Vec3.dot (Vec3.cross (B - A) (C - A)) d := by
  simp only [triDet, Vec3.dot, Vec3.cross, Vec3.sub_x, Vec3.sub_y, Vec3.sub_z]; ring

theorem triDet_ne_zero (A B C d : Vec3 ℝ) : triDet A B C d ≠ 0 ↔ Vec3.dot (Vec3.cross (B - A) (C - A)) d ≠ 0 := by
  rw [triDet_eq_neg, neg_ne_zero]

theorem abs_triDet (A B C d : Vec3 ℝ) : |triDet A B C d| = |Vec3.dot (Vec3.cross (B - A) (C - A)) d| := by
  rw [triDet_eq_neg, abs_neg]

theorem triangle_param_unique {A B C o d : Vec3 ℝ} {t u v t' u' v' : ℝ} (hdet : triDet A B C d ≠ 0)
    (h : along o d t = bary A B C u v) (h' : along o d t' = bary A B C u' v') : t = t' := by
  obtain ⟨_, _, e3⟩ := cramer_unique A B C o d t u v h
  obtain ⟨_, _, f3⟩ := cramer_unique A B C o d t' u' v' h'
  exact mul_left_cancel₀ hdet (e3.symm.trans f3)

section
variable {T : Type} [Scalar T]

theorem mesh_tri {mesh : MeshColl T} {i : Nat} {tri : Triangle T} {face : Vec3 Nat} {a b c : Vec3 T}
    (hprim : mesh.toCollection.prim i = .ok tri) (hface : mesh.faces[i]? = some face)
    (hva : mesh.vertices[face.x]? = some a) (hvb : mesh.vertices[face.y]? = some b)
    (hvc : mesh.vertices[face.z]? = some c) : tri = Triangle.make a b c i := by
  obtain ⟨f, a', b', c', h1, h2, h3, h4, h5⟩ := MeshColl.prim_ok hprim
  rw [hface] at h1; cases h1
  rw [hva] at h2; cases h2
  rw [hvb] at h3; cases h3
  rw [hvc] at h4; cases h4
  exact h5

theorem triPost_ok {mesh : MeshColl T} {i : TriI T} {rh rh' : RayHit T} (h : triPost mesh i rh = .ok rh') :
    ∃ f n0 n1 n2, mesh.faces[i.primId]? = some f ∧ mesh.vertexNormals[f.x]? = some n0 ∧
      mesh.vertexNormals[f.y]? = some n1 ∧ mesh.vertexNormals[f.z]? = some n2 ∧
      rh' = { rh with
        hitDistance := i.hd, uv := i.uv, primId := i.primId,
        normal := Vec3.normalize
          (Vec3.smul (nat 1 - i.uv.1 - i.uv.2) n0 + Vec3.smul i.uv.1 n1 + Vec3.smul i.uv.2 n2) } := by
  unfold triPost at h
  rw [run_bind_eq_ok] at h
  obtain ⟨f, hf, h⟩ := h
  rw [run_bind_eq_ok] at h
  obtain ⟨a, ha, h⟩ := h
  rw [run_bind_eq_ok] at h
  obtain ⟨b, hb, h⟩ := h
  rw [run_bind_eq_ok] at h
  obtain ⟨c, hc, h⟩ := h
  simp only [run_pure, Except.ok.injEq] at h
  exact ⟨f, a, b, c, lookup_eq_ok.1 hf, lookup_eq_ok.1 ha, lookup_eq_ok.1 hb, lookup_eq_ok.1 hc, h.symm⟩

theorem triIntersect_minHit (i : TriI T) (tri : Triangle T) (ray : Ray T) : (triIntersect i tri ray).1.minHit = i.minHit := by
  unfold triIntersect
  simp only
  split
  · split <;> rfl
  · rfl

theorem mesh_box {vs : List (Vec3 T)} {fs : List (Vec3 Nat)} {m : MeshColl T} (h : MeshColl.make vs fs = .ok m) {i : Nat}
    {face : Vec3 Nat} {a b c : Vec3 T} (hface : fs[i]? = some face) (hva : vs[face.x]? = some a)
    (hvb : vs[face.y]? = some b) (hvc : vs[face.z]? = some c) : m.toCollection.box i = .ok (triBox a b c) := by
  obtain ⟨_, _, _, _, ⟨bs, rfl, hb⟩⟩ := MeshColl.make_ok h
  have hi := (List.getElem?_eq_some_iff.1 hface)
  obtain ⟨hi, he⟩ := hi
  have hi' : i < m.boxes.length := by rw [← hb.length_eq]; exact hi
  obtain ⟨v0, v1, v2, e0, e1, e2, e3⟩ := (List.forall₂_iff_get.1 hb).2 i hi hi'
  simp only [List.get_eq_getElem, he] at e0 e1 e2 e3
  rw [hva] at e0; cases e0
  rw [hvb] at e1; cases e1
  rw [hvc] at e2; cases e2
  exact lookup_eq_ok.2 (List.getElem?_eq_some_iff.2 ⟨hi', e3⟩)

theorem mesh_center {vs : List (Vec3 T)} {fs : List (Vec3 Nat)} {m : MeshColl T} (h : MeshColl.make vs fs = .ok m) {i : Nat}
    {face : Vec3 Nat} {a b c : Vec3 T} (hface : fs[i]? = some face) (hva : vs[face.x]? = some a)
    (hvb : vs[face.y]? = some b) (hvc : vs[face.z]? = some c) : m.toCollection.center i = .ok (triCenter a b c) := by
  obtain ⟨_, _, _, ⟨bs, rfl, hb⟩, _⟩ := MeshColl.make_ok h
  have hi := (List.getElem?_eq_some_iff.1 hface)
  obtain ⟨hi, he⟩ := hi
  have hi' : i < m.centers.length := by rw [← hb.length_eq]; exact hi
  obtain ⟨v0, v1, v2, e0, e1, e2, e3⟩ := (List.forall₂_iff_get.1 hb).2 i hi hi'
  simp only [List.get_eq_getElem, he] at e0 e1 e2 e3
  rw [hva] at e0; cases e0
  rw [hvb] at e1; cases e1
  rw [hvc] at e2; cases e2
  exact lookup_eq_ok.2 (List.getElem?_eq_some_iff.2 ⟨hi', e3⟩)

theorem addNormal_get {l l' : List (Vec3 T)} {v : Nat} {n : Vec3 T} (h : addNormal l v n = .ok l') (k : Nat) :
    l'[k]? = if k = v then (l[v]?).map (· + n) else l[k]? := by
  unfold addNormal at h
  rw [run_bind_eq_ok] at h
  obtain ⟨old, h1, h⟩ := h
  simp only [run_pure, Except.ok.injEq] at h
  subst h
  have h2 := lookup_eq_ok.1 h1
  have h3 := lookup_lt h1
  by_cases hk : k = v
  · subst hk; rw [if_pos rfl, h2, List.getElem?_set_self h3]; rfl
  · rw [if_neg hk, List.getElem?_set_ne (fun hh => hk hh.symm)]

/-- the vertex normals after one face -/
theorem meshFace_normals {vs : List (Vec3 T)} {m m' : MeshColl T} {f : Vec3 Nat} (h : meshFace vs m f = .ok m') :
    ∃ v0 v1 v2 l1 l2, vs[f.x]? = some v0 ∧ vs[f.y]? = some v1 ∧ vs[f.z]? = some v2 ∧
      addNormal m.vertexNormals f.x (Vec3.divs (triNormal v0 v1 v2) (nat 3)) = .ok l1 ∧
      addNormal l1 f.y (Vec3.divs (triNormal v0 v1 v2) (nat 3)) = .ok l2 ∧
      addNormal l2 f.z (Vec3.divs (triNormal v0 v1 v2) (nat 3)) = .ok m'.vertexNormals := by
  unfold meshFace at h
  rw [run_bind_eq_ok] at h
  obtain ⟨v0, h0, h⟩ := h
  rw [run_bind_eq_ok] at h
  obtain ⟨v1, h1, h⟩ := h
  rw [run_bind_eq_ok] at h
  obtain ⟨v2, h2, h⟩ := h
  simp only at h
  rw [run_bind_eq_ok] at h
  obtain ⟨n0, g0, h⟩ := h
  rw [run_bind_eq_ok] at h
  obtain ⟨n1, g1, h⟩ := h
  rw [run_bind_eq_ok] at h
  obtain ⟨n2, g2, h⟩ := h
  simp only [run_pure, Except.ok.injEq] at h
  subst h
  exact ⟨v0, v1, v2, n0, n1, lookup_eq_ok.1 h0, lookup_eq_ok.1 h1, lookup_eq_ok.1 h2, g0, g1, g2⟩

theorem normals_untouched {vs : List (Vec3 T)} (k : Nat) (fs : List (Vec3 Nat)) :
    ∀ (m m' : MeshColl T), fs.foldlM (meshFace vs) m = .ok m' → (∀ g ∈ fs, g.x ≠ k ∧ g.y ≠ k ∧ g.z ≠ k) →
      m'.vertexNormals[k]? = m.vertexNormals[k]? := by
  induction fs with
  | nil =>
    intro m m' h _
    simp only [List.foldlM_nil, run_pure, Except.ok.injEq] at h
    rw [h]
  | cons f fs ih =>
    intro m m' h hk
    rw [List.foldlM_cons, run_bind_eq_ok] at h
    obtain ⟨m1, h1, h⟩ := h
    rw [ih m1 m' h fun g hg => hk g (by simp [hg])]
    obtain ⟨v0, v1, v2, l1, l2, _, _, _, g0, g1, g2⟩ := meshFace_normals h1
    obtain ⟨hx, hy, hz⟩ := hk f (by simp)
    rw [addNormal_get g2, if_neg hz.symm, addNormal_get g1, if_neg hy.symm, addNormal_get g0, if_neg hx.symm]

end

/-! ### boxes -/

section
variable {K : Type} [Field K] [LinearOrder K] [IsStrictOrderedRing K] [FloorRing K] {F : Fmt K}

theorem bary_bounds {lo hi a b c u v : K} (ha : lo ≤ a ∧ a ≤ hi) (hb : lo ≤ b ∧ b ≤ hi) (hc : lo ≤ c ∧ c ≤ hi)
    (hu : 0 ≤ u) (hv : 0 ≤ v) (huv : u + v ≤ 1) :
    lo ≤ (1 - u - v) * a + u * b + v * c ∧ (1 - u - v) * a + u * b + v * c ≤ hi := by
  have hw : 0 ≤ 1 - u - v := by linarith
  have e : ∀ x : K, x = (1 - u - v) * x + u * x + v * x := fun x => by ring
  constructor
  · calc lo = (1 - u - v) * lo + u * lo + v * lo := e lo
      _ ≤ _ := by gcongr; exacts [ha.1, hb.1, hc.1]
  · calc _ ≤ (1 - u - v) * hi + u * hi + v * hi := by gcongr; exacts [ha.2, hb.2, hc.2]
      _ = hi := (e hi).symm

/-- corners of the box around three points -/
def minV3 (A B C : Vec3 K) : Vec3 K := Vec3.ofFn fun k => Min.min (C.get k) (Min.min (B.get k) (A.get k))
def maxV3 (A B C : Vec3 K) : Vec3 K := Vec3.ofFn fun k => Max.max (C.get k) (Max.max (B.get k) (A.get k))

theorem triBox_is {a b c : Vec3 (XF F)} {A B C : Vec3 K} (ha : IsV a A) (hb : IsV b B) (hc : IsV c C) :
    IsV (triBox a b c).1 (minV3 A B C) ∧ IsV (triBox a b c).2 (maxV3 A B C) ∧
      ∀ p, InTriangle A B C p → InBox (minV3 A B C) (maxV3 A B C) p := by
  refine ⟨?_, ?_, ?_⟩
  · refine IsV.ofFn fun i => (hc.get i).min ?_
    simp only [unity, Vec3.get_ofFn]
    exact (hb.get i).min (ha.get i)
  · refine IsV.ofFn fun i => (hc.get i).max ?_
    simp only [unity, Vec3.get_ofFn]
    exact (hb.get i).max (ha.get i)
  · rintro p ⟨u, v, hu, hv, huv, rfl⟩
    have hlo : ∀ x y z : K, Min.min z (Min.min y x) ≤ x ∧ Min.min z (Min.min y x) ≤ y ∧ Min.min z (Min.min y x) ≤ z :=
      fun x y z => ⟨(min_le_right _ _).trans (min_le_right _ _), (min_le_right _ _).trans (min_le_left _ _), min_le_left _ _⟩
    have hhi : ∀ x y z : K, x ≤ Max.max z (Max.max y x) ∧ y ≤ Max.max z (Max.max y x) ∧ z ≤ Max.max z (Max.max y x) :=
      fun x y z => ⟨(le_max_right _ _).trans (le_max_right _ _), (le_max_left _ _).trans (le_max_right _ _), le_max_left _ _⟩
    have key : ∀ x y z : K, Min.min z (Min.min y x) ≤ (1 - u - v) * x + u * y + v * z ∧
        (1 - u - v) * x + u * y + v * z ≤ Max.max z (Max.max y x) := fun x y z =>
      bary_bounds ⟨(hlo x y z).1, (hhi x y z).1⟩ ⟨(hlo x y z).2.1, (hhi x y z).2.1⟩ ⟨(hlo x y z).2.2, (hhi x y z).2.2⟩ hu hv huv
    exact ⟨key _ _ _, key _ _ _, key _ _ _⟩

theorem triBox_least (A B C mn mx : Vec3 K) (ha : InBox mn mx A) (hb : InBox mn mx B) (hc : InBox mn mx C) :
    InBox mn mx (minV3 A B C) ∧ InBox mn mx (maxV3 A B C) := by
  obtain ⟨⟨a1, a2⟩, ⟨a3, a4⟩, ⟨a5, a6⟩⟩ := ha
  obtain ⟨⟨b1, b2⟩, ⟨b3, b4⟩, ⟨b5, b6⟩⟩ := hb
  obtain ⟨⟨c1, c2⟩, ⟨c3, c4⟩, ⟨c5, c6⟩⟩ := hc
  refine ⟨⟨⟨?_, ?_⟩, ⟨?_, ?_⟩, ⟨?_, ?_⟩⟩, ⟨⟨?_, ?_⟩, ⟨?_, ?_⟩, ⟨?_, ?_⟩⟩⟩ <;>
    simp only [minV3, maxV3, Vec3.ofFn, Vec3.get_zero, Vec3.get_one, Vec3.get_two, le_min_iff, max_le_iff, min_le_iff,
      le_max_iff] <;> tauto

end

/-! ### normals -/

variable {F : Fmt ℝ}

theorem isolated_normals (hF : F.Exact) {vertices : List (Vec3 (XF F))} {pre post : List (Vec3 Nat)} {face : Vec3 Nat}
    {mesh : MeshColl (XF F)} (hmake : MeshColl.make vertices (pre ++ face :: post) = .ok mesh)
    (hxy : face.x ≠ face.y) (hxz : face.x ≠ face.z) (hyz : face.y ≠ face.z)
    (hiso : ∀ g ∈ pre ++ post, ∀ k ∈ [face.x, face.y, face.z], g.x ≠ k ∧ g.y ≠ k ∧ g.z ≠ k)
    {a b c : Vec3 (XF F)} {A B C : Vec3 ℝ} (hva : vertices[face.x]? = some a) (hvb : vertices[face.y]? = some b)
    (hvc : vertices[face.z]? = some c) (ha : IsV a A) (hb : IsV b B) (hc : IsV c C)
    (hne : Vec3.cross (B - A) (C - A) ≠ ⟨0, 0, 0⟩) :
    ∃ n0 n1 n2, mesh.vertexNormals[face.x]? = some n0 ∧ mesh.vertexNormals[face.y]? = some n1 ∧
      mesh.vertexNormals[face.z]? = some n2 ∧
      IsV n0 (Vec3.divs (Vec3.divs (Vec3.cross (B - A) (C - A)) (len (Vec3.cross (B - A) (C - A)))) 3) ∧
      IsV n1 (Vec3.divs (Vec3.divs (Vec3.cross (B - A) (C - A)) (len (Vec3.cross (B - A) (C - A)))) 3) ∧
      IsV n2 (Vec3.divs (Vec3.divs (Vec3.cross (B - A) (C - A)) (len (Vec3.cross (B - A) (C - A)))) 3) := by
  unfold MeshColl.make at hmake
  rw [List.foldlM_append, run_bind_eq_ok] at hmake
  obtain ⟨m1, h1, hmake⟩ := hmake
  rw [List.foldlM_cons, run_bind_eq_ok] at hmake
  obtain ⟨m2, h2, hmake⟩ := hmake
  obtain ⟨v0, v1, v2, l1, l2, e0, e1, e2, g0, g1, g2⟩ := meshFace_normals h2
  rw [hva] at e0; cases e0
  rw [hvb] at e1; cases e1
  rw [hvc] at e2; cases e2
  have hpre : ∀ k ∈ [face.x, face.y, face.z], ∀ g ∈ pre, g.x ≠ k ∧ g.y ≠ k ∧ g.z ≠ k :=
    fun k hk g hg => hiso g (by simp [hg]) k hk
  have hpost : ∀ k ∈ [face.x, face.y, face.z], ∀ g ∈ post, g.x ≠ k ∧ g.y ≠ k ∧ g.z ≠ k :=
    fun k hk g hg => hiso g (by simp [hg]) k hk
  have hzero : ∀ k ∈ [face.x, face.y, face.z], k < vertices.length → m1.vertexNormals[k]? = some (Vec3.const (nat 0)) := by
    intro k hk hlt
    rw [normals_untouched k pre _ _ h1 (hpre k hk)]
    simp [hlt]
  have hlast : ∀ k ∈ [face.x, face.y, face.z], mesh.vertexNormals[k]? = m2.vertexNormals[k]? := fun k hk =>
    normals_untouched k post _ _ hmake (hpost k hk)
  have lx := (List.getElem?_eq_some_iff.1 hva).1
  have ly := (List.getElem?_eq_some_iff.1 hvb).1
  have lz := (List.getElem?_eq_some_iff.1 hvc).1
  have hn : IsV (Vec3.const (nat 0) + Vec3.divs (triNormal a b c) (nat 3))
      (Vec3.divs (Vec3.divs (Vec3.cross (B - A) (C - A)) (len (Vec3.cross (B - A) (C - A)))) 3) := by
    have h3 : ((3 : ℕ) : ℝ) ≠ 0 := by norm_num
    have := IsV.add hF (IsV.const (XF.Is.zero hF)) (IsV.divs hF (XF.Is.nat hF 3) h3
      (IsV.normalize hF (IsV.cross hF (hb.sub hF ha) (hc.sub hF ha)) hne))
    rw [show ∀ w : Vec3 ℝ, (⟨0, 0, 0⟩ : Vec3 ℝ) + w = w from fun w => by ext <;> simp] at this
    simpa [triNormal] using this
  refine ⟨_, _, _, ?_, ?_, ?_, hn, hn, hn⟩
  · rw [hlast _ (by simp), addNormal_get g2, if_neg hxz, addNormal_get g1, if_neg hxy, addNormal_get g0, if_pos rfl,
      hzero _ (by simp) lx]; rfl
  · rw [hlast _ (by simp), addNormal_get g2, if_neg hyz, addNormal_get g1, if_pos rfl, addNormal_get g0, if_neg hxy.symm,
      hzero _ (by simp) ly]; rfl
  · rw [hlast _ (by simp), addNormal_get g2, if_pos rfl, addNormal_get g1, if_neg hyz.symm, addNormal_get g0,
      if_neg hxz.symm, hzero _ (by simp) lz]; rfl

end Blazert
