/- Consequences of `intersect1_spec` for comparing queries. -/
import Verif.Proofs.AnyHit
import Verif.Proofs.Safe
import Verif.Spec.Queries

set_option autoImplicit false

namespace Blazert
open Scalar

variable {F : Fmt ℝ}

theorem Scene.Rep.near {s : Scene (XF F)} {o u : Vec3 ℝ} {m t : ℝ} {rh : RayHit (XF F)} (h : s.Rep o u m rh t) :
    s.Near (4 * F.eps) o u m rh.geomId rh.primId t := by
  rcases h with ⟨p, h1, h2, A, B, C, a, b, h3, h4, h5, h6, h7, _⟩ | ⟨p, h1, h2, x, y, c, r, h3, h4, h5, h6, h7, h8, _⟩ |
    ⟨p, h1, h2, x, y, z, w, c, dx, dy, R, a, b, h3, h4, h5, h6, h7, h8, h9, h10, h11, h12, h13, h14, h15, _⟩
  · exact .inl ⟨p, h1, h2, A, B, C, a, b, h3, h4, h5, h6, h7⟩
  · exact .inr (.inl ⟨p, h1, h2, x, y, c, r, h3, h4, h5, h6, h7, h8⟩)
  · exact .inr (.inr ⟨p, h1, h2, x, y, z, w, c, dx, dy, R, h3, h4, h5, h6, h7, h8, h9, h10, h11, h12, a, b, (abs_le.1 h13).1, (abs_le.1 h13).2,
      (abs_le.1 h14).1, (abs_le.1 h14).2, h15⟩)

theorem Scene.Hit.near {s : Scene (XF F)} {o u : Vec3 ℝ} {m t : ℝ} {g i : Nat} (h : s.Hit o u m g i t) {tol : ℝ}
    (htol : 0 ≤ tol) : s.Near tol o u m g i t := by
  rcases h with ⟨p, h1, h2, A, B, C, h3, h4, h5, a, b, ha, hb, hab, h6⟩ | h | h
  · refine .inl ⟨p, h1, h2, A, B, C, a, b, h3, h4, h5, h6, ?_⟩
    have : ∀ x, 0 ≤ x → -tol ≤ x * |Vec3.dot (triPerp A B C) u| := fun x hx => by
      have := mul_nonneg hx (abs_nonneg (Vec3.dot (triPerp A B C) u)); linarith
    simp only [List.mem_cons, List.not_mem_nil, or_false]
    rintro x (rfl | rfl | rfl)
    · exact this _ ha
    · exact this _ hb
    · exact this _ (by linarith)
  · exact .inr (.inl h)
  · exact .inr (.inr h)

theorem Scene.Clear.of_no_mesh {s : Scene (XF F)} (h : s.mesh = none) (tol : ℝ) (o u : Vec3 ℝ) (m : ℝ) : s.Clear tol o u m := by
  rintro g i t (⟨p, hp, _⟩ | h | h)
  · rw [h] at hp; simp at hp
  · exact .inr (.inl h)
  · exact .inr (.inr h)

/-- some object of the scene is met at the distance `t` -/
def Scene.AnyHit (s : Scene (XF F)) (o u : Vec3 ℝ) (m t : ℝ) : Prop := ∃ g i, s.Hit o u m g i t

theorem Scene.Sub.hit {s s' : Scene (XF F)} (h : s.Sub s') {o u : Vec3 ℝ} {m t : ℝ} {g i : Nat} (hh : s.Hit o u m g i t) :
    ∃ g' i', s'.Hit o u m g' i' t := by
  rcases hh with ⟨p, h1, h2, A, B, C, ⟨f, a, b, c, e1, e2, e3, e4, e5⟩, h4⟩ | ⟨p, h1, h2, x, y, c, r, h3, h4, h5⟩ |
    ⟨p, h1, h2, x, y, z, w, c, dx, dy, R, h3, h4, h5, h6, h7⟩
  · have : (some a, some b, some c) ∈ s.faceList := by
      simp only [Scene.faceList, h1, List.mem_map]
      exact ⟨f, List.mem_of_getElem? e1, by rw [e2, e3, e4]⟩
    have := h.faces this
    unfold Scene.faceList at this
    cases hp : s'.mesh with
    | none => rw [hp] at this; simp at this
    | some p' =>
      rw [hp] at this
      simp only [List.mem_map, Prod.mk.injEq] at this
      obtain ⟨f', g1, g2, g3, g4⟩ := this
      obtain ⟨j, hj⟩ := List.mem_iff_getElem?.1 g1
      exact ⟨_, j, .inl ⟨p', hp, rfl, A, B, C, ⟨f', a, b, c, hj, g2, g3, g4, e5⟩, h4⟩⟩
  · have : (x, y) ∈ s.sphereList := by
      simp only [Scene.sphereList, h1]
      exact List.mem_of_getElem? (i := i) (List.getElem?_zip_eq_some.2 ⟨h3, h4⟩)
    have := h.spheres this
    unfold Scene.sphereList at this
    cases hp : s'.spheres with
    | none => rw [hp] at this; simp at this
    | some p' =>
      rw [hp] at this
      obtain ⟨j, hj⟩ := List.mem_iff_getElem?.1 this
      obtain ⟨g1, g2⟩ := List.getElem?_zip_eq_some.1 hj
      exact ⟨_, j, .inr (.inl ⟨p', hp, rfl, x, y, c, r, g1, g2, h5⟩)⟩
  · have : (x, y, z, w) ∈ s.planeList := by
      simp only [Scene.planeList, h1]
      exact List.mem_of_getElem? (i := i) (List.getElem?_zip_eq_some.2 ⟨h3, List.getElem?_zip_eq_some.2
        ⟨h4, List.getElem?_zip_eq_some.2 ⟨h5, h6⟩⟩⟩)
    have := h.planes this
    unfold Scene.planeList at this
    cases hp : s'.planes with
    | none => rw [hp] at this; simp at this
    | some p' =>
      rw [hp] at this
      obtain ⟨j, hj⟩ := List.mem_iff_getElem?.1 this
      obtain ⟨g1, g2⟩ := List.getElem?_zip_eq_some.1 hj
      obtain ⟨g2, g3⟩ := List.getElem?_zip_eq_some.1 g2
      obtain ⟨g3, g4⟩ := List.getElem?_zip_eq_some.1 g3
      exact ⟨_, j, .inr (.inr ⟨p', hp, rfl, x, y, z, w, c, dx, dy, R, g1, g2, g3, g4, h7⟩)⟩

theorem Scene.Reordered.sub {T : Type} {s s' : Scene T} (h : s.Reordered s') : s.Sub s' :=
  ⟨h.faces.subset, h.spheres.subset, h.planes.subset⟩

theorem Scene.Reordered.symm {T : Type} {s s' : Scene T} (h : s.Reordered s') : s'.Reordered s :=
  ⟨h.faces.symm, h.spheres.symm, h.planes.symm⟩

section
variable {P I : Type}

theorem partSpec_scanSpec {ix : Intersector (XF F) P I} {nodes : List (Node (XF F) P)} {p : Collection (XF F) P}
    {ray : Ray (XF F)} {M : ℝ} {Hit : Nat → ℝ → Prop} {Rep : RayHit (XF F) → ℝ → Prop}
    (h : PartSpec ix nodes ray M Hit Rep ∧ ScanSpec ix p ray M Hit Rep) (hany : ray.anyHit = false)
    (hRep : ∀ rh t, Rep rh t → ∃ i, Hit i t) {rh rh' : RayHit (XF F)} {hit : Bool} (ht : traverse ix nodes ray rh = .ok (hit, rh'))
    {ps : List P} (hps : (List.range p.size).mapM p.prim = .ok ps) :
    hit = scanHit ix ray ps ∧ (hit = true → SameDistance rh'.hitDistance (ix.hitDistance (scan ix ray ps))) := by
  obtain ⟨h1, h2⟩ := h
  rcases h1 rh with e | ⟨e, hn⟩ | ⟨rh2, t, e, a1, a2, a3, a4⟩
  · rw [ht] at e; simp at e
  · rw [ht, Except.ok.injEq, Prod.mk.injEq] at e
    obtain ⟨rfl, rfl⟩ := e
    rcases h2 hany ps hps with ⟨e, _⟩ | ⟨_, rh3, t, b1, b2, b3, _⟩
    · exact ⟨e.symm, by simp⟩
    · obtain ⟨i, hi⟩ := hRep _ _ b3
      exact absurd (hn i t hi) (not_le.2 b2)
  · rw [ht, Except.ok.injEq, Prod.mk.injEq] at e
    obtain ⟨rfl, rfl⟩ := e
    obtain ⟨i, hi⟩ := hRep _ _ a3
    rcases h2 hany ps hps with ⟨_, hn⟩ | ⟨e, rh3, t', b1, b2, b3, b4⟩
    · exact absurd (hn i t hi) (not_le.2 a2)
    · obtain ⟨j, hj⟩ := hRep _ _ b3
      have : t = t' := le_antisymm (a4 hany j t' hj) (b4 i t hi)
      subst this
      exact ⟨e.symm, fun _ => ⟨t, a1, b1⟩⟩

theorem built_of_build {T : Type} [Scalar T] {part : StdPartition} {p : Collection T P} {o : BuildOptions}
    {nodes : List (Node T P)} {stats : Statistics} (h : build part p o [] = .ok (nodes, stats)) :
    ∃ t, Built p o 0 (List.range p.size) t ∧ Represents nodes 0 t ∧ t.numNodes ≤ nodes.length := by
  obtain ⟨t, bad, h1, _, h3⟩ := build_ok part p o [] _ h
  simp only [List.nil_append, List.length_nil, Prod.mk.injEq] at h3
  obtain ⟨rfl, rfl⟩ := h3
  have hrep := Tree.layout_represents h1.axesOk []
  rw [List.append_nil] at hrep
  exact ⟨t, h1, hrep.1, hrep.2⟩

end

theorem unit_smul {k : ℝ} (hk : 0 < k) {d : Vec3 ℝ} : unit (Vec3.smul k d) = unit d := by
  unfold unit
  rw [len_smul, abs_of_pos hk]
  ext <;> simp only [Vec3.divs_x, Vec3.divs_y, Vec3.divs_z, Vec3.smul_x, Vec3.smul_y, Vec3.smul_z] <;>
    exact mul_div_mul_left _ _ hk.ne'

end Blazert
