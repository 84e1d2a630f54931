/- Helper lemmas: how a scene query combines the answers of its geometries. -/
import Verif.Spec.Combine
import Verif.Proofs.Contract
import Verif.Proofs.Scene
import Verif.Proofs.SphereScan
import Verif.Proofs.Mesh

set_option autoImplicit false
set_option linter.unusedSectionVars false

namespace Blazert
open Scalar

variable {T P I C : Type} [Scalar T]

/-- `post` writes all members but `geomId`, and does not look at what was there -/
structure Overwrites (ix : Intersector T P I) : Prop where
  ok : ∀ i rh rh' r, ix.post i rh = .ok r → ix.post i rh' = .ok { r with geomId := rh'.geomId }

theorem tri_overwrites (m : MeshColl T) : Overwrites (triIx m) := by
  refine ⟨fun i rh rh' r h => ?_⟩
  simp only [triIx, triPost] at h ⊢
  simp only [run_bind_eq_ok] at h ⊢
  obtain ⟨f, hf, n0, h0, n1, h1, n2, h2, h3⟩ := h
  refine ⟨f, hf, n0, h0, n1, h1, n2, h2, ?_⟩
  simp only [run_pure, Except.ok.injEq] at h3 ⊢
  rw [← h3]

theorem sphere_overwrites (c : SphereColl T) : Overwrites (sphereIx c) := by
  refine ⟨fun i rh rh' r h => ?_⟩
  simp only [sphereIx, spherePost] at h ⊢
  simp only [run_bind_eq_ok] at h ⊢
  obtain ⟨f, hf, h3⟩ := h
  refine ⟨f, hf, ?_⟩
  simp only [run_pure, Except.ok.injEq] at h3 ⊢
  rw [← h3]

theorem plane_overwrites : Overwrites (planeIx (T := T)) := by
  refine ⟨fun i rh rh' r h => ?_⟩
  simp only [planeIx, planePost, Except.ok.injEq] at h ⊢
  rw [← h]

theorem cyl_overwrites : Overwrites (cylIx (T := T)) := by
  refine ⟨fun i rh rh' r h => ?_⟩
  simp only [cylIx, planePost, Except.ok.injEq] at h ⊢
  rw [← h]

/-- The query of one geometry depends on the record passed only in the members it does not write. -/
theorem traverse_record {ix : Intersector T P I} (ho : Overwrites ix) {nodes : List (Node T P)} {ray : Ray T} {rh r : RayHit T}
    {hit : Bool} (rh' : RayHit T) (h : traverse ix nodes ray rh = .ok (hit, r)) :
    traverse ix nodes ray rh' = .ok (hit, if hit then { r with geomId := rh'.geomId } else rh') := by
  unfold traverse at h ⊢
  simp only [run_bind_eq_ok] at h ⊢
  obtain ⟨st, h1, s, h2, h3⟩ := h
  refine ⟨st, h1, s, h2, ?_⟩
  unfold traverseFinish at h3 ⊢
  dsimp only at h3 ⊢
  split at h3
  · rename_i hc
    simp only [run_bind_eq_ok] at h3
    obtain ⟨r', h4, h5⟩ := h3
    simp only [run_pure, Except.ok.injEq, Prod.mk.injEq] at h5
    obtain ⟨rfl, rfl⟩ := h5
    simp only [hc, if_true, ho.ok _ _ rh' _ h4, run_bind_ok, run_pure]
  · rename_i hc
    simp only [run_pure, Except.ok.injEq, Prod.mk.injEq] at h3
    obtain ⟨rfl, rfl⟩ := h3
    simp [hc]

/-- the state of a scene query after some geometries, `A` being their answers -/
structure Sofar (A : RayHit T → Prop) (rh0 : RayHit T) (st : RayHit T × RayHit T × Bool) : Prop where
  hit : st.2.2 = true → A st.2.1
  miss : st.2.2 = false → st.2.1 = rh0
  best : ∀ r, A r → lt r.hitDistance st.2.1.hitDistance = false

/-- one more geometry -/
theorem Sofar.part (hl : LawfulLt T) {A : RayHit T → Prop} {rh0 : RayHit T} {st st' : RayHit T × RayHit T × Bool}
    (h : Sofar A rh0 st) {ix : C → Intersector T P I} (ho : ∀ c, Overwrites (ix c)) {always : Bool}
    (halways : always = true → ∀ r, ¬ A r) {ray : Ray T} {p : Option (Part C T P)}
    (hs : intersectPart ix always ray p st = .ok st') :
    Sofar (fun r => A r ∨ PartAnswers ix ray p r) rh0 st' := by
  obtain ⟨temp, rh, hit⟩ := st
  cases p with
  | none =>
    simp only [intersectPart, Except.ok.injEq] at hs
    subst hs
    refine ⟨fun e => .inl (h.hit e), h.miss, ?_⟩
    rintro r (hr | ⟨q, _, hq, -⟩)
    · exact h.best r hr
    · cases hq
  | some p =>
    simp only [intersectPart] at hs
    rw [run_bind_eq_ok] at hs
    obtain ⟨⟨b, t⟩, h1, hs⟩ := hs
    have h2 := traverse_record (ho p.coll) RayHit.fresh h1
    have hans : ∀ r, PartAnswers ix ray (some p) r → b = true ∧ r = { t with geomId := p.geomId } := by
      rintro r ⟨q, r', hq, h3, rfl⟩
      obtain rfl := Option.some.inj hq
      rw [h2] at h3
      simp only [Except.ok.injEq, Prod.mk.injEq] at h3
      obtain ⟨rfl, rfl⟩ := h3
      exact ⟨rfl, rfl⟩
    have hself : b = true → PartAnswers ix ray (some p) { t with geomId := p.geomId } := by
      rintro rfl
      exact ⟨p, _, rfl, h2, rfl⟩
    split at hs
    · rename_i hc
      simp only [run_pure, Except.ok.injEq] at hs
      subst hs
      simp only [Bool.and_eq_true, Bool.or_eq_true] at hc
      obtain ⟨hb, hc⟩ := hc
      refine ⟨fun _ => .inr (hself hb), fun e => (by cases e), ?_⟩
      rintro r (hr | hr)
      · rcases hc with hc | hc
        · exact absurd hr (halways hc r)
        · by_contra hne
          have hne' : lt r.hitDistance t.hitDistance = true := by simpa using hne
          have := h.best r hr
          rw [hl.trans _ _ _ hne' hc] at this
          cases this
      · rw [(hans r hr).2]
        exact hl.irrefl _
    · rename_i hc
      simp only [run_pure, Except.ok.injEq] at hs
      subst hs
      refine ⟨fun e => .inl (h.hit e), h.miss, ?_⟩
      rintro r (hr | hr)
      · exact h.best r hr
      · obtain ⟨rfl, rfl⟩ := hans r hr
        simp only [Bool.true_and, Bool.or_eq_true, not_or, Bool.not_eq_true] at hc
        exact hc.2

theorem intersect1_sofar (hl : LawfulLt T) {s : Scene T} {ray : Ray T} {rh0 out : RayHit T} {hit : Bool}
    (h : s.intersect1 ray rh0 = .ok (hit, out)) : ∃ temp, Sofar (s.Answers ray) rh0 (temp, out, hit) := by
  unfold Scene.intersect1 at h
  simp only [run_bind_eq_ok] at h
  obtain ⟨a, h1, b, h2, c, h3, d, h4, h5⟩ := h
  simp only [run_pure, Except.ok.injEq, Prod.mk.injEq] at h5
  have h0 : Sofar (fun _ => False) rh0 (RayHit.fresh, rh0, false) := ⟨fun e => (by cases e), fun _ => rfl, fun _ h => h.elim⟩
  have k1 := h0.part hl tri_overwrites (fun _ _ h => h) h1
  have k2 := k1.part hl sphere_overwrites (fun e => (by cases e)) h2
  have k3 := k2.part hl (fun _ => plane_overwrites) (fun e => (by cases e)) h3
  have k4 := k3.part hl (fun _ => cyl_overwrites) (fun e => (by cases e)) h4
  obtain ⟨x, y, z⟩ := d
  obtain ⟨rfl, rfl⟩ := h5
  refine ⟨x, ?_⟩
  have e : s.Answers ray = fun r => (((False ∨ PartAnswers triIx ray s.mesh r) ∨ PartAnswers sphereIx ray s.spheres r) ∨
      PartAnswers (fun _ => planeIx) ray s.planes r) ∨ PartAnswers (fun _ => cylIx) ray s.cylinders r := by
    funext r
    simp only [Scene.Answers, false_or, or_assoc]
  rw [e]
  exact k4

theorem intersectPart_defined {ix : C → Intersector T P I} (ho : ∀ c, Overwrites (ix c)) (always : Bool) (ray : Ray T)
    (p : Option (Part C T P)) (st : RayHit T × RayHit T × Bool) :
    (∃ st', intersectPart ix always ray p st = .ok st') ↔ PartDefined ix ray p := by
  obtain ⟨temp, rh, hit⟩ := st
  cases p with
  | none => exact ⟨fun _ q h => (by cases h), fun _ => ⟨_, rfl⟩⟩
  | some p =>
    simp only [intersectPart]
    constructor
    · rintro ⟨st', h⟩ q hq
      obtain rfl := Option.some.inj hq
      rw [run_bind_eq_ok] at h
      obtain ⟨⟨b, t⟩, h1, -⟩ := h
      exact ⟨_, traverse_record (ho _) _ h1⟩
    · intro h
      obtain ⟨⟨b, t⟩, h1⟩ := h p rfl
      rw [traverse_record (ho _) temp h1]
      simp only [run_bind_ok]
      generalize (if b = true then ({ t with geomId := temp.geomId } : RayHit T) else temp) = x
      cases hc : (b && (always || lt x.hitDistance rh.hitDistance)) <;> exact ⟨_, rfl⟩

theorem intersect1_defined (s : Scene T) (ray : Ray T) (rh0 : RayHit T) :
    (∃ r, s.intersect1 ray rh0 = .ok r) ↔ s.Defined ray := by
  unfold Scene.intersect1
  simp only [run_bind_eq_ok]
  constructor
  · rintro ⟨_, a, h1, b, h2, c, h3, d, h4, -⟩
    exact ⟨(intersectPart_defined tri_overwrites _ _ _ _).1 ⟨_, h1⟩, (intersectPart_defined sphere_overwrites _ _ _ _).1 ⟨_, h2⟩,
      (intersectPart_defined (fun _ => plane_overwrites) _ _ _ _).1 ⟨_, h3⟩,
      (intersectPart_defined (fun _ => cyl_overwrites) _ _ _ _).1 ⟨_, h4⟩⟩
  · intro h
    obtain ⟨a, h1⟩ := (intersectPart_defined tri_overwrites true ray _ (RayHit.fresh, rh0, false)).2 h.mesh
    obtain ⟨b, h2⟩ := (intersectPart_defined sphere_overwrites false ray _ a).2 h.spheres
    obtain ⟨c, h3⟩ := (intersectPart_defined (fun _ => plane_overwrites) false ray _ b).2 h.planes
    obtain ⟨d, h4⟩ := (intersectPart_defined (fun _ => cyl_overwrites) false ray _ c).2 h.cylinders
    exact ⟨_, a, h1, b, h2, c, h3, d, h4, rfl⟩

/-- a hit of one geometry is below the ray's maximum -/
theorem traverse_hit_lt {ix : Intersector T P I} (hpost : ∀ i rh r, ix.post i rh = .ok r → r.hitDistance = ix.hitDistance i)
    {nodes : List (Node T P)} {ray : Ray T} {rh r : RayHit T} (h : traverse ix nodes ray rh = .ok (true, r)) :
    lt r.hitDistance ray.maxHit = true := by
  unfold traverse at h
  simp only [run_bind_eq_ok] at h
  obtain ⟨st, -, s, -, h⟩ := h
  unfold traverseFinish at h
  dsimp only at h
  split at h
  · rename_i hc
    simp only [run_bind_eq_ok] at h
    obtain ⟨r', h4, h5⟩ := h
    simp only [run_pure, Except.ok.injEq, Prod.mk.injEq] at h5
    obtain ⟨-, rfl⟩ := h5
    rw [hpost _ _ _ h4]
    exact hc
  · simp at h

theorem tri_post_distance (m : MeshColl T) (i : TriI T) (rh r : RayHit T) (h : (triIx m).post i rh = .ok r) :
    r.hitDistance = (triIx m).hitDistance i := by
  simp only [triIx, triPost, run_bind_eq_ok] at h
  obtain ⟨f, -, n0, -, n1, -, n2, -, h3⟩ := h
  simp only [run_pure, Except.ok.injEq] at h3
  rw [← h3]; rfl

theorem sphere_post_distance (c : SphereColl T) (i : SphereI T) (rh r : RayHit T) (h : (sphereIx c).post i rh = .ok r) :
    r.hitDistance = (sphereIx c).hitDistance i := (spherePost_ok h).2

theorem plane_post_distance (i : PlaneI T) (rh r : RayHit T) (h : planePost i rh = .ok r) : r.hitDistance = i.hd := by
  simp only [planePost, Except.ok.injEq] at h
  rw [← h]

theorem Scene.Answers.lt_max {s : Scene T} {ray : Ray T} {r : RayHit T} (h : s.Answers ray r) :
    lt r.hitDistance ray.maxHit = true := by
  rcases h with ⟨q, r', -, h, rfl⟩ | ⟨q, r', -, h, rfl⟩ | ⟨q, r', -, h, rfl⟩ | ⟨q, r', -, h, rfl⟩
  · have := traverse_hit_lt (tri_post_distance _) h
    exact this
  · have := traverse_hit_lt (sphere_post_distance _) h
    exact this
  · have := traverse_hit_lt (ix := planeIx) plane_post_distance h
    exact this
  · have := traverse_hit_lt (ix := cylIx) plane_post_distance h
    exact this

end Blazert
