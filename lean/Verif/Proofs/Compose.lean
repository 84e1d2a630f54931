/- `intersect1` combines the results of the kinds of geometry. -/
import Verif.Proofs.Kinds

set_option autoImplicit false

namespace Blazert
open Scalar

variable {F : Fmt ℝ}

/-- what the state `(temp_rayhit, rayhit, hit)` of `intersect1` means after some blocks have been executed: `Hit` describes
the hits with the geometry of these blocks -/
def QState (M : ℝ) (rh0 : RayHit (XF F)) (any : Bool) (Hit : ℝ → Prop) (Rep : RayHit (XF F) → ℝ → Prop)
    (st : RayHit (XF F) × RayHit (XF F) × Bool) : Prop :=
  (st.2.2 = false ∧ st.2.1 = rh0 ∧ ∀ t, Hit t → M ≤ t) ∨
  (st.2.2 = true ∧ ∃ t, st.2.1.hitDistance.Is t ∧ t < M ∧ Rep st.2.1 t ∧ (any = false → ∀ t', Hit t' → t ≤ t'))

theorem QState.step {C P I : Type} {M : ℝ} {rh0 : RayHit (XF F)} {any : Bool} {Hit : ℝ → Prop}
    {Rep : RayHit (XF F) → ℝ → Prop} {st : RayHit (XF F) × RayHit (XF F) × Bool} (h : QState M rh0 any Hit Rep st)
    (hrh0 : ∀ t, t < M → rh0.hitDistance.Above t) (ix : C → Intersector (XF F) P I) (always : Bool) (ray : Ray (XF F))
    (hany : ray.anyHit = any) (p : Option (Part C (XF F) P)) (PHit : Part C (XF F) P → Nat → ℝ → Prop)
    (PRep : Part C (XF F) P → RayHit (XF F) → ℝ → Prop)
    (hp : ∀ q, p = some q → PartSpec (ix q.coll) q.nodes ray M (PHit q) (PRep q))
    (hal : always = true → st.2.2 = false)
    (hgeom : ∀ q, p = some q → ∀ rh t, PRep q rh t → Rep { rh with geomId := q.geomId } t) :
    intersectPart ix always ray p st = .error .oobStack ∨ ∃ st', intersectPart ix always ray p st = .ok st' ∧
      QState M rh0 any (fun t => Hit t ∨ ∃ q i, p = some q ∧ PHit q i t) Rep st' := by
  cases p with
  | none =>
    refine .inr ⟨st, rfl, ?_⟩
    simpa [QState] using h
  | some q =>
    obtain ⟨temp, rh, hit⟩ := st
    rcases hp q rfl temp with e | ⟨e, hm⟩ | ⟨rh', t, e, h1, h2, h3, h4⟩
    · exact .inl (by simp [intersectPart, e])
    · refine .inr ⟨(temp, rh, hit), by simp [intersectPart, e], ?_⟩
      rcases h with ⟨a1, a2, a3⟩ | ⟨a1, t, a2, a3, a4, a5⟩
      · refine .inl ⟨a1, a2, ?_⟩
        rintro t (ht | ⟨q', i, hq, ht⟩)
        · exact a3 t ht
        · cases hq; exact hm i t ht
      · refine .inr ⟨a1, t, a2, a3, a4, fun hf => ?_⟩
        rintro t' (ht | ⟨q', i, hq, ht⟩)
        · exact a5 hf t' ht
        · cases hq; exact a3.le.trans (hm i t' ht)
    · have new : (∀ t', any = false → Hit t' → t ≤ t') → QState M rh0 any (fun t => Hit t ∨ ∃ q' i, some q = some q' ∧ PHit q' i t)
          Rep (rh', { rh' with geomId := q.geomId }, true) := by
        intro hold
        refine .inr ⟨rfl, t, h1, h2, hgeom q rfl rh' t h3, fun hf => ?_⟩
        rintro t' (ht | ⟨q', i, hq, ht⟩)
        · exact hold t' hf ht
        · cases hq; exact h4 (hany.trans hf) i t' ht
      rcases h with ⟨a1, a2, a3⟩ | ⟨a1, t0, a2, a3, a4, a5⟩
      · simp only at a1 a2
        subst a1 a2
        have hlt : lt rh'.hitDistance rh.hitDistance = true := h1.lt_iff.2 (hrh0 t h2)
        refine .inr ⟨(rh', { rh' with geomId := q.geomId }, true), by simp [intersectPart, e, hlt], new fun t' _ ht => ?_⟩
        exact h2.le.trans (a3 t' ht)
      · have hal' : always = false := by
          cases always with
          | false => rfl
          | true => have := hal rfl; rw [a1] at this; simp at this
        simp only at a1
        subst a1 hal'
        cases hlt : lt rh'.hitDistance rh.hitDistance with
        | true =>
          refine .inr ⟨(rh', { rh' with geomId := q.geomId }, true), by simp [intersectPart, e, hlt], new fun t' hf ht => ?_⟩
          exact ((h1.lt a2).1 hlt).le.trans (a5 hf t' ht)
        | false =>
          refine .inr ⟨(rh', rh, true), by simp [intersectPart, e, hlt], .inr ⟨rfl, t0, a2, a3, a4, fun hf => ?_⟩⟩
          have hle := le_of_not_lt h1 a2 hlt
          rintro t' (ht | ⟨q', i, hq, ht⟩)
          · exact a5 hf t' ht
          · cases hq; exact hle.trans (h4 (hany.trans hf) i t' ht)

theorem QState.mono {M : ℝ} {rh0 : RayHit (XF F)} {any : Bool} {Hit Hit' : ℝ → Prop} {Rep : RayHit (XF F) → ℝ → Prop}
    {st : RayHit (XF F) × RayHit (XF F) × Bool} (h : QState M rh0 any Hit Rep st) (hh : ∀ t, Hit' t → Hit t) :
    QState M rh0 any Hit' Rep st := by
  rcases h with ⟨a1, a2, a3⟩ | ⟨a1, t, a2, a3, a4, a5⟩
  · exact .inl ⟨a1, a2, fun t ht => a3 t (hh t ht)⟩
  · exact .inr ⟨a1, t, a2, a3, a4, fun hf t' ht => a5 hf t' (hh t' ht)⟩

/-- `intersect1` before it comes to the cylinders -/
theorem three_kinds_spec (hF : F.Exact) {s : Scene (XF F)} {rs : List Nat} (hist : History s rs) (hc : s.committed = true)
    (hcont : s.Content) {origin direction : Vec3 (XF F)} {minHit maxHit : XF F} {o d : Vec3 ℝ}
    {m M : ℝ} (h : RayBase origin direction minHit maxHit o d m M) (strict : Prop)
    (hstrict : strict → RayFor origin direction minHit maxHit o d m M ∧ s.InRange ∧ s.OffZFaces o d) (any : Bool)
    (rh0 : RayHit (XF F)) (hrh0 : ∀ t, t < M → rh0.hitDistance.Above t) :
    s.intersect1 (Ray.make origin direction minHit maxHit any) rh0 = .error .oobStack ∨
    ∃ st, s.intersect1 (Ray.make origin direction minHit maxHit any) rh0 =
        (intersectPart (fun _ => cylIx) false (Ray.make origin direction minHit maxHit any) s.cylinders st >>=
          fun st => .ok (st.2.2, st.2.1)) ∧
      QState M rh0 any (fun t => strict ∧ ∃ g i, s.Hit o (unit d) m g i t) (s.Rep o (unit d) m) st := by
  have hok := hist.ok
  have hm := hok.mesh; have hs := hok.spheres; have hp := hok.planes
  rw [hc] at hm hs hp
  have q0 : QState M rh0 any (fun _ => False) (s.Rep o (unit d) m) (RayHit.fresh, rh0, false) :=
    .inl ⟨rfl, rfl, fun _ h => h.elim⟩
  rcases q0.step hrh0 triIx true (Ray.make origin direction minHit maxHit any) rfl s.mesh
    (fun q i t => strict ∧ FaceHit q.coll.vertices q.coll.faces o (unit d) m i t) (fun q => FaceRep q.coll o (unit d) m)
    (by
      intro q hq
      rw [hq] at hm
      obtain ⟨⟨v, f, hmake⟩, -⟩ := hm q rfl
      obtain ⟨t, hb, hr, hn⟩ := hm.tree
      exact (meshPart hF h strict (fun h => (hstrict h).1) any hmake (hcont.vertices q hq) (fun h => (hstrict h).2.1.meshRange q hq)
        (fun h hz => (hstrict h).2.2.mesh hz q hq) _ _ t hb hr hn).1)
    (fun _ => rfl) (fun q hq rh t hr => .inl ⟨q, hq, rfl, hr⟩) with e1 | ⟨st1, e1, q1⟩
  · left; simp [Scene.intersect1, e1]
  rcases q1.step hrh0 sphereIx false (Ray.make origin direction minHit maxHit any) rfl s.spheres
    (fun q i t => strict ∧ SphereHit q.coll.centers q.coll.radii o (unit d) m i t) (fun q => SphereRep q.coll o (unit d) m)
    (by
      intro q hq
      rw [hq] at hs
      obtain ⟨⟨v, f, hmake⟩, -⟩ := hs q rfl
      obtain ⟨t, hb, hr, hn⟩ := hs.tree
      exact (spherePart hF h strict (fun h => (hstrict h).1) any hmake (hcont.spheres q hq) (fun h => (hstrict h).2.1.sphereRange q hq)
        (fun h hz => (hstrict h).2.2.spheres hz q hq) _ _ t hb hr hn).1)
    (fun h => by simp at h) (fun q hq rh t hr => .inr (.inl ⟨q, hq, rfl, hr⟩)) with e2 | ⟨st2, e2, q2⟩
  · left; simp [Scene.intersect1, e1, e2]
  rcases q2.step hrh0 (fun _ => planeIx) false (Ray.make origin direction minHit maxHit any) rfl s.planes
    (fun q i t => strict ∧ PlaneHit q.coll.centers q.coll.dxs q.coll.dys q.coll.rotations o (unit d) m i t)
    (fun q => PlaneRep q.coll o (unit d) m)
    (by
      intro q hq
      rw [hq] at hp
      obtain ⟨⟨v, f, g, k, hmake⟩, -⟩ := hp q rfl
      obtain ⟨t, hb, hr, hn⟩ := hp.tree
      exact (planePart hF h strict (fun h => (hstrict h).1) any hmake (hcont.planes q hq) (fun h => (hstrict h).2.1.planeRange q hq)
        (fun h hz => (hstrict h).2.2.planes hz q hq) _ _ t hb hr hn).1)
    (fun h => by simp at h) (fun q hq rh t hr => .inr (.inr ⟨q, hq, rfl, hr⟩)) with e3 | ⟨st3, e3, q3⟩
  · left; simp [Scene.intersect1, e1, e2, e3]
  refine .inr ⟨st3, by simp only [Scene.intersect1, e1, run_bind_ok, e2, e3]; rfl, ?_⟩
  refine q3.mono ?_
  rintro t ⟨hst, g, i, ⟨p, hp, _, ht⟩ | ⟨p, hp, _, ht⟩ | ⟨p, hp, _, ht⟩⟩
  · exact .inl (.inl (.inr ⟨p, i, hp, hst, ht⟩))
  · exact .inl (.inr ⟨p, i, hp, hst, ht⟩)
  · exact .inr ⟨p, i, hp, hst, ht⟩

theorem intersect1_spec (hF : F.Exact) {s : Scene (XF F)} {rs : List Nat} (hist : History s rs) (hc : s.committed = true)
    (hplain : s.Plain) {origin direction : Vec3 (XF F)} {minHit maxHit : XF F} {o d : Vec3 ℝ}
    {m M : ℝ} (h : RayBase origin direction minHit maxHit o d m M) (strict : Prop)
    (hstrict : strict → RayFor origin direction minHit maxHit o d m M ∧ s.Good ∧ s.OffZFaces o d) (any : Bool)
    (rh0 : RayHit (XF F)) (hrh0 : ∀ t, t < M → rh0.hitDistance.Above t) :
    s.intersect1 (Ray.make origin direction minHit maxHit any) rh0 = .error .oobStack ∨
    ∃ hit rh, s.intersect1 (Ray.make origin direction minHit maxHit any) rh0 = .ok (hit, rh) ∧
      ((hit = false ∧ rh = rh0 ∧ (strict → ∀ g i t, s.Hit o (unit d) m g i t → M ≤ t)) ∨
       (hit = true ∧ ∃ t, rh.hitDistance.Is t ∧ t < M ∧ s.Rep o (unit d) m rh t ∧
        (strict → any = false → ∀ g i t', s.Hit o (unit d) m g i t' → t ≤ t'))) := by
  rcases three_kinds_spec hF hist hc hplain.toContent h strict
    (fun hs => ⟨(hstrict hs).1, (hstrict hs).2.1.toInRange, (hstrict hs).2.2⟩) any rh0 hrh0 with e | ⟨st, e, q⟩
  · exact .inl e
  · rw [hplain.noCylinders] at e
    refine .inr ⟨st.2.2, st.2.1, e, ?_⟩
    rcases q with ⟨a1, a2, a3⟩ | ⟨a1, t, a2, a3, a4, a5⟩
    · exact .inl ⟨a1, a2, fun hst g i t ht => a3 t ⟨hst, g, i, ht⟩⟩
    · exact .inr ⟨a1, t, a2, a3, a4, fun hst hf g i t' ht => a5 hf t' ⟨hst, g, i, ht⟩⟩

end Blazert
