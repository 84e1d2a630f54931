/- `intersect1` with and without `any_hit`. -/
import Verif.Proofs.Compose
import Verif.Proofs.Scan

set_option autoImplicit false

namespace Blazert
open Scalar

variable {F : Fmt ℝ} {C P I : Type}

/-- the two states agree on the flag, and nothing was recorded yet if it is not set -/
def SameFlag (rh0 : RayHit (XF F)) (st st' : RayHit (XF F) × RayHit (XF F) × Bool) : Prop :=
  st.2.2 = st'.2.2 ∧ (st.2.2 = false → st.2.1 = rh0 ∧ st'.2.1 = rh0)

theorem intersectPart_flag {M : ℝ} {rh0 : RayHit (XF F)} (hrh0 : ∀ t, t < M → rh0.hitDistance.Above t)
    {ix : Intersector (XF F) P I} {always : Bool} {ray : Ray (XF F)} {q : Part C (XF F) P} {Hit : Nat → ℝ → Prop}
    {Rep : RayHit (XF F) → ℝ → Prop} (hp : PartSpec ix q.nodes ray M Hit Rep) {st r : RayHit (XF F) × RayHit (XF F) × Bool}
    (hst : st.2.2 = false → st.2.1 = rh0) (h : intersectPart (fun _ => ix) always ray (some q) st = .ok r) :
    ∃ b rh, traverse ix q.nodes ray st.1 = .ok (b, rh) ∧ r.2.2 = (st.2.2 || b) ∧ (r.2.2 = false → r.2.1 = rh0) := by
  obtain ⟨temp, rh, hit⟩ := st
  simp only [intersectPart] at h
  rcases hp temp with e | ⟨e, _⟩ | ⟨rh', t, e, h1, h2, _⟩
  · rw [e] at h; simp at h
  · rw [e] at h
    simp at h
    subst h
    exact ⟨false, temp, e, by simp, hst⟩
  · rw [e] at h
    simp only [run_bind_ok, Bool.true_and] at h
    refine ⟨true, rh', e, ?_⟩
    split at h
    · simp only [run_pure, Except.ok.injEq] at h
      subst h
      simp
    · rename_i hn
      simp only [run_pure, Except.ok.injEq] at h
      subst h
      simp only
      cases hit with
      | true => simp
      | false =>
        exfalso
        have := hst rfl
        simp only at this
        subst this
        exact hn (by rw [h1.lt_iff.2 (hrh0 t h2)]; simp)

theorem SameFlag.step {M : ℝ} {rh0 : RayHit (XF F)} (hrh0 : ∀ t, t < M → rh0.hitDistance.Above t)
    {ix : C → Intersector (XF F) P I} {always : Bool} {ray ray' : Ray (XF F)} {p : Option (Part C (XF F) P)}
    {PHit : Part C (XF F) P → Nat → ℝ → Prop} {PRep : Part C (XF F) P → RayHit (XF F) → ℝ → Prop}
    (hp : ∀ q, p = some q → PartSpec (ix q.coll) q.nodes ray M (PHit q) (PRep q))
    (hp' : ∀ q, p = some q → PartSpec (ix q.coll) q.nodes ray' M (PHit q) (PRep q))
    (hf : ∀ q, p = some q → ∀ rh1 rh2 rh1' rh2' b1 b2, traverse (ix q.coll) q.nodes ray rh1 = .ok (b1, rh1') →
      traverse (ix q.coll) q.nodes ray' rh2 = .ok (b2, rh2') → b1 = b2)
    {st st' r r' : RayHit (XF F) × RayHit (XF F) × Bool} (h : SameFlag rh0 st st')
    (e : intersectPart ix always ray p st = .ok r) (e' : intersectPart ix always ray' p st' = .ok r') :
    SameFlag rh0 r r' := by
  cases p with
  | none =>
    simp only [intersectPart, Except.ok.injEq] at e e'
    subst e e'
    exact h
  | some q =>
    obtain ⟨b, rh, h1, h2, h3⟩ := intersectPart_flag (ix := ix q.coll) hrh0 (hp q rfl) (fun hh => (h.2 hh).1) e
    obtain ⟨b', rh', h1', h2', h3'⟩ := intersectPart_flag (ix := ix q.coll) hrh0 (hp' q rfl)
      (fun hh => (h.2 (h.1.trans hh)).2) e'
    have hb := hf q rfl _ _ _ _ _ _ h1 h1'
    subst hb
    have he : r.2.2 = r'.2.2 := by rw [h2, h2', h.1]
    exact ⟨he, fun hh => ⟨h3 hh, h3' (he.symm.trans hh)⟩⟩

theorem planeIx_ray (i : PlaneI (XF F)) (pl : Plane (XF F)) (ray ray' : Ray (XF F)) :
    planeIx.isect i pl ray' = planeIx.isect i pl ray := by
  simp only [planeIx]
  unfold planeIntersect
  rfl

theorem intersect1_any (hF : F.Exact) {s : Scene (XF F)} {rs : List Nat} (hist : History s rs) (hc : s.committed = true)
    (hplain : s.Plain) {origin direction : Vec3 (XF F)} {minHit maxHit : XF F} {o d : Vec3 ℝ}
    {m M : ℝ} (h : RayBase origin direction minHit maxHit o d m M) 
    (rh0 : RayHit (XF F)) (hrh0 : ∀ t, t < M → rh0.hitDistance.Above t) (b b' : Bool) (rh rh' : RayHit (XF F))
    (h1 : s.intersect1 (Ray.make origin direction minHit maxHit false) rh0 = .ok (b, rh))
    (h2 : s.intersect1 (Ray.make origin direction minHit maxHit true) rh0 = .ok (b', rh')) : b = b' := by
  have hok := hist.ok
  have hm := hok.mesh; have hs := hok.spheres; have hp := hok.planes
  rw [hc] at hm hs hp
  simp only [Scene.intersect1, hplain.noCylinders] at h1 h2
  rw [run_bind_eq_ok] at h1 h2
  obtain ⟨a1, p1, h1⟩ := h1
  obtain ⟨a2, p2, h2⟩ := h2
  rw [run_bind_eq_ok] at h1 h2
  obtain ⟨b1, q1, h1⟩ := h1
  obtain ⟨b2, q2, h2⟩ := h2
  rw [run_bind_eq_ok] at h1 h2
  obtain ⟨c1, r1, h1⟩ := h1
  obtain ⟨c2, r2, h2⟩ := h2
  simp only [intersectPart, run_bind_ok, run_pure, Except.ok.injEq, Prod.mk.injEq] at h1 h2
  have key0 : SameFlag rh0 (RayHit.fresh, rh0, false) (RayHit.fresh, rh0, false) := ⟨rfl, fun _ => ⟨rfl, rfl⟩⟩
  have key1 : SameFlag rh0 a1 a2 := by
    have part : ∀ any q, s.mesh = some q → PartSpec (triIx q.coll) q.nodes (Ray.make origin direction minHit maxHit any) M
        (fun i t => False ∧ FaceHit q.coll.vertices q.coll.faces o (unit d) m i t) (FaceRep q.coll o (unit d) m) := by
      intro any q hq
      rw [hq] at hm
      obtain ⟨⟨v, f, hmake⟩, -⟩ := hm q rfl
      obtain ⟨t, hb, hr, hn⟩ := hm.tree
      exact (meshPart hF h False False.elim any hmake (hplain.vertices q hq) False.elim False.elim _ _ t hb hr hn).1
    refine key0.step hrh0 (part false) (part true) ?_ p1 p2
    intro q hq rh1 rh2 rh1' rh2' b1 b2 k1 k2
    rw [hq] at hm
    obtain ⟨t, hb, hr, hn⟩ := hm.tree
    refine traverse_any (triContract hF h False False.elim false q.coll) rfl _ rfl (fun _ _ => rfl) rfl _ t hr hn ?_
      (BoxesCover.trivial (fun _ _ h => h.elim) t) _ _ _ _ _ _ k1 k2
    intro p hpt
    obtain ⟨i, hi, hpi⟩ := hb.prim_mem hpt
    obtain ⟨f, a, b, c, hf, ha, hb, hc, rfl⟩ := MeshColl.prim_ok hpi
    obtain ⟨A, hA⟩ := hplain.vertices q hq a (List.mem_of_getElem? ha)
    obtain ⟨B, hB⟩ := hplain.vertices q hq b (List.mem_of_getElem? hb)
    obtain ⟨C, hC⟩ := hplain.vertices q hq c (List.mem_of_getElem? hc)
    exact ⟨A, B, C, Triangle.make_for hF hA hB hC i⟩
  have key2 : SameFlag rh0 b1 b2 := by
    have part : ∀ any q, s.spheres = some q →
        PartSpec (sphereIx q.coll) q.nodes (Ray.make origin direction minHit maxHit any) M
        (fun i t => False ∧ SphereHit q.coll.centers q.coll.radii o (unit d) m i t) (SphereRep q.coll o (unit d) m) := by
      intro any q hq
      rw [hq] at hs
      obtain ⟨⟨v, f, hmake⟩, -⟩ := hs q rfl
      obtain ⟨t, hb, hr, hn⟩ := hs.tree
      exact (spherePart hF h False False.elim any hmake (hplain.spheres q hq) False.elim False.elim _ _ t hb hr hn).1
    refine key1.step hrh0 (part false) (part true) ?_ q1 q2
    intro q hq rh1 rh2 rh1' rh2' b1 b2 k1 k2
    rw [hq] at hs
    obtain ⟨t, hb, hr, hn⟩ := hs.tree
    refine traverse_any (sphereContract hF h False False.elim false q.coll) rfl _ rfl (fun _ _ => rfl) rfl _ t hr hn ?_
      (BoxesCover.trivial (fun _ _ h => h.elim) t) _ _ _ _ _ _ k1 k2
    intro p hpt
    obtain ⟨i, hi, hpi⟩ := hb.prim_mem hpt
    obtain ⟨_, _, e1, e2⟩ := SphereColl.prim_ok hpi
    exact hplain.spheres q hq i _ _ e1 e2
  have key3 : SameFlag rh0 c1 c2 := by
    have part : ∀ any q, s.planes = some q →
        PartSpec planeIx q.nodes (Ray.make origin direction minHit maxHit any) M
        (fun i t => False ∧ PlaneHit q.coll.centers q.coll.dxs q.coll.dys q.coll.rotations o (unit d) m i t)
        (PlaneRep q.coll o (unit d) m) := by
      intro any q hq
      rw [hq] at hp
      obtain ⟨⟨v, f, g, k, hmake⟩, -⟩ := hp q rfl
      obtain ⟨t, hb, hr, hn⟩ := hp.tree
      exact (planePart hF h False False.elim any hmake (hplain.planes q hq) False.elim False.elim _ _ t hb hr hn).1
    refine key2.step (ix := fun _ => planeIx) hrh0 (part false) (part true) ?_ r1 r2
    intro q hq rh1 rh2 rh1' rh2' b1 b2 k1 k2
    rw [hq] at hp
    obtain ⟨t, hb, hr, hn⟩ := hp.tree
    refine traverse_any (planeContract hF h False False.elim false) rfl (Ray.make origin direction minHit maxHit true) rfl
      (fun _ _ => planeIx_ray _ _ _ _) rfl q.nodes t hr hn ?_
      (BoxesCover.trivial (fun _ _ h => h.elim) t) _ _ _ _ _ _ k1 k2
    intro p hpt
    obtain ⟨i, hi, hpi⟩ := hb.prim_mem hpt
    obtain ⟨_, e1, e2, e3, e4⟩ := PlaneColl.prim_ok hpi
    obtain ⟨c, dx, dy, R, hc, hdx, hdy, hR, hx0, hy0, ho⟩ := hplain.planes q hq i _ _ _ _ e1 e2 e3 e4
    exact ⟨c, dx, dy, R, ⟨hc, hdx, hdy, hR⟩, hx0, hy0, ho⟩
  rw [← h1.1, ← h2.1]
  exact key3.1

end Blazert
