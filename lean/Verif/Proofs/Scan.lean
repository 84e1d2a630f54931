/- Traversal compared with testing all primitives, and `any_hit` compared with closest-hit traversal. -/
import Verif.Proofs.Contract
import Verif.Spec.Scan

set_option autoImplicit false

namespace Blazert
open Scalar

variable {T P I : Type} [Scalar T] {ix : Intersector T P I} {ray : Ray T} {S : P → Prop} {Inv : I → Prop}
  {G Acc : P → T → Prop} {Covers : Vec3 T × Vec3 T → P → Prop}

theorem intersectLeaf_foldl (hany : ray.anyHit = false) (ps : List P) (s : I) (b : Bool) :
    (intersectLeaf ix ray ps s b).1 = ps.foldl (fun s p => (ix.isect s p ray).1) s := by
  induction ps generalizing s b with
  | nil => rfl
  | cons p ps ih => rw [intersectLeaf_cons, hany, Bool.and_false, if_neg (by simp), ih]; rfl

/-- what a scan achieves -/
theorem scan_spec (c : Contract ix ray S Inv G Acc Covers) (hany : ray.anyHit = false) (ps : List P) (hS : ∀ p ∈ ps, S p) :
    (scanHit ix ray ps = false ∧ ∀ p ∈ ps, ∀ d, G p d → lt d ray.maxHit = false) ∨
    (scanHit ix ray ps = true ∧ ∃ p ∈ ps, ∃ s0, Inv s0 ∧ ix.isect s0 p ray = (scan ix ray ps, true) ∧
      Acc p (ix.hitDistance (scan ix ray ps)) ∧
      ∀ q ∈ ps, ∀ d, G q d → lt d (ix.hitDistance (scan ix ray ps)) = false) := by
  obtain ⟨h1, _, _⟩ := intersectLeaf_spec c ps hS (ix.prepare ray) c.prep_inv false (by simp) _ rfl
  have h1 : Best ix ray Inv G Acc ps (ix.prepare ray) (scan ix ray ps) := by
    have h1 := h1.resolve_right (by rw [hany]; simp)
    rwa [intersectLeaf_foldl hany] at h1
  obtain ⟨h2, h3⟩ := h1
  rcases h2 with h2 | ⟨p, hp, s1, e1, e2, e3, e4⟩
  · left
    rw [h2, c.prep_hd] at h3
    exact ⟨by simp [scanHit, h2, c.prep_hd, c.lawful.irrefl], h3⟩
  · right
    rw [c.prep_hd] at e4
    exact ⟨e4, p, hp, s1, e1, e2, e3, h3⟩

/-! ### any_hit -/

theorem intersectLeaf_any (c : Contract ix ray S Inv G Acc Covers) (hany : ray.anyHit = false) (ray' : Ray T)
    (hany' : ray'.anyHit = true) (hix : ∀ s p, ix.isect s p ray' = ix.isect s p ray) (ps : List P) (hS : ∀ p ∈ ps, S p)
    (s : I) (hs : Inv s) :
    (intersectLeaf ix ray ps s false = (s, false) ∧ intersectLeaf ix ray' ps s false = (s, false)) ∨
    (∃ s1 s2, intersectLeaf ix ray ps s false = (s1, true) ∧ intersectLeaf ix ray' ps s false = (s2, true) ∧
      lt (ix.hitDistance s1) (ix.hitDistance s) = true ∧ lt (ix.hitDistance s2) (ix.hitDistance s) = true) := by
  induction ps generalizing s with
  | nil => exact .inl ⟨rfl, rfl⟩
  | cons p ps ih =>
    rw [intersectLeaf_cons, intersectLeaf_cons, hix, hany, hany']
    have hi := c.inv s p (hS p (by simp)) hs
    cases hq : ix.isect s p ray with
    | mk s' h =>
      rw [hq] at hi
      cases h with
      | false =>
        obtain ⟨rfl, _⟩ := c.miss _ _ _ (hS p (by simp)) hs hq
        simpa using ih (fun q hq => hS q (by simp [hq])) s' hs
      | true =>
        right
        obtain ⟨_, hlt, _⟩ := c.hit _ _ _ (hS p (by simp)) hs hq
        obtain ⟨h1, h2, _⟩ := intersectLeaf_spec c ps (fun q hq => hS q (by simp [hq])) s' hi true (fun _ => hany) _ rfl
        have h1 := h1.resolve_right (by rw [hany]; simp)
        refine ⟨(intersectLeaf ix ray ps s' true).1, s', ?_, by simp, ?_, hlt⟩
        · have : (intersectLeaf ix ray ps s' true).2 = true := h2.2 (.inl rfl)
          simp only [Bool.or_true, Bool.and_false, Bool.false_eq_true, if_false]
          exact Prod.ext rfl this
        · rcases h1.1 with h | ⟨_, _, _, _, _, _, h⟩
          · rw [h]; exact hlt
          · exact c.lawful.trans _ _ _ h hlt

/-- a ray that differs only in `any_hit` -/
theorem visit_any (c : Contract ix ray S Inv G Acc Covers) (hany : ray.anyHit = false) (ray' : Ray T)
    (hany' : ray' = { ray with anyHit := true }) (hix : ∀ s p, ix.isect s p ray' = ix.isect s p ray) (t : Tree T P)
    (hS : ∀ p ∈ t.prims, S p) (hc : BoxesCover Covers t) (v : VState T I) (hv : v.hd = ix.hitDistance v.isect)
    (hs : Inv v.isect) :
    (visit ix ray t v = (v, false) ∧ visit ix ray' t v = (v, false)) ∨
    (∃ v1 v2, visit ix ray t v = (v1, false) ∧ visit ix ray' t v = (v2, true) ∧
      lt (ix.hitDistance v1.isect) (ix.hitDistance v.isect) = true ∧
      lt (ix.hitDistance v2.isect) (ix.hitDistance v.isect) = true) := by
  have hbox : ∀ hd box, hitBox ray' hd box = hitBox ray hd box := by subst hany'; intro hd box; rfl
  have hnear : ∀ ax, nearFirst ray' ax = nearFirst ray ax := by subst hany'; intro ax; rfl
  have hany2 : ray'.anyHit = true := by rw [hany']
  induction t generalizing v with
  | leaf mn mx ps =>
    simp only [visit, hbox]
    have hS' : ∀ p ∈ ps, S p := by simpa [Tree.prims, Tree.leaves] using hS
    split
    · simp only [visitLeaf]
      rcases intersectLeaf_any c hany ray' hany2 hix ps hS' v.isect hs with ⟨h1, h2⟩ | ⟨s1, s2, h1, h2, h3, h4⟩
      · left; rw [h1, h2]; exact ⟨rfl, rfl⟩
      · right; rw [h1, h2]; exact ⟨_, _, by rw [hany]; rfl, by rw [hany2]; rfl, h3, h4⟩
    · exact .inl ⟨rfl, rfl⟩
  | branch mn mx ax l r ihl ihr =>
    obtain ⟨_, hcl, hcr⟩ := hc
    have hprims : (Tree.branch mn mx ax l r).prims = l.prims ++ r.prims := by simp [Tree.prims, Tree.leaves]
    have hSl : ∀ p ∈ l.prims, S p := fun p hp => hS p (by rw [hprims]; simp [hp])
    have hSr : ∀ p ∈ r.prims, S p := fun p hp => hS p (by rw [hprims]; simp [hp])
    simp only [visit, hbox, hnear]
    have key : ∀ a b : Tree T P, (∀ p ∈ b.prims, S p) → BoxesCover Covers b → (∀ p ∈ a.prims, S p) → BoxesCover Covers a →
        ((visit ix ray a v = (v, false) ∧ visit ix ray' a v = (v, false)) ∨
          (∃ v1 v2, visit ix ray a v = (v1, false) ∧ visit ix ray' a v = (v2, true) ∧
            lt (ix.hitDistance v1.isect) (ix.hitDistance v.isect) = true ∧
            lt (ix.hitDistance v2.isect) (ix.hitDistance v.isect) = true)) →
        ((visit ix ray b v = (v, false) ∧ visit ix ray' b v = (v, false)) ∨
          (∃ v1 v2, visit ix ray b v = (v1, false) ∧ visit ix ray' b v = (v2, true) ∧
            lt (ix.hitDistance v1.isect) (ix.hitDistance v.isect) = true ∧
            lt (ix.hitDistance v2.isect) (ix.hitDistance v.isect) = true)) →
        (((let q := visit ix ray a v; if q.2 = true then q else visit ix ray b q.1) = (v, false) ∧
            (let q := visit ix ray' a v; if q.2 = true then q else visit ix ray' b q.1) = (v, false)) ∨
          (∃ v1 v2, (let q := visit ix ray a v; if q.2 = true then q else visit ix ray b q.1) = (v1, false) ∧
            (let q := visit ix ray' a v; if q.2 = true then q else visit ix ray' b q.1) = (v2, true) ∧
            lt (ix.hitDistance v1.isect) (ix.hitDistance v.isect) = true ∧
            lt (ix.hitDistance v2.isect) (ix.hitDistance v.isect) = true)) := by
      intro a b hSb hcb hSa hca ha hb
      rcases ha with ⟨h1, h2⟩ | ⟨v1, v2, h1, h2, h3, h4⟩
      · simpa [h1, h2] using hb
      · right
        obtain ⟨e1, e2, _, _⟩ := visit_spec c a hSa hca v hv hs _ h1
        obtain ⟨_, _, e3, e4⟩ := visit_spec c b hSb hcb v1 e1 e2 _ rfl
        have hq : (visit ix ray b v1).2 = false := by
          rw [Bool.eq_false_iff]
          intro h
          have := (e4 h).1
          rw [hany] at this; simp at this
        refine ⟨(visit ix ray b v1).1, v2, ?_, by simp [h2], ?_, h4⟩
        · simp only [h1, Bool.false_eq_true, if_false]
          rw [← hq]
        · rcases (e3 hq).1 with h | ⟨_, _, _, _, _, _, h⟩
          · rw [h]; exact h3
          · exact c.lawful.trans _ _ _ h h3
    split
    · split
      · exact key l r hSr hcr hSl hcl (ihl hSl hcl v hv hs) (ihr hSr hcr v hv hs)
      · exact key r l hSl hcl hSr hcr (ihr hSr hcr v hv hs) (ihl hSl hcl v hv hs)
    · exact .inl ⟨rfl, rfl⟩

theorem traverseFinish_flag {s : I} {rh rh' : RayHit T} {b : Bool} (h : traverseFinish ix ray rh s = .ok (b, rh')) :
    b = lt (ix.hitDistance s) ray.maxHit := by
  simp only [traverseFinish] at h
  split at h
  · rename_i hh
    rw [run_bind_eq_ok] at h
    obtain ⟨_, _, h⟩ := h
    simp only [run_pure, Except.ok.injEq, Prod.mk.injEq] at h
    rw [hh, h.1]
  · rename_i hh
    simp only [run_pure, Except.ok.injEq, Prod.mk.injEq] at h
    rw [Bool.not_eq_true] at hh
    rw [hh, h.1]

/-- `any_hit` traversal and closest-hit traversal give the same answer, if both return. -/
theorem traverse_any (c : Contract ix ray S Inv G Acc Covers) (hany : ray.anyHit = false) (ray' : Ray T)
    (hany' : ray' = { ray with anyHit := true }) (hix : ∀ s p, ix.isect s p ray' = ix.isect s p ray)
    (hprep : ix.prepare ray' = ix.prepare ray) (nodes : List (Node T P)) (t : Tree T P) (hrep : Represents nodes 0 t)
    (hn : t.numNodes ≤ nodes.length) (hS : ∀ p ∈ t.prims, S p) (hc : BoxesCover Covers t) (rh1 rh2 rh1' rh2' : RayHit T)
    (b1 b2 : Bool) (h1 : traverse ix nodes ray rh1 = .ok (b1, rh1')) (h2 : traverse ix nodes ray' rh2 = .ok (b2, rh2')) :
    b1 = b2 := by
  have hmax : ray'.maxHit = ray.maxHit := by rw [hany']
  have e1 := (traverse_or ix nodes ray rh1 t hrep hn).resolve_left (by rw [h1]; simp)
  have e2 := (traverse_or ix nodes ray' rh2 t hrep hn).resolve_left (by rw [h2]; simp)
  rw [h1] at e1
  rw [h2] at e2
  rw [traverseFinish_flag e1.symm, traverseFinish_flag e2.symm, hmax, hprep]
  rcases visit_any c hany ray' hany' hix t hS hc ⟨ray.maxHit, ix.prepare ray⟩ c.prep_hd.symm c.prep_inv with
    ⟨k1, k2⟩ | ⟨v1, v2, k1, k2, k3, k4⟩
  · rw [k1, k2]
  · rw [k1, k2]
    simp only [c.prep_hd] at k3 k4
    rw [k3, k4]

end Blazert
