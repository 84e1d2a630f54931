/- Traversal of a bounding volume tree finds the closest hit, for any primitive that obeys a contract. -/
import Verif.Proofs.VisitOr

set_option autoImplicit false

namespace Blazert
open Scalar

variable {T P I : Type} [Scalar T]

/-- `lt` is a strict order (it need not be total: NaN) -/
structure LawfulLt (T : Type) [Scalar T] : Prop where
  irrefl : ∀ a : T, lt a a = false
  trans : ∀ a b c : T, lt a b = true → lt b c = true → lt a c = true

/-- What a primitive test has to guarantee for the primitives in `S`.  `G p t`: the test must not overlook a hit at `t`;
`Acc p t`: the test may report a hit at `t`; `Covers box p`: a box handed to the slab test that covers `p`. -/
structure Contract (ix : Intersector T P I) (ray : Ray T) (S : P → Prop) (Inv : I → Prop) (G Acc : P → T → Prop)
    (Covers : Vec3 T × Vec3 T → P → Prop) : Prop where
  lawful : LawfulLt T
  prep_hd : ix.hitDistance (ix.prepare ray) = ray.maxHit
  prep_inv : Inv (ix.prepare ray)
  inv : ∀ s p, S p → Inv s → Inv (ix.isect s p ray).1
  miss : ∀ s p s', S p → Inv s → ix.isect s p ray = (s', false) →
    s' = s ∧ ∀ t, G p t → lt t (ix.hitDistance s) = false
  hit : ∀ s p s', S p → Inv s → ix.isect s p ray = (s', true) →
    Acc p (ix.hitDistance s') ∧ lt (ix.hitDistance s') (ix.hitDistance s) = true ∧
      ∀ t, G p t → lt t (ix.hitDistance s') = false
  cull : ∀ box p t hd, S p → Covers box p → G p t → lt t hd = true → hitBox ray hd box = true

/-- every node's box covers the primitives below it -/
def BoxesCover (Covers : Vec3 T × Vec3 T → P → Prop) : Tree T P → Prop
  | .leaf mn mx ps => ∀ p ∈ ps, Covers (mn, mx) p
  | .branch mn mx ax l r =>
    (∀ p ∈ (Tree.branch mn mx ax l r).prims, Covers (mn, mx) p) ∧ BoxesCover Covers l ∧ BoxesCover Covers r

/-- `s` records an accepted hit on one of `ps`, closer than `s0` -/
def Found (ix : Intersector T P I) (ray : Ray T) (Inv : I → Prop) (Acc : P → T → Prop) (ps : List P) (s0 s : I) : Prop :=
  ∃ p ∈ ps, ∃ s1, Inv s1 ∧ ix.isect s1 p ray = (s, true) ∧ Acc p (ix.hitDistance s) ∧
    lt (ix.hitDistance s) (ix.hitDistance s0) = true

/-- `s` is the best state after looking at `ps` starting from `s0` -/
def Best (ix : Intersector T P I) (ray : Ray T) (Inv : I → Prop) (G Acc : P → T → Prop) (ps : List P) (s0 s : I) : Prop :=
  (s = s0 ∨ Found ix ray Inv Acc ps s0 s) ∧ ∀ q ∈ ps, ∀ t, G q t → lt t (ix.hitDistance s) = false

section
variable {ix : Intersector T P I} {ray : Ray T} {S : P → Prop} {Inv : I → Prop} {G Acc : P → T → Prop}
  {Covers : Vec3 T × Vec3 T → P → Prop}

theorem Found.mono {ps qs : List P} (h : ∀ p ∈ ps, p ∈ qs) {s0 s : I} (hf : Found ix ray Inv Acc ps s0 s) :
    Found ix ray Inv Acc qs s0 s := by
  obtain ⟨p, hp, hr⟩ := hf
  exact ⟨p, h p hp, hr⟩

theorem Found.after {ps qs : List P} (hl : LawfulLt T) {s0 s s' : I} (h : Best ix ray Inv G Acc ps s0 s)
    (hf : Found ix ray Inv Acc qs s s') : Found ix ray Inv Acc (ps ++ qs) s0 s' := by
  obtain ⟨p, hp, s1, h1, h2, h3, h4⟩ := hf
  refine ⟨p, by simp [hp], s1, h1, h2, h3, ?_⟩
  rcases h.1 with rfl | ⟨_, _, _, _, _, _, h5⟩
  · exact h4
  · exact hl.trans _ _ _ h4 h5

theorem Best.append {ps qs : List P} (hl : LawfulLt T) {s0 s s' : I} (h : Best ix ray Inv G Acc ps s0 s)
    (h' : Best ix ray Inv G Acc qs s s') : Best ix ray Inv G Acc (ps ++ qs) s0 s' := by
  refine ⟨?_, ?_⟩
  · rcases h'.1 with rfl | hf
    · rcases h.1 with rfl | hf
      · exact .inl rfl
      · exact .inr (hf.mono (by simp +contextual))
    · exact .inr (hf.after hl h)
  · intro q hq t ht
    rw [List.mem_append] at hq
    rcases hq with hq | hq
    · have h1 := h.2 q hq t ht
      rcases h'.1 with rfl | ⟨_, _, _, _, _, _, h5⟩
      · exact h1
      · by_contra hc
        rw [hl.trans _ _ _ (by simpa using hc) h5] at h1
        simp at h1
    · exact h'.2 q hq t ht

theorem Best.perm {ps qs : List P} (hp : ∀ p, p ∈ ps ↔ p ∈ qs) {s0 s : I} (h : Best ix ray Inv G Acc ps s0 s) :
    Best ix ray Inv G Acc qs s0 s :=
  ⟨h.1.imp id (Found.mono fun p hh => (hp p).1 hh), fun q hq => h.2 q ((hp q).2 hq)⟩

theorem intersectLeaf_cons (p : P) (ps : List P) (s : I) (b : Bool) :
    intersectLeaf ix ray (p :: ps) s b =
      if ((b || (ix.isect s p ray).2) && ray.anyHit) = true then ((ix.isect s p ray).1, b || (ix.isect s p ray).2)
      else intersectLeaf ix ray ps (ix.isect s p ray).1 (b || (ix.isect s p ray).2) := rfl

theorem intersectLeaf_inv (c : Contract ix ray S Inv G Acc Covers) (ps : List P) (hS : ∀ p ∈ ps, S p) (s : I)
    (hs : Inv s) (b : Bool) : Inv (intersectLeaf ix ray ps s b).1 := by
  induction ps generalizing s b with
  | nil => exact hs
  | cons p ps ih =>
    simp only [intersectLeaf]
    have := c.inv s p (hS p (by simp)) hs
    split
    · exact this
    · exact ih (fun q hq => hS q (by simp [hq])) _ this _

/-- `intersect_leaf`: either stopped early (`any_hit`) with a found primitive, or saw all of them. -/
theorem intersectLeaf_spec (c : Contract ix ray S Inv G Acc Covers) (ps : List P) (hS : ∀ p ∈ ps, S p) (s : I)
    (hs : Inv s) (b : Bool) (hb : b = true → ray.anyHit = false) (r : I × Bool)
    (hr : intersectLeaf ix ray ps s b = r) :
    (Best ix ray Inv G Acc ps s r.1 ∨ (ray.anyHit = true ∧ Found ix ray Inv Acc ps s r.1)) ∧
      (r.2 = true ↔ b = true ∨ Found ix ray Inv Acc ps s r.1) ∧ (r.2 = false → r.1 = s) := by
  induction ps generalizing s b with
  | nil =>
    simp only [intersectLeaf] at hr
    subst hr
    refine ⟨.inl ⟨.inl rfl, by simp⟩, ?_, by simp⟩
    simp [Found]
  | cons p ps ih =>
    rw [intersectLeaf_cons] at hr
    have hi := c.inv s p (hS p (by simp)) hs
    cases hq : ix.isect s p ray with
    | mk s' h =>
      rw [hq] at hr hi
      simp only at hr hi
      cases h with
      | false =>
        obtain ⟨rfl, hm⟩ := c.miss _ _ _ (hS p (by simp)) hs hq
        have hnot : ¬ (b = true ∧ ray.anyHit = true) := by
          rintro ⟨h1, h2⟩; rw [hb h1] at h2; simp at h2
        rw [Bool.or_false, if_neg (by simpa using hnot)] at hr
        obtain ⟨h1, h2, h3⟩ := ih (fun q hq => hS q (by simp [hq])) s' hs b hb hr
        have hB : Best ix ray Inv G Acc [p] s' s' := ⟨.inl rfl, by simpa using hm⟩
        refine ⟨?_, ?_, h3⟩
        · rcases h1 with h1 | ⟨h1, h1'⟩
          · exact .inl (hB.append c.lawful h1)
          · exact .inr ⟨h1, h1'.mono (by simp +contextual)⟩
        · rw [h2]
          refine or_congr_right ⟨fun hf => hf.mono (by simp +contextual), ?_⟩
          intro hf
          rcases h1 with h1 | ⟨_, h1⟩
          · rcases h1.1 with he | hf'
            · obtain ⟨_, _, _, _, _, _, hlt⟩ := hf
              rw [he, c.lawful.irrefl] at hlt; simp at hlt
            · exact hf'
          · exact h1
      | true =>
        obtain ⟨ha, hlt, hmin⟩ := c.hit _ _ _ (hS p (by simp)) hs hq
        have hF : Found ix ray Inv Acc [p] s s' := ⟨p, by simp, s, hs, hq, ha, hlt⟩
        have hB : Best ix ray Inv G Acc [p] s s' := ⟨.inr hF, by simpa using hmin⟩
        cases hany : ray.anyHit with
        | true =>
          simp only [hany, Bool.or_true, Bool.and_true, if_true] at hr
          subst hr
          have := hF.mono (qs := p :: ps) (by simp)
          exact ⟨.inr ⟨rfl, this⟩, by simp [this], by simp⟩
        | false =>
          simp only [hany, Bool.or_true, Bool.and_false, Bool.false_eq_true, if_false] at hr
          obtain ⟨h1, h2, h3⟩ := ih (fun q hq => hS q (by simp [hq])) s' hi true (fun _ => hany) hr
          have h1 : Best ix ray Inv G Acc ps s' r.1 := by
            rcases h1 with h1 | ⟨h1, _⟩
            · exact h1
            · rw [hany] at h1; simp at h1
          have hb2 := hB.append c.lawful h1
          refine ⟨.inl hb2, ?_, ?_⟩
          · have : Found ix ray Inv Acc (p :: ps) s r.1 := by
              rcases h1.1 with he | hf
              · rw [he]; exact hF.mono (by simp)
              · exact hf.after c.lawful hB
            rw [h2]; simp [this]
          · intro hf; rw [hf] at h2; simp at h2

theorem visit_spec (c : Contract ix ray S Inv G Acc Covers) (t : Tree T P) (hS : ∀ p ∈ t.prims, S p)
    (hc : BoxesCover Covers t) (v : VState T I) (hv : v.hd = ix.hitDistance v.isect) (hi : Inv v.isect)
    (r : VState T I × Bool) (hr : visit ix ray t v = r) :
    r.1.hd = ix.hitDistance r.1.isect ∧ Inv r.1.isect ∧
      (r.2 = false → Best ix ray Inv G Acc t.prims v.isect r.1.isect) ∧
      (r.2 = true → ray.anyHit = true ∧ Found ix ray Inv Acc t.prims v.isect r.1.isect) := by
  have culled : ∀ (box : Vec3 T × Vec3 T) (ps : List P) (v : VState T I), v.hd = ix.hitDistance v.isect →
      (∀ p ∈ ps, S p) → (∀ p ∈ ps, Covers box p) → hitBox ray v.hd box ≠ true →
      Best ix ray Inv G Acc ps v.isect v.isect := by
    intro box ps v hv hS hcov hb
    refine ⟨.inl rfl, fun q hq t ht => ?_⟩
    by_contra hlt
    exact hb (c.cull box q t v.hd (hS q hq) (hcov q hq) ht (by rw [hv]; simpa using hlt))
  induction t generalizing v r with
  | leaf mn mx ps =>
    simp only [visit] at hr
    have hS' : ∀ p ∈ ps, S p := by simpa [Tree.prims, Tree.leaves] using hS
    by_cases hb : hitBox ray v.hd (mn, mx) = true
    · rw [if_pos hb] at hr
      simp only [visitLeaf] at hr
      obtain ⟨h1, h2, h3⟩ := intersectLeaf_spec c ps hS' v.isect hi false (by simp) _ rfl
      have h4 := intersectLeaf_inv c ps hS' v.isect hi false
      have hprims : (Tree.leaf mn mx ps).prims = ps := by simp [Tree.prims, Tree.leaves]
      rw [hprims]
      cases hq : (intersectLeaf ix ray ps v.isect false).2 with
      | false =>
        rw [hq, if_neg (by simp)] at hr
        subst hr
        refine ⟨?_, h4, ?_, by simp⟩
        · simp only; rw [h3 hq]; exact hv
        · intro _
          rcases h1 with h1 | ⟨_, h1⟩
          · exact h1
          · rw [hq] at h2; simp [h1] at h2
      | true =>
        rw [hq, if_pos rfl] at hr
        subst hr
        refine ⟨rfl, h4, ?_, ?_⟩
        · intro hany
          rcases h1 with h1 | ⟨h1, _⟩
          · exact h1
          · simp only at hany; rw [hany] at h1; simp at h1
        · intro hany
          exact ⟨hany, by simpa using h2.1 hq⟩
    · rw [if_neg hb] at hr
      subst hr
      exact ⟨hv, hi, fun _ => culled (mn, mx) _ v hv hS
        (by simpa [Tree.prims, Tree.leaves, BoxesCover] using hc) hb, by simp⟩
  | branch mn mx ax l r' ihl ihr =>
    obtain ⟨hc0, hcl, hcr⟩ := hc
    have hprims : (Tree.branch mn mx ax l r').prims = l.prims ++ r'.prims := by
      simp [Tree.prims, Tree.leaves]
    simp only [visit] at hr
    have hSl : ∀ p ∈ l.prims, S p := fun p hp => hS p (by rw [hprims]; simp [hp])
    have hSr : ∀ p ∈ r'.prims, S p := fun p hp => hS p (by rw [hprims]; simp [hp])
    by_cases hb : hitBox ray v.hd (mn, mx) = true
    · rw [if_pos hb] at hr
      have combine : ∀ (a b : Tree T P),
          (∀ (v : VState T I), v.hd = ix.hitDistance v.isect → Inv v.isect →
            ∀ r : VState T I × Bool, visit ix ray a v = r → r.1.hd = ix.hitDistance r.1.isect ∧ Inv r.1.isect ∧
            (r.2 = false → Best ix ray Inv G Acc a.prims v.isect r.1.isect) ∧
            (r.2 = true → ray.anyHit = true ∧ Found ix ray Inv Acc a.prims v.isect r.1.isect)) →
          (∀ (v : VState T I), v.hd = ix.hitDistance v.isect → Inv v.isect →
            ∀ r : VState T I × Bool, visit ix ray b v = r → r.1.hd = ix.hitDistance r.1.isect ∧ Inv r.1.isect ∧
            (r.2 = false → Best ix ray Inv G Acc b.prims v.isect r.1.isect) ∧
            (r.2 = true → ray.anyHit = true ∧ Found ix ray Inv Acc b.prims v.isect r.1.isect)) →
          ∀ r : VState T I × Bool,
            (let q := visit ix ray a v; if q.2 = true then q else visit ix ray b q.1) = r →
            r.1.hd = ix.hitDistance r.1.isect ∧ Inv r.1.isect ∧
            (r.2 = false → Best ix ray Inv G Acc (a.prims ++ b.prims) v.isect r.1.isect) ∧
            (r.2 = true → ray.anyHit = true ∧ Found ix ray Inv Acc (a.prims ++ b.prims) v.isect r.1.isect) := by
        intro a b ha hb r hr
        obtain ⟨h1, h2, h3, h4⟩ := ha v hv hi _ rfl
        simp only at hr
        cases hq : (visit ix ray a v).2 with
        | true =>
          rw [hq, if_pos rfl] at hr
          subst hr
          refine ⟨h1, h2, by simp [hq], fun hh => ?_⟩
          obtain ⟨h5, h6⟩ := h4 hh
          exact ⟨h5, h6.mono (by simp +contextual)⟩
        | false =>
          rw [hq, if_neg (by simp)] at hr
          obtain ⟨h5, h6, h7, h8⟩ := hb _ h1 h2 _ hr
          refine ⟨h5, h6, fun hh => (h3 hq).append c.lawful (h7 hh), fun hh => ?_⟩
          obtain ⟨h9, h10⟩ := h8 hh
          exact ⟨h9, h10.after c.lawful (h3 hq)⟩
      have ihl' := fun v hv hi r hr => ihl hSl hcl v hv hi r hr
      have ihr' := fun v hv hi r hr => ihr hSr hcr v hv hi r hr
      by_cases hn : nearFirst ray ax = true
      · rw [if_pos hn] at hr
        rw [hprims]
        exact combine l r' ihl' ihr' r hr
      · rw [if_neg hn] at hr
        obtain ⟨h1, h2, h3, h4⟩ := combine r' l ihr' ihl' r hr
        rw [hprims]
        refine ⟨h1, h2, fun hh => (h3 hh).perm (by simp [or_comm]), fun hh => ⟨(h4 hh).1, (h4 hh).2.mono ?_⟩⟩
        simp [or_comm]
    · rw [if_neg hb] at hr
      subst hr
      exact ⟨hv, hi, fun _ => culled (mn, mx) _ v hv hS hc0 hb, by simp⟩

/-- The traversal as a whole. -/
theorem traverse_spec (c : Contract ix ray S Inv G Acc Covers) (nodes : List (Node T P)) (rayhit : RayHit T)
    (t : Tree T P) (hrep : Represents nodes 0 t) (hn : t.numNodes ≤ nodes.length)
    (hS : ∀ p ∈ t.prims, S p) (hc : BoxesCover Covers t) :
    traverse ix nodes ray rayhit = .error .oobStack ∨
    (traverse ix nodes ray rayhit = .ok (false, rayhit) ∧ ∀ p ∈ t.prims, ∀ d, G p d → lt d ray.maxHit = false) ∨
    ∃ p ∈ t.prims, ∃ s0 s, Inv s0 ∧ ix.isect s0 p ray = (s, true) ∧
      traverse ix nodes ray rayhit = (ix.post s rayhit >>= fun rh => .ok (true, rh)) ∧
      Acc p (ix.hitDistance s) ∧ lt (ix.hitDistance s) ray.maxHit = true ∧
      (ray.anyHit = false → ∀ q ∈ t.prims, ∀ d, G q d → lt d (ix.hitDistance s) = false) := by
  refine (traverse_or ix nodes ray rayhit t hrep hn).imp id fun he => ?_
  rw [he]
  obtain ⟨h1, h2, h3, h4⟩ := visit_spec c t hS hc ⟨ray.maxHit, ix.prepare ray⟩ c.prep_hd.symm c.prep_inv _ rfl
  set q := visit ix ray t ⟨ray.maxHit, ix.prepare ray⟩ with hq
  have found : Found ix ray Inv Acc t.prims (ix.prepare ray) q.1.isect → 
      (ray.anyHit = false → ∀ p ∈ t.prims, ∀ d, G p d → lt d (ix.hitDistance q.1.isect) = false) →
      ∃ p ∈ t.prims, ∃ s0 s, Inv s0 ∧ ix.isect s0 p ray = (s, true) ∧
      traverseFinish ix ray rayhit q.1.isect = (ix.post s rayhit >>= fun rh => .ok (true, rh)) ∧
      Acc p (ix.hitDistance s) ∧ lt (ix.hitDistance s) ray.maxHit = true ∧
      (ray.anyHit = false → ∀ q ∈ t.prims, ∀ d, G q d → lt d (ix.hitDistance s) = false) := by
    rintro ⟨p, hp, s1, hs1, hs2, hs3, hs4⟩ hB
    rw [c.prep_hd] at hs4
    exact ⟨p, hp, s1, _, hs1, hs2, by simp [traverseFinish, hs4], hs3, hs4, hB⟩
  cases hs : q.2 with
  | false =>
    obtain ⟨h5, h6⟩ := h3 hs
    rcases h5 with h5 | h5
    · left
      simp only at h5
      rw [h5, c.prep_hd] at h6
      exact ⟨by simp [traverseFinish, h5, c.prep_hd, c.lawful.irrefl], h6⟩
    · exact .inr (found h5 fun _ => h6)
  | true =>
    obtain ⟨h5, h6⟩ := h4 hs
    exact .inr (found h6 fun hf => by rw [h5] at hf; simp at hf)

theorem BoxesCover.mono {C' : Vec3 T × Vec3 T → P → Prop} (h : ∀ b p, Covers b p → C' b p) :
    ∀ t : Tree T P, BoxesCover Covers t → BoxesCover C' t
  | .leaf _ _ _, ht => fun p hp => h _ _ (ht p hp)
  | .branch _ _ _ l r, ht => ⟨fun p hp => h _ _ (ht.1 p hp), mono h l ht.2.1, mono h r ht.2.2⟩

theorem BoxesCover.trivial {C' : Vec3 T × Vec3 T → P → Prop} (h : ∀ b p, C' b p) : ∀ t : Tree T P, BoxesCover C' t
  | .leaf _ _ _ => fun p _ => h _ _
  | .branch _ _ _ l r => ⟨fun p _ => h _ _, BoxesCover.trivial h l, BoxesCover.trivial h r⟩

end
end Blazert
