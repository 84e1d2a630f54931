/- Traversal of a tree of cylinders. -/
import Verif.Proofs.Source
import Verif.Proofs.Compose
import Verif.Props.Cylinder
import Verif.Spec.CylinderScene

set_option autoImplicit false
set_option linter.unusedSectionVars false

namespace Blazert
open Scalar

/-! ### reaching a primitive as long as nothing has been found -/

section
variable {T P I : Type} [Scalar T] {ix : Intersector T P I} {ray : Ray T} {Before After : I → Prop} {star : P}

theorem intersectLeaf_reach (ps : List P)
    (test : ∀ q ∈ ps, ∀ s, Before s ∨ After s → ix.isect s q ray = (s, false) ∨ ((ix.isect s q ray).2 = true ∧ After (ix.isect s q ray).1))
    (hstar : ∀ s, Before s → (ix.isect s star ray).2 = true) (s : I) (hs : Before s ∨ After s) (b : Bool) (hb : b = true → After s)
    (r : I × Bool) (hr : intersectLeaf ix ray ps s b = r) :
    (Before r.1 ∨ After r.1) ∧ (After s → After r.1) ∧ (r.2 = true → After r.1) ∧ (r.2 = false → r.1 = s) ∧ (star ∈ ps → After r.1) := by
  induction ps generalizing s b with
  | nil =>
    simp only [intersectLeaf] at hr
    subst hr
    exact ⟨hs, id, hb, fun _ => rfl, by simp⟩
  | cons p ps ih =>
    rw [intersectLeaf_cons] at hr
    have key : After s ∨ p = star → After (ix.isect s p ray).1 := by
      intro h
      rcases test p (by simp) s hs with e | ⟨_, e⟩
      · rcases h with h | rfl
        · rw [e]; exact h
        · rcases hs with hs | hs
          · have := hstar s hs; rw [e] at this; simp at this
          · rw [e]; exact hs
      · exact e
    have hst : Before (ix.isect s p ray).1 ∨ After (ix.isect s p ray).1 := by
      rcases test p (by simp) s hs with e | ⟨_, e⟩
      · rw [e]; exact hs
      · exact .inr e
    have hbt : (b || (ix.isect s p ray).2) = true → After (ix.isect s p ray).1 := by
      intro h
      rw [Bool.or_eq_true] at h
      rcases h with h | h
      · exact key (.inl (hb h))
      · rcases test p (by simp) s hs with e | ⟨_, e⟩
        · rw [e] at h; simp at h
        · exact e
    split at hr
    · rename_i hc
      subst hr
      rw [Bool.and_eq_true] at hc
      have ha := hbt hc.1
      exact ⟨hst, fun _ => ha, fun _ => ha, fun hf => by simp only at hf; rw [hf] at hc; simp at hc, fun _ => ha⟩
    · obtain ⟨h1, h2, h3, h4, h5⟩ := ih (fun q hq => test q (by simp [hq])) _ hst _ hbt hr
      refine ⟨h1, fun h => h2 (key (.inl h)), h3, fun hf => ?_, fun hm => ?_⟩
      · rw [h4 hf]
        rcases test p (by simp) s hs with e | ⟨e, _⟩
        · rw [e]
        · -- a hit is not forgotten
          have : r.2 = true := by
            have : ∀ (ps : List P) (s : I) (r : I × Bool), intersectLeaf ix ray ps s true = r → r.2 = true := by
              intro ps
              induction ps with
              | nil => intro s r h; simp only [intersectLeaf] at h; rw [← h]
              | cons q qs ihq =>
                intro s r h
                rw [intersectLeaf_cons, Bool.true_or] at h
                split at h
                · rw [← h]
                · exact ihq _ _ h
            exact this ps (ix.isect s p ray).1 r (by rw [e, Bool.or_true] at hr; exact hr)
          rw [hf] at this; simp at this
      · rcases List.mem_cons.1 hm with rfl | hm
        · exact h2 (key (.inr rfl))
        · exact h5 hm

theorem visit_reach (hBefore : ∀ s, Before s → ix.hitDistance s = ray.maxHit) (t : Tree T P)
    (test : ∀ q ∈ t.prims, ∀ s, Before s ∨ After s →
      ix.isect s q ray = (s, false) ∨ ((ix.isect s q ray).2 = true ∧ After (ix.isect s q ray).1))
    (hstar : ∀ s, Before s → (ix.isect s star ray).2 = true)
    (hc : BoxesCover (fun b q => q = star → hitBox ray ray.maxHit b = true) t)
    (v : VState T I) (hv : v.hd = ix.hitDistance v.isect) (hi : Before v.isect ∨ After v.isect)
    (r : VState T I × Bool) (hr : visit ix ray t v = r) :
    r.1.hd = ix.hitDistance r.1.isect ∧ (Before r.1.isect ∨ After r.1.isect) ∧ (After v.isect → After r.1.isect) ∧
      (r.2 = true → After r.1.isect) ∧ (star ∈ t.prims → After r.1.isect) := by
  have culled : ∀ (box : Vec3 T × Vec3 T) (ps : List P) (v : VState T I), v.hd = ix.hitDistance v.isect →
      (Before v.isect ∨ After v.isect) → (∀ q ∈ ps, q = star → hitBox ray ray.maxHit box = true) → hitBox ray v.hd box ≠ true →
      star ∈ ps → After v.isect := by
    intro box ps v hv hi hcov hb hs
    rcases hi with hi | hi
    · exact absurd (by rw [hv, hBefore _ hi]; exact hcov _ hs rfl) hb
    · exact hi
  induction t generalizing v r with
  | leaf mn mx ps =>
    have hprims : (Tree.leaf mn mx ps).prims = ps := by simp [Tree.prims, Tree.leaves]
    rw [hprims] at test ⊢
    simp only [visit] at hr
    split at hr
    · simp only [visitLeaf] at hr
      obtain ⟨h1, h2, h3, h4, h5⟩ := intersectLeaf_reach ps test hstar v.isect hi false (by simp) _ rfl
      split at hr
      · rename_i hq
        subst hr
        exact ⟨rfl, h1, h2, fun _ => h3 hq, h5⟩
      · rename_i hq
        subst hr
        refine ⟨?_, h1, h2, by simp, h5⟩
        simp only
        rw [h4 (by simpa using hq)]; exact hv
    · rename_i hb
      subst hr
      exact ⟨hv, hi, id, by simp, culled (mn, mx) ps v hv hi hc hb⟩
  | branch mn mx ax l r' ihl ihr =>
    obtain ⟨hc0, hcl, hcr⟩ := hc
    have hprims : (Tree.branch mn mx ax l r').prims = l.prims ++ r'.prims := by
      simp [Tree.prims, Tree.leaves]
    have ihl' := ihl (fun q hq => test q (by rw [hprims]; simp [hq])) hcl
    have ihr' := ihr (fun q hq => test q (by rw [hprims]; simp [hq])) hcr
    simp only [visit] at hr
    split at hr
    · have combine : ∀ (a b : Tree T P),
          (∀ (v : VState T I), v.hd = ix.hitDistance v.isect → (Before v.isect ∨ After v.isect) →
            ∀ r : VState T I × Bool, visit ix ray a v = r → r.1.hd = ix.hitDistance r.1.isect ∧ (Before r.1.isect ∨ After r.1.isect) ∧
            (After v.isect → After r.1.isect) ∧ (r.2 = true → After r.1.isect) ∧ (star ∈ a.prims → After r.1.isect)) →
          (∀ (v : VState T I), v.hd = ix.hitDistance v.isect → (Before v.isect ∨ After v.isect) →
            ∀ r : VState T I × Bool, visit ix ray b v = r → r.1.hd = ix.hitDistance r.1.isect ∧ (Before r.1.isect ∨ After r.1.isect) ∧
            (After v.isect → After r.1.isect) ∧ (r.2 = true → After r.1.isect) ∧ (star ∈ b.prims → After r.1.isect)) →
          ∀ r : VState T I × Bool, (let q := visit ix ray a v; if q.2 = true then q else visit ix ray b q.1) = r →
            r.1.hd = ix.hitDistance r.1.isect ∧ (Before r.1.isect ∨ After r.1.isect) ∧
            (After v.isect → After r.1.isect) ∧ (r.2 = true → After r.1.isect) ∧
            ((star ∈ a.prims ∨ star ∈ b.prims) → After r.1.isect) := by
        intro a b ha hb r hr
        obtain ⟨h1, h2, h3, h4, h5⟩ := ha v hv hi _ rfl
        simp only at hr
        split at hr
        · rename_i hq
          subst hr
          have := h4 hq
          exact ⟨h1, h2, fun _ => this, fun _ => this, fun _ => this⟩
        · obtain ⟨k1, k2, k3, k4, k5⟩ := hb _ h1 h2 _ hr
          exact ⟨k1, k2, fun h => k3 (h3 h), k4, fun h => h.elim (fun h => k3 (h5 h)) k5⟩
      rw [hprims]
      split at hr
      · obtain ⟨h1, h2, h3, h4, h5⟩ := combine l r' ihl' ihr' r hr
        exact ⟨h1, h2, h3, h4, fun h => h5 (List.mem_append.1 h)⟩
      · obtain ⟨h1, h2, h3, h4, h5⟩ := combine r' l ihr' ihl' r hr
        exact ⟨h1, h2, h3, h4, fun h => h5 (List.mem_append.1 h).symm⟩
    · rename_i hb
      subst hr
      exact ⟨hv, hi, id, by simp, culled (mn, mx) _ v hv hi hc0 hb⟩

end

/-! ### cylinders -/

section
variable {F : Fmt ℝ} {coll : CylColl (XF F)} {origin direction : Vec3 (XF F)} {minHit maxHit : XF F} {o d : Vec3 ℝ} {m M : ℝ}

theorem CylIs.unique {i : Nat} {c c' : Vec3 ℝ} {a a' b b' h h' : ℝ} {R R' : Mat3 ℝ} (H : CylIs coll i c a b h R)
    (H' : CylIs coll i c' a' b' h' R') : c = c' ∧ a = a' ∧ b = b' ∧ h = h' ∧ R = R' := by
  obtain ⟨x, y, z, w, m, h1, h2, h3, h4, h5, k1, k2, k3, k4, k5⟩ := H
  obtain ⟨x', y', z', w', m', h1', h2', h3', h4', h5', k1', k2', k3', k4', k5'⟩ := H'
  rw [h1] at h1'; cases h1'
  rw [h2] at h2'; cases h2'
  rw [h3] at h3'; cases h3'
  rw [h4] at h4'; cases h4'
  rw [h5] at h5'; cases h5'
  exact ⟨k1.unique k1', k2.unique k2', k3.unique k3', k4.unique k4', k5.unique k5'⟩

theorem CylColl.prim_of {i : Nat} {c : Vec3 ℝ} {a b h : ℝ} {R : Mat3 ℝ} (H : CylIs coll i c a b h R) :
    i < coll.toCollection.size ∧ ∃ q, coll.toCollection.prim i = .ok q := by
  obtain ⟨x, y, z, w, m, h1, h2, h3, h4, h5, -⟩ := H
  refine ⟨(List.getElem?_eq_some_iff.1 h1).1, ⟨x, y, z, w, m, i⟩, ?_⟩
  · simp only [CylColl.toCollection, lookup_eq_ok.2 h1, lookup_eq_ok.2 h2, lookup_eq_ok.2 h3, lookup_eq_ok.2 h4, lookup_eq_ok.2 h5]
    rfl

theorem CylColl.make_box {cs : List (Vec3 (XF F))} {as bs hs : List (XF F)} {ms : List (Mat3 (XF F))}
    (h : CylColl.make cs as bs hs ms = .ok coll) :
    ∀ (i : Nat) b, coll.boxes[i]? = some b → ∃ c x y z m, coll.centers[i]? = some c ∧ coll.as[i]? = some x ∧
      coll.bs[i]? = some y ∧ coll.heights[i]? = some z ∧ coll.rotations[i]? = some m ∧ b = cylBox c x y z m := by
  unfold CylColl.make at h
  rw [run_bind_eq_ok] at h
  obtain ⟨bs, h1, h⟩ := h
  simp only [run_pure, Except.ok.injEq] at h
  subst h
  intro i b hb
  have := range_mapM_get h1 hb
  rw [run_bind_eq_ok] at this
  obtain ⟨c, hc, this⟩ := this
  rw [run_bind_eq_ok] at this
  obtain ⟨x, hx, this⟩ := this
  rw [run_bind_eq_ok] at this
  obtain ⟨y, hy, this⟩ := this
  rw [run_bind_eq_ok] at this
  obtain ⟨z, hz, this⟩ := this
  rw [run_bind_eq_ok] at this
  obtain ⟨m, hm, this⟩ := this
  simp only [run_pure, Except.ok.injEq] at this
  exact ⟨c, x, y, z, m, lookup_eq_ok.1 hc, lookup_eq_ok.1 hx, lookup_eq_ok.1 hy, lookup_eq_ok.1 hz, lookup_eq_ok.1 hm, this.symm⟩

/-- all cylinders of the collection are meaningful -/
def CylColl.Content (coll : CylColl (XF F)) : Prop :=
  ∀ (i : Nat) x y z w m, coll.centers[i]? = some x → coll.as[i]? = some y →
    coll.bs[i]? = some z → coll.heights[i]? = some w → coll.rotations[i]? = some m →
    ∃ c a b h R, IsV x c ∧ y.Is a ∧ z.Is b ∧ w.Is h ∧ IsM m R ∧ 0 < a ∧ 0 < b ∧ 0 < h ∧ Orthonormal R

theorem CylColl.Content.test (hcont : coll.Content) (hF : F.Exact) (hray : RayBase origin direction minHit maxHit o d m M) (any : Bool)
    {i : Nat} {q : Cylinder (XF F)} (hq : coll.toCollection.prim i = .ok q) :
    ∃ c a b h R, CylIs coll i c a b h R ∧ ∀ s, PlaneStart (Ray.make origin direction minHit maxHit any) s →
      CylTest s q c a b h R o (unit d) := by
  obtain ⟨_, h1, h2, h3, h4, h5⟩ := CylColl.prim_ok hq
  obtain ⟨c, a, b, h, R, k1, k2, k3, k4, k5, k6, k7, k8, k9⟩ := hcont i _ _ _ _ _ h1 h2 h3 h4 h5
  refine ⟨c, a, b, h, R, ⟨_, _, _, _, _, h1, h2, h3, h4, h5, k1, k2, k3, k4, k5⟩, fun s hs => ?_⟩
  exact ⟨k1, k2, k3, k4, k5, k6, k7, k8, k9, by rw [hs.1]; exact hray.org, by rw [hs.2.1]; exact hray.dirUnit hF any, hray.unit_sq⟩

/-- what the test of a cylinder reports is a hit on it -/
theorem cylRep_of_test (hF : F.Exact) {i : Nat} {q : Cylinder (XF F)} (hq : coll.toCollection.prim i = .ok q)
    {c u : Vec3 ℝ} {a b h : ℝ} {R : Mat3 ℝ} (hi : CylIs coll i c a b h R) {s0 s : PlaneI (XF F)} (H : CylTest s0 q c a b h R o u)
    (hlat : OnLateral c a b h R o → ∃ t, 0 < t ∧ InTube c a b R (along o u t)) {ray : Ray (XF F)}
    (hs : cylIntersect s0 q ray = (s, true)) (temp : RayHit (XF F)) :
    ∃ rh t, planePost s temp = .ok rh ∧ rh.hitDistance = s.hd ∧ rh.primId = i ∧ s.hd.Is t ∧ CylRep coll o u rh t := by
  obtain ⟨t, h1, h2, h3, h4, h5⟩ := (C36_on_surface_partial hF ray H hlat).1 (by rw [hs])
  rw [hs] at h2 h4
  have e0 := (CylColl.prim_ok hq).1
  refine ⟨_, t, rfl, rfl, by simp only; rw [h4, e0], h2, c, a, b, h, R, ?_, h1, h3, h5, fun hcase => ?_⟩
  · simp only; rw [h4, e0]; exact hi
  · obtain ⟨t', rh', n, k1, k2, k3, k4⟩ := C39_normal_partial hF ray temp H hlat (by rw [hs]) hcase
    rw [hs] at k1 k2
    cases h2.unique k1
    simp only [planePost, Except.ok.injEq] at k2
    rw [← k2] at k3
    exact ⟨n, k3, k4⟩

theorem CylRep.with_geomId {u : Vec3 ℝ} {rh : RayHit (XF F)} {t : ℝ} (h : CylRep coll o u rh t) (g : Nat) :
    CylRep coll o u { rh with geomId := g } t := h

/-- the origin is where the first hit is found -/
def Placed (c : Vec3 ℝ) (a b h : ℝ) (R : Mat3 ℝ) (o : Vec3 ℝ) : Prop :=
  (¬ InCyl c a b h R o ∧ ¬ AtCapLevel c h R o) ∨ InOpenCyl c a b h R o

theorem inCyl_of_onCyl {c p : Vec3 ℝ} {a b h : ℝ} {R : Mat3 ℝ} (hh : 0 < h) (H : OnCyl c a b h R p) : InCyl c a b h R p := by
  obtain ⟨x, y, z, H, e⟩ := H
  refine ⟨x, y, z, ?_⟩
  rcases H with ⟨q1, q2, q3⟩ | ⟨q1, q2⟩
  · exact ⟨q1.le, q2, q3, e⟩
  · refine ⟨q1, ?_, ?_, e⟩ <;> rcases q2 with q2 | q2 <;> linarith

theorem not_onCyl_of_inOpen {c p : Vec3 ℝ} {a b h : ℝ} {R : Mat3 ℝ} (hR : Orthonormal R) (H : InOpenCyl c a b h R p) :
    ¬ OnCyl c a b h R p := by
  rintro ⟨x, y, z, H', e⟩
  obtain ⟨x', y', z', q1, q2, q3, e'⟩ := H
  have := ((hR.local_iff _ _ _).1 e).symm.trans ((hR.local_iff _ _ _).1 e')
  injection this with e1 e2 e3
  subst e1 e2 e3
  rcases H' with ⟨p1, _, _⟩ | ⟨_, p2⟩
  · linarith
  · rcases p2 with p2 | p2 <;> linarith

theorem Placed.lateral {c u : Vec3 ℝ} {a b h : ℝ} {R : Mat3 ℝ} (hR : Orthonormal R) (H : Placed c a b h R o) :
    OnLateral c a b h R o → ∃ t, 0 < t ∧ InTube c a b R (along o u t) := by
  rintro ⟨x, y, z, h1, h2, h3, h4⟩
  rcases H with ⟨h, _⟩ | h
  · exact absurd ⟨x, y, z, h1.le, h2, h3, h4⟩ h
  · exact absurd (⟨x, y, z, .inl ⟨h1, h2, h3⟩, h4⟩ : OnCyl c a b _ R o) (not_onCyl_of_inOpen hR h)

theorem Placed.first {c u : Vec3 ℝ} {a b h : ℝ} {R : Mat3 ℝ} (hF : F.Exact) (P : Placed c a b h R o) {s0 : PlaneI (XF F)}
    {q : Cylinder (XF F)} (H : CylTest s0 q c a b h R o u) (ray : Ray (XF F)) :
    ((cylIntersect s0 q ray).2 = true → ∃ t, 0 < t ∧ (cylIntersect s0 q ray).1.hd.Is t ∧ OnCyl c a b h R (along o u t) ∧
      ∀ s, 0 ≤ s → OnCyl c a b h R (along o u s) → t ≤ s) ∧
    ((cylIntersect s0 q ray).2 = false → ∀ t, 0 < t → ¬ InOpenCyl c a b h R (along o u t)) := by
  rcases P with ⟨P1, P2⟩ | P
  · obtain ⟨h1, h2⟩ := C37_outside_partial hF ray H P1 P2
    refine ⟨fun hh => ?_, h2⟩
    obtain ⟨t, k1, k2, k3, k4⟩ := h1 hh
    obtain ⟨t', l1, l2, l3, _⟩ := (C36_on_surface_partial hF ray H (Placed.lateral H.orth (.inl ⟨P1, P2⟩))).1 hh
    cases k2.unique l2
    exact ⟨t, k1, k2, l3, fun s hs hon => k4 s hs (inCyl_of_onCyl H.h_pos hon)⟩
  · obtain ⟨h1, t, k1, k2, k3, k4⟩ := C37_inside_partial hF ray H P
    refine ⟨fun _ => ⟨t, k1, k2, k3, fun s hs hon => ?_⟩, fun hh => by rw [h1] at hh; simp at hh⟩
    by_contra hc
    exact not_onCyl_of_inOpen H.orth (k4 s hs (not_le.1 hc)) hon

/-- the first hit with cylinder number `i` -/
def CylFirst (coll : CylColl (XF F)) (o u : Vec3 ℝ) (i : Nat) (t : ℝ) : Prop :=
  CylTouch coll o u i t ∧ ∀ t', CylTouch coll o u i t' → t ≤ t'

/-- The traversal of a tree of cylinders reports the first hit with one of the cylinders which it meets, or no hit if this happens to be
too far away. -/
theorem cyl_traverse (hF : F.Exact) (hray : RayFor origin direction minHit maxHit o d 0 M) (any : Bool)
    {cs : List (Vec3 (XF F))} {as bs hs : List (XF F)} {ms : List (Mat3 (XF F))} (hmake : CylColl.make cs as bs hs ms = .ok coll)
    (hcont : coll.Content) (hplace : ∀ i c a b h R, CylIs coll i c a b h R → AxisParallel R ∧ Placed c a b h R o)
    (hrange : ∀ b ∈ coll.boxes, BoxInRange b) (hface : d.z = 0 → ∀ b ∈ coll.boxes, ¬ b.1.z.Is o.z ∧ ¬ b.2.z.Is o.z)
    (opts : BuildOptions) (nodes : List (Node (XF F) (Cylinder (XF F)))) (t : Tree (XF F) (Cylinder (XF F)))
    (hb : Built coll.toCollection opts 0 (List.range coll.toCollection.size) t)
    (hrep : Represents nodes 0 t) (hn : t.numNodes ≤ nodes.length) (temp : RayHit (XF F)) :
    traverse cylIx nodes (Ray.make origin direction minHit maxHit any) temp = .error .oobStack ∨
    (traverse cylIx nodes (Ray.make origin direction minHit maxHit any) temp = .ok (false, temp) ∧
      ((∀ i t, CylHit coll o (unit d) i t → M ≤ t) ∨ ∃ i t, CylFirst coll o (unit d) i t ∧ M ≤ t)) ∨
    ∃ rh t, traverse cylIx nodes (Ray.make origin direction minHit maxHit any) temp = .ok (true, rh) ∧ rh.hitDistance.Is t ∧ t < M ∧
      CylRep coll o (unit d) rh t ∧ CylFirst coll o (unit d) rh.primId t := by
  set ray := Ray.make origin direction minHit maxHit any with hraydef
  have hmem : ∀ q ∈ t.prims, ∃ i, coll.toCollection.prim i = .ok q := fun q hq => (hb.prim_mem hq).imp fun _ h => h.2
  have isfirst : ∀ {i q c a b h R s}, coll.toCollection.prim i = .ok q → CylIs coll i c a b h R →
      CylTest s q c a b h R o (unit d) → (cylIntersect s q ray).2 = true →
      ∃ t, (cylIntersect s q ray).1.hd.Is t ∧ CylFirst coll o (unit d) i t := by
    intro i q c a b h R s hq hi H hs
    obtain ⟨t, h1, h2, h3, h4⟩ := ((hplace i c a b h R hi).2.first hF H ray).1 hs
    refine ⟨t, h2, ⟨c, a, b, h, R, hi, h1.le, h3⟩, ?_⟩
    rintro t' ⟨c', a', b', h', R', hi', k1, k2⟩
    obtain ⟨rfl, rfl, rfl, rfl, rfl⟩ := hi.unique hi'
    exact h4 t' k1 k2
  -- the states of the intersector
  let Before : PlaneI (XF F) → Prop := fun s => PlaneStart ray s ∧ s.hd = maxHit
  let After : PlaneI (XF F) → Prop := fun s => PlaneStart ray s ∧ ∃ i t, s.hd.Is t ∧ CylFirst coll o (unit d) i t ∧
    ∃ rh, planePost s temp = .ok rh ∧ rh.hitDistance = s.hd ∧ rh.primId = i ∧ CylRep coll o (unit d) rh t
  have test : ∀ q ∈ t.prims, ∀ s, Before s ∨ After s →
      cylIx.isect s q ray = (s, false) ∨ ((cylIx.isect s q ray).2 = true ∧ After (cylIx.isect s q ray).1) := by
    intro q hq s hs
    obtain ⟨i, hq⟩ := hmem q hq
    have hstart : PlaneStart ray s := hs.elim (·.1) (·.1)
    obtain ⟨c, a, b, h, R, hi, H⟩ := hcont.test hF hray.toRayBase any hq
    have H := H s hstart
    cases hr : (cylIntersect s q ray).2 with
    | false =>
      left
      have := Frame.miss (cylIntersect_frame s q ray) hr
      exact Prod.ext this hr
    | true =>
      refine .inr ⟨hr, Frame.start (cylIntersect_frame s q ray) hstart, i, ?_⟩
      obtain ⟨t, h1, h2⟩ := isfirst hq hi H hr
      obtain ⟨rh, t', k1, k2, k3, k4, k5⟩ := cylRep_of_test hF hq hi H ((hplace i c a b h R hi).2.lateral H.orth)
        (show cylIntersect s q ray = ((cylIntersect s q ray).1, true) by rw [← hr]) temp
      cases h1.unique k4
      exact ⟨t, h1, h2, rh, k1, k2, k3, k5⟩
  have hprep : Before (cylIx.prepare ray) := ⟨⟨rfl, rfl, rfl⟩, rfl⟩
  have finish : ∀ s, After s →
      (traverseFinish cylIx ray temp s = .ok (false, temp) ∧ ∃ i t, CylFirst coll o (unit d) i t ∧ M ≤ t) ∨
      ∃ rh t, traverseFinish cylIx ray temp s = .ok (true, rh) ∧ rh.hitDistance.Is t ∧ t < M ∧
        CylRep coll o (unit d) rh t ∧ CylFirst coll o (unit d) rh.primId t := by
    rintro s ⟨_, i, t, h1, h2, rh, h3, h4, h5, h6⟩
    have hx : (cylIx.hitDistance s).Is t := h1
    cases hlt : lt (cylIx.hitDistance s) ray.maxHit with
    | false =>
      left
      refine ⟨by simp [traverseFinish, hlt], i, t, h2, le_of_not_lt hx hray.max hlt⟩
    | true =>
      right
      have hp : cylIx.post s temp = .ok rh := h3
      refine ⟨rh, t, by simp [traverseFinish, hlt, hp], by rw [h4]; exact h1, (hx.lt hray.max).1 hlt, h6, by rw [h5]; exact h2⟩
  by_cases hstar : ∃ i t, CylHit coll o (unit d) i t ∧ t < M
  · obtain ⟨i, t0, ⟨c, a, b, h, R, hi, k1, k2, t1, k3, k4⟩, k5⟩ := hstar
    obtain ⟨hlt, star, hq⟩ := CylColl.prim_of hi
    obtain ⟨c', a', b', h', R', hi', H⟩ := hcont.test hF hray.toRayBase any hq
    obtain ⟨rfl, rfl, rfl, rfl, rfl⟩ := hi.unique hi'
    have hhit : ∀ s, Before s → (cylIx.isect s star ray).2 = true := by
      intro s hs
      by_contra hc
      rw [Bool.not_eq_true] at hc
      exact ((hplace i _ _ _ _ _ hi).2.first hF (H s hs.1) ray).2 hc t1 k3 k4
    obtain ⟨t2, f1, f2⟩ := isfirst hq hi (H _ hprep.1) (hhit _ hprep)
    have ht2 : t2 < M := (f2.2 t0 ⟨c, a, b, h, R, hi, k1, k2⟩).trans_lt k5
    obtain ⟨⟨_, _, _, _, _, hi'', l1, l2⟩, _⟩ := f2
    obtain ⟨rfl, rfl, rfl, rfl, rfl⟩ := hi.unique hi''
    have hok : CollOk coll.toCollection (fun q x => ∃ i c a b h R, coll.toCollection.prim i = .ok q ∧ CylIs coll i c a b h R ∧
        InCyl c a b h R x) o d := by
      have mem : ∀ i b, coll.toCollection.box i = .ok b → b ∈ coll.boxes := fun i b hb => List.mem_of_getElem? (lookup_eq_ok.1 hb)
      refine ⟨fun i _ b hb => hrange b (mem i b hb), ?_, fun hz i _ b hb => hface hz b (mem i b hb)⟩
      intro i _ q b hq hb
      obtain ⟨x, y, z, w, m, h1, h2, h3, h4, h5, rfl⟩ := CylColl.make_box hmake i b (lookup_eq_ok.1 hb)
      obtain ⟨c, a, b, h, R, k1, k2, k3, k4, k5, k6, k7, k8, k9⟩ := hcont i _ _ _ _ _ h1 h2 h3 h4 h5
      have hi : CylIs coll i c a b h R := ⟨_, _, _, _, _, h1, h2, h3, h4, h5, k1, k2, k3, k4, k5⟩
      obtain ⟨mn, mx, e1, e2, e3⟩ := C38_box_partial hF x y z w m c a b h R k1 k2 k3 k4 k5 k6 k7 k8.le (hplace _ _ _ _ _ _ hi).1
      refine ⟨mn, mx, e1, e2, ?_⟩
      rintro p ⟨i', c', a', b', h', R', hq', hi', hin⟩
      have hii : i = i' := (CylColl.prim_ok hq).1.symm.trans (CylColl.prim_ok hq').1
      subst hii
      obtain ⟨rfl, rfl, rfl, rfl, rfl⟩ := hi.unique hi'
      exact e3 p hin
    have hcov : BoxesCover (fun b q => q = star → hitBox ray ray.maxHit b = true) t := by
      refine (hok.boxesCover hb).mono ?_
      rintro box q hcb rfl
      exact cull hF hray any hcb f1 l1 ⟨i, c, a, b, h, R, hq, hi, inCyl_of_onCyl (H _ hprep.1).h_pos l2⟩ ((f1.lt hray.max).2 ht2)
    have hstarmem : star ∈ t.prims := by
      obtain ⟨ps, hps, hperm⟩ := hb.prims_perm
      obtain ⟨q', hq', hiq'⟩ := mapM_mem_of_in hps (List.mem_range.2 hlt)
      rw [hq, Except.ok.injEq] at hiq'
      exact hperm.symm.subset (hiq' ▸ hq')
    rcases traverse_or cylIx nodes ray temp t hrep hn with e | e
    · exact .inl e
    right
    obtain ⟨_, _, _, _, hA⟩ := visit_reach (Before := Before) (After := After) (star := star) (fun s hs => hs.2) t test hhit hcov
      ⟨ray.maxHit, cylIx.prepare ray⟩ rfl (.inl hprep) _ rfl
    rw [e]
    rcases finish _ (hA hstarmem) with ⟨g1, g2⟩ | g
    · exact .inl ⟨g1, .inr g2⟩
    · exact .inr g
  · have hno : ∀ i t, CylHit coll o (unit d) i t → M ≤ t := fun i t ht => not_lt.1 fun hc => hstar ⟨i, t, ht, hc⟩
    rcases traverse_J cylIx nodes ray temp (fun s => Before s ∨ After s) t hrep hn
      (fun p hp s hs => by
        rcases test p hp s hs with e | e
        · rw [e]; exact hs
        · exact .inr e.2) (.inl hprep) with e' | ⟨s, hs, e'⟩
    · exact .inl e'
    · right
      rw [e']
      rcases hs with hs | hs
      · left
        have : lt (cylIx.hitDistance s) ray.maxHit = false := by
          have : cylIx.hitDistance s = ray.maxHit := hs.2
          rw [this]; exact XF.irreflLt F _
        exact ⟨by simp [traverseFinish, this], .inl hno⟩
      · rcases finish _ hs with ⟨g1, g2⟩ | g
        · exact .inl ⟨g1, .inr g2⟩
        · exact .inr g

end
end Blazert
