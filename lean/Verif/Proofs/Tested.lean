/- A traversal tests a selection of the primitives one after the other, and leaves out only what is below rejected boxes. -/
import Verif.Proofs.VisitOr
import Verif.Proofs.Scan
import Verif.Proofs.Queries
import Verif.Spec.Boxes
import Verif.Spec.Tested
import Verif.Model.Sphere
import Verif.Model.Plane
import Verif.Model.TriMesh
import Verif.Model.Cylinder

set_option autoImplicit false

namespace Blazert
open Scalar

variable {T P I : Type} [Scalar T] {ix : Intersector T P I} {ray : Ray T}

/-- testing the primitives `ps` in turn, from the state `s` -/
def testAll (ix : Intersector T P I) (ray : Ray T) (s : I) (ps : List P) : I :=
  ps.foldl (fun s p => (ix.isect s p ray).1) s

theorem testAll_append (s : I) (ps qs : List P) :
    testAll ix ray s (ps ++ qs) = testAll ix ray (testAll ix ray s ps) qs := by simp [testAll]

theorem scan_eq_testAll (ps : List P) : scan ix ray ps = testAll ix ray (ix.prepare ray) ps := rfl

/-- the result of a visit from the state `s`: the tests made are `vs`, and `rest` was left out -/
structure TestedBy (ix : Intersector T P I) (ray : Ray T) (t : Tree T P) (s : I) (r : VState T I) (vs rest : List P) :
    Prop where
  perm : (vs ++ rest).Perm t.prims
  isect : r.isect = testAll ix ray s vs
  hd : r.hd = ix.hitDistance r.isect
  skip : ∀ q ∈ rest, ∃ u ∈ t.subtrees, q ∈ u.prims ∧ ∃ k,
    hitBox ray (ix.hitDistance (testAll ix ray s (vs.take k))) u.box = false

theorem intersectLeaf_quiet (hq : Quiet ix ray) (ps : List P) (s : I) (b : Bool)
    (h : (intersectLeaf ix ray ps s b).2 = false) : (intersectLeaf ix ray ps s b).1 = s ∧ b = false := by
  induction ps generalizing s b with
  | nil => exact ⟨rfl, h⟩
  | cons p ps ih =>
    rw [intersectLeaf_cons] at h ⊢
    by_cases hc : ((b || (ix.isect s p ray).2) && ray.anyHit) = true
    · rw [if_pos hc] at h
      simp only at h
      rw [h] at hc
      simp at hc
    · rw [if_neg hc] at h ⊢
      obtain ⟨h1, h2⟩ := ih _ _ h
      rw [Bool.or_eq_false_iff] at h2
      exact ⟨h1.trans (hq.miss _ _ h2.2), h2.1⟩

theorem Tree.self_mem_subtrees (t : Tree T P) : t ∈ t.subtrees := by cases t <;> simp [Tree.subtrees]

theorem TestedBy.reject (t : Tree T P) (v : VState T I) (hv : v.hd = ix.hitDistance v.isect)
    (h : hitBox ray v.hd t.box = false) : TestedBy ix ray t v.isect v [] t.prims := by
  refine ⟨by simp, rfl, hv, fun q hq => ⟨t, t.self_mem_subtrees, hq, 0, ?_⟩⟩
  simpa [testAll, ← hv] using h

theorem visit_tested (hany : ray.anyHit = false) (hq : Quiet ix ray) (t : Tree T P) (v : VState T I)
    (hv : v.hd = ix.hitDistance v.isect) :
    (visit ix ray t v).2 = false ∧ ∃ vs rest, TestedBy ix ray t v.isect (visit ix ray t v).1 vs rest := by
  induction t generalizing v with
  | leaf mn mx ps =>
    by_cases hb : hitBox ray v.hd (mn, mx) = true
    · simp only [visit, hb, if_true, visitLeaf]
      have hf := intersectLeaf_foldl hany (ix := ix) ps v.isect false
      by_cases hl : (intersectLeaf ix ray ps v.isect false).2 = true
      · rw [if_pos hl]
        exact ⟨hany, ps, [], by simp [Tree.prims, Tree.leaves], hf, rfl, by simp⟩
      · rw [if_neg hl]
        have hl' := intersectLeaf_quiet hq ps v.isect false (by simpa using hl)
        refine ⟨rfl, ps, [], by simp [Tree.prims, Tree.leaves], hf, ?_, by simp⟩
        simp only
        rw [hl'.1, hv]
    · have hb' : hitBox ray v.hd (mn, mx) = false := by simpa using hb
      have := TestedBy.reject (.leaf mn mx ps) v hv hb'
      simp only [visit, hb', Bool.false_eq_true, if_false]
      exact ⟨trivial, _, _, this⟩
  | branch mn mx ax l r ihl ihr =>
    by_cases hb : hitBox ray v.hd (mn, mx) = true
    · have key : ∀ a b : Tree T P,
          (∀ v : VState T I, v.hd = ix.hitDistance v.isect → (visit ix ray a v).2 = false ∧
            ∃ vs rest, TestedBy ix ray a v.isect (visit ix ray a v).1 vs rest) →
          (∀ v : VState T I, v.hd = ix.hitDistance v.isect → (visit ix ray b v).2 = false ∧
            ∃ vs rest, TestedBy ix ray b v.isect (visit ix ray b v).1 vs rest) →
          (a.prims ++ b.prims).Perm (Tree.branch mn mx ax l r).prims →
          (∀ u, u ∈ a.subtrees ∨ u ∈ b.subtrees → u ∈ (Tree.branch mn mx ax l r).subtrees) →
          (if (visit ix ray a v).2 = true then visit ix ray a v else visit ix ray b (visit ix ray a v).1).2 = false ∧
          ∃ vs rest, TestedBy ix ray (.branch mn mx ax l r) v.isect
            (if (visit ix ray a v).2 = true then visit ix ray a v else visit ix ray b (visit ix ray a v).1).1 vs rest := by
        intro a b iha ihb hp hs
        obtain ⟨h1, vs, rest, e⟩ := iha v hv
        obtain ⟨h2, vs', rest', e'⟩ := ihb _ e.hd
        rw [if_neg (by simp [h1])]
        refine ⟨h2, vs ++ vs', rest ++ rest', ?_, ?_, e'.hd, ?_⟩
        · refine List.Perm.trans ?_ hp
          refine List.Perm.trans ?_ (e.perm.append e'.perm)
          simp only [List.append_assoc]
          refine List.Perm.append_left _ ?_
          rw [← List.append_assoc, ← List.append_assoc]
          exact List.Perm.append_right _ List.perm_append_comm
        · rw [e'.isect, e.isect, testAll_append]
        · intro q hq
          rcases List.mem_append.1 hq with hq | hq
          · obtain ⟨u, hu, hqu, k, hk⟩ := e.skip q hq
            refine ⟨u, hs u (.inl hu), hqu, Min.min k vs.length, ?_⟩
            rw [List.take_append_of_le_length (Nat.min_le_right _ _)]
            by_cases hkl : k ≤ vs.length
            · rwa [Nat.min_eq_left hkl]
            · rw [Nat.min_eq_right (by omega), List.take_length]
              rwa [List.take_of_length_le (by omega)] at hk
          · obtain ⟨u, hu, hqu, k, hk⟩ := e'.skip q hq
            refine ⟨u, hs u (.inr hu), hqu, vs.length + k, ?_⟩
            rw [List.take_length_add_append, testAll_append, ← e.isect]
            exact hk
      simp only [visit, hb, if_true]
      by_cases hn : nearFirst ray ax = true
      · simp only [hn, if_true]
        exact key l r ihl ihr (by simp [Tree.prims, Tree.leaves]) (by
          intro u hu
          simp only [Tree.subtrees, List.mem_cons, List.mem_append]
          exact .inr hu)
      · simp only [hn]
        exact key r l ihr ihl (by simp only [Tree.prims, Tree.leaves, List.flatten_append]; exact List.perm_append_comm) (by
          intro u hu
          simp only [Tree.subtrees, List.mem_cons, List.mem_append]
          exact .inr hu.symm)
    · have hb' : hitBox ray v.hd (mn, mx) = false := by simpa using hb
      have := TestedBy.reject (.branch mn mx ax l r) v hv hb'
      simp only [visit, hb', Bool.false_eq_true, if_false]
      exact ⟨trivial, _, _, this⟩

theorem testAll_stay (hq : Quiet ix ray) (s : I) (l : List P) (h : ∀ x ∈ l, (ix.isect s x ray).2 = false) :
    testAll ix ray s l = s := by
  induction l with
  | nil => rfl
  | cons x l ih =>
    have hx := hq.miss s x (h x (by simp))
    change testAll ix ray (ix.isect s x ray).1 l = s
    rw [hx]
    exact ih fun y hy => h y (by simp [hy])

theorem pairwise_of_forall₂ {R : Nat → P → Prop} {is : List Nat} {ps : List P} (n : Nat) (q : P)
    (h : List.Forall₂ R is ps) (hnd : is.Nodup) (hR : ∀ i ∈ is, i ≠ n → ¬ R i q) :
    ps.Pairwise (fun x y => x ≠ q ∨ y ≠ q) := by
  induction h with
  | nil => exact .nil
  | @cons i x is ps hx hr ih =>
    rw [List.nodup_cons] at hnd
    refine List.pairwise_cons.2 ⟨fun y hy => ?_, ih hnd.2 fun j hj => hR j (by simp [hj])⟩
    by_cases hxq : x = q
    · right
      rintro rfl
      subst hxq
      have hin : i = n := by
        by_contra hne
        exact hR i (by simp) hne hx
      obtain ⟨j, hj, hjy⟩ : ∃ j ∈ is, R j x := by
        clear ih hnd hR
        induction hr with
        | nil => cases hy
        | @cons j y is ps hjy _ ih =>
          rcases List.mem_cons.1 hy with rfl | hy
          · exact ⟨j, by simp, hjy⟩
          · obtain ⟨j', h1, h2⟩ := ih hy
            exact ⟨j', by simp [h1], h2⟩
      by_cases hjn : j = n
      · rw [hin, ← hjn] at hnd
        exact hnd.1 hj
      · exact hR j (by simp [hj]) hjn hjy
    · exact .inl hxq

/-! ### Whole traversals -/

/-- C66 in terms of the tree -/
theorem traverse_tested {part : StdPartition} {p : Collection T P} {opts : BuildOptions} {nodes : List (Node T P)}
    {stats : Statistics} (hbuild : build part p opts [] = .ok (nodes, stats))
    (hany : ray.anyHit = false) (hq : Quiet ix ray) {rayhit out : RayHit T} {hit : Bool}
    (h : traverse ix nodes ray rayhit = .ok (hit, out)) :
    ∃ t, Built p opts 0 (List.range p.size) t ∧ Represents nodes 0 t ∧ ∃ vs rest,
      (vs ++ rest).Perm t.prims ∧ Answers ix ray rayhit vs hit out ∧
      ∀ q ∈ rest, ∃ u ∈ t.subtrees, q ∈ u.prims ∧ ∃ hd, DistanceAfter ix ray vs hd ∧ hitBox ray hd u.box = false := by
  obtain ⟨t, hb, hr, hn⟩ := built_of_build hbuild
  obtain ⟨_, vs, rest, e⟩ := visit_tested hany hq t ⟨ray.maxHit, ix.prepare ray⟩ hq.start.symm
  refine ⟨t, hb, hr, vs, rest, e.perm, ?_, fun q hq => ?_⟩
  · rcases traverse_or ix nodes ray rayhit t hr hn with h' | h'
    · rw [h'] at h; cases h
    · rw [h', e.isect] at h
      change traverseFinish ix ray rayhit (scan ix ray vs) = _ at h
      unfold traverseFinish at h
      cases hl : lt (ix.hitDistance (scan ix ray vs)) ray.maxHit with
      | false =>
        simp only [hl, Bool.false_eq_true, if_false, run_pure, Except.ok.injEq, Prod.mk.injEq] at h
        obtain ⟨rfl, rfl⟩ := h
        exact ⟨hl.symm, by simp, fun _ => rfl⟩
      | true =>
        simp only [hl, if_true] at h
        cases hp : ix.post (scan ix ray vs) rayhit with
        | error e => rw [hp] at h; cases h
        | ok r =>
          rw [hp] at h
          simp only [run_bind_ok, run_pure, Except.ok.injEq, Prod.mk.injEq] at h
          obtain ⟨rfl, rfl⟩ := h
          exact ⟨hl.symm, fun _ => hp, by simp⟩
  · obtain ⟨u, hu, hqu, k, hk⟩ := e.skip q hq
    exact ⟨u, hu, hqu, _, ⟨k, rfl⟩, hk⟩

/-! ### From trees to node lists -/

theorem Represents.under {nodes : List (Node T P)} {t : Tree T P} {i : Nat} (h : Represents nodes i t) {q : P}
    (hq : q ∈ t.prims) : Under nodes q i := by
  induction t generalizing i with
  | leaf mn mx ps =>
    obtain ⟨nd, h1, h2, _, _, h3⟩ := h
    exact .leaf i nd h1 h2 (by simpa [Tree.prims, Tree.leaves, h3] using hq)
  | branch mn mx ax l r ihl ihr =>
    obtain ⟨nd, h1, h2, _, _, _, _, hl, hr⟩ := h
    simp only [Tree.prims, Tree.leaves, List.flatten_append, List.mem_append] at hq
    rcases hq with hq | hq
    · exact .left i nd h1 h2 (ihl hl hq)
    · exact .right i nd h1 h2 (ihr hr hq)

theorem Represents.subtree {nodes : List (Node T P)} {t : Tree T P} {i : Nat} (h : Represents nodes i t) {u : Tree T P}
    (hu : u ∈ t.subtrees) : ∃ j nd, Represents nodes j u ∧ nodes[j]? = some nd ∧ (nd.min, nd.max) = u.box := by
  induction t generalizing i with
  | leaf mn mx ps =>
    simp only [Tree.subtrees, List.mem_singleton] at hu
    subst hu
    obtain ⟨nd, h1, _, rfl, rfl, _⟩ := id h
    exact ⟨i, nd, h, h1, rfl⟩
  | branch mn mx ax l r ihl ihr =>
    simp only [Tree.subtrees, List.mem_cons, List.mem_append] at hu
    obtain ⟨nd, h1, _, h3, h4, _, _, hl, hr⟩ := id h
    rcases hu with rfl | hu | hu
    · exact ⟨i, nd, h, h1, by simp [Tree.box, h3, h4]⟩
    · exact ihl hl hu
    · exact ihr hr hu

/-! ### The four intersectors -/

theorem sphere_quiet (c : SphereColl T) (ray : Ray T) : Quiet (sphereIx c) ray := by
  refine ⟨rfl, fun s q h => ?_⟩
  simp only [sphereIx, sphereIntersect] at h ⊢
  split_ifs at h ⊢ <;> simp_all

theorem PlaneI.record_true (i : PlaneI T) (n : Vec3 T) (t : T) (d : Vec3 T) (k : Nat) : (i.record n t d k).2 = true := rfl

theorem tri_quiet (m : MeshColl T) (ray : Ray T) : Quiet (triIx m) ray := by
  refine ⟨rfl, fun s q h => ?_⟩
  simp only [triIx, triIntersect] at h ⊢
  split_ifs at h ⊢ <;> simp_all

/-- unchanged unless accepted -/
structure Keeps (i : PlaneI T) (r : PlaneI T × Bool) : Prop where
  keeps : r.2 = false → r.1 = i

theorem Keeps.same (i : PlaneI T) : Keeps i (i, false) := ⟨fun _ => rfl⟩
theorem Keeps.record (i : PlaneI T) (n : Vec3 T) (t : T) (d : Vec3 T) (k : Nat) : Keeps i (i.record n t d k) :=
  ⟨fun h => by simp [PlaneI.record_true] at h⟩
theorem Keeps.ite {i : PlaneI T} {c : Prop} [Decidable c] {a b : PlaneI T × Bool} (ha : Keeps i a) (hb : Keeps i b) :
    Keeps i (if c then a else b) := by split <;> assumption

theorem plane_quiet (ray : Ray T) : Quiet (planeIx (T := T)) ray := by
  refine ⟨rfl, fun i pl => Keeps.keeps ?_⟩
  exact Keeps.ite (.record ..) (.ite (.record ..) (.ite (.record ..) (.ite (.record ..) (.ite (.record ..)
    (.ite (.record ..) (.ite (.record ..) (.ite (.record ..) (.ite (.record ..) (.same i)))))))))

theorem cylLateralOutside_keeps (i : PlaneI T) (cy : Cylinder T) (o d : Vec3 T) : Keeps i (cylLateralOutside i cy o d) :=
  .ite (.same i) (.ite (.record ..) (.ite (.record ..) (.same i)))

theorem cylCapsInside_keeps (i : PlaneI T) (cy : Cylinder T) (o d : Vec3 T) : Keeps i (cylCapsInside i cy o d) :=
  .ite (.record ..) (.ite (.record ..) (.same i))

theorem cylAboveBelow_keeps (i : PlaneI T) (cy : Cylinder T) (o d : Vec3 T) (c n : T) :
    Keeps i (cylAboveBelow i cy o d c n) :=
  .ite (.same i) (.ite (.same i) (.ite (.record ..) (cylLateralOutside_keeps i cy o d)))

theorem cylInside_keeps (i : PlaneI T) (cy : Cylinder T) (o d : Vec3 T) : Keeps i (cylInside i cy o d) :=
  .ite (.ite (.same i) (.ite (.same i) (.ite (.record ..) (.ite (.record ..) (.same i)))))
    (.ite (.ite (.same i) (cylCapsInside_keeps i cy o d))
      (.ite (.same i) (.ite (.record ..) (.ite (.record ..) (cylCapsInside_keeps i cy o d)))))

theorem cylinder_quiet (ray : Ray T) : Quiet (cylIx (T := T)) ray := by
  refine ⟨rfl, fun i cy => Keeps.keeps ?_⟩
  have h4 : ∀ c : Bool, ∀ o d : Vec3 T, Keeps i (if c = true then cylInside i cy o d else (i, false)) :=
    fun c o d => .ite (cylInside_keeps i cy o d) (.same i)
  exact Keeps.ite (.ite (cylAboveBelow_keeps ..) (h4 _ _ _)) (.ite (.ite (cylAboveBelow_keeps ..) (h4 _ _ _))
    (.ite (.ite (cylLateralOutside_keeps ..) (h4 _ _ _)) (h4 _ _ _)))

section
variable {K : Type} [Field K] [LinearOrder K] [FloorRing K] {F : Fmt K}

theorem XF.InRange.is {x : XF F} (h : x.InRange) : ∃ v, x.Is v := by
  obtain ⟨v, s, e, _⟩ := h
  exact ⟨v, s, e⟩

end

end Blazert
