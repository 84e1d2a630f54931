/- The stack machine of `traverse` computes a structural depth-first visit of the tree. -/
import Verif.Proofs.BuildTree

set_option autoImplicit false

namespace Blazert

set_option linter.unusedSectionVars false
variable {T P I : Type} [Scalar T]

/-- `intersectNode` as a function of the box alone -/
def hitBox (ray : Ray T) (hd : T) (box : Vec3 T × Vec3 T) : Bool :=
  intersectNode (P := Unit) ray.minHit hd ⟨box.1, box.2, true, 0, 0, 0, []⟩ ray

theorem intersectNode_eq_hitBox (ray : Ray T) (hd : T) (nd : Node T P) :
    intersectNode ray.minHit hd nd ray = hitBox ray hd (nd.min, nd.max) := rfl

/-- locals of the visit: `hit_distance` and the intersector -/
structure VState (T I : Type) where
  hd : T
  isect : I

/-- what happens at a leaf whose box is hit -/
def visitLeaf (ix : Intersector T P I) (ray : Ray T) (ps : List P) (v : VState T I) : VState T I × Bool :=
  let q := intersectLeaf ix ray ps v.isect false
  if q.2 then (⟨ix.hitDistance q.1, q.1⟩, ray.anyHit) else (⟨v.hd, q.1⟩, false)

/-- near child first -/
def nearFirst (ray : Ray T) (ax : Nat) : Bool :=
  match ray.directionSign.get? ax with
  | .ok s => s == 0
  | .error _ => true

/-- structural visit of one tree; `true` means stop -/
def visit (ix : Intersector T P I) (ray : Ray T) : Tree T P → VState T I → VState T I × Bool
  | .leaf mn mx ps, v => if hitBox ray v.hd (mn, mx) then visitLeaf ix ray ps v else (v, false)
  | .branch mn mx ax l r, v =>
    if hitBox ray v.hd (mn, mx) then
      if nearFirst ray ax then
        let q := visit ix ray l v
        if q.2 then q else visit ix ray r q.1
      else
        let q := visit ix ray r v
        if q.2 then q else visit ix ray l q.1
    else (v, false)

/-- visit of a list of pending trees -/
def visitList (ix : Intersector T P I) (ray : Ray T) : List (Tree T P) → VState T I → VState T I × Bool
  | [], v => (v, false)
  | t :: ts, v =>
    let q := visit ix ray t v
    if q.2 then q else visitList ix ray ts q.1

/-- total number of nodes of the pending trees -/
def totalNodes (ts : List (Tree T P)) : Nat := (ts.map Tree.numNodes).sum

/-- enough room on a stack of capacity `cap` for the pending trees -/
def Fits (cap : Nat) : List (Tree T P) → Prop
  | [] => True
  | t :: ts => ts.length + t.height + 2 ≤ cap ∧ Fits cap ts

theorem get?_ok_of_lt {α : Type} (v : Vec3 α) (i : Nat) (h : i < 3) : ∃ a, v.get? i = .ok a := by
  match i, h with
  | 0, _ => exact ⟨v.x, rfl⟩
  | 1, _ => exact ⟨v.y, rfl⟩
  | 2, _ => exact ⟨v.z, rfl⟩

theorem traverseLoop_eq (ix : Intersector T P I) (nodes : List (Node T P)) (ray : Ray T) (fuel : Nat)
    (st : TState T I) (ts : List (Tree T P))
    (hrep : List.Forall₂ (Represents nodes) st.stack.toList ts)
    (hss : st.stack.ss ≤ st.stack.cells.length)
    (hfits : Fits st.stack.cells.length ts) (hfuel : totalNodes ts ≤ fuel) :
    traverseLoop ix nodes ray fuel st = .ok (visitList ix ray ts ⟨st.hd, st.isect⟩).1.isect := by
  induction fuel generalizing st ts with
  | zero =>
    cases ts with
    | nil =>
      have hl : st.stack.toList = [] := by cases h : st.stack.toList <;> simp_all
      have h0 : st.stack.ss = 0 := by rw [← Stack.toList_length _ hss, hl]; rfl
      unfold traverseLoop
      simp [Stack.size, h0, visitList]
    | cons t ts =>
      have := t.numNodes_pos
      simp [totalNodes] at hfuel; omega
  | succ fuel ih =>
    cases ts with
    | nil =>
      have hl : st.stack.toList = [] := by cases h : st.stack.toList <;> simp_all
      have h0 : st.stack.ss = 0 := by rw [← Stack.toList_length _ hss, hl]; rfl
      unfold traverseLoop
      simp [Stack.size, h0, visitList]
    | cons t ts =>
      obtain ⟨i, is, hl⟩ : ∃ i is, st.stack.toList = i :: is := by
        cases h : st.stack.toList with
        | nil => simp_all
        | cons i is => exact ⟨i, is, rfl⟩
      rw [hl] at hrep
      obtain ⟨hi, his⟩ := List.forall₂_cons.1 hrep
      obtain ⟨hf, hfs⟩ := hfits
      have hlen := Stack.toList_length _ hss
      rw [hl, List.length_cons, his.length_eq] at hlen
      have hback := Stack.back_spec _ _ _ hl hss
      obtain ⟨sp, hpop, hsp, hsp1, hsp2⟩ := Stack.pop_spec _ _ _ hl (by omega)
      have hspos : st.stack.size > 0 := by simp [Stack.size]; omega
      have hne := t.numNodes_pos
      simp only [totalNodes, List.map_cons, List.sum_cons] at hfuel
      unfold traverseLoop
      rw [if_pos hspos]
      simp only [traverseStep, hback, run_bind_ok]
      cases t with
      | leaf mn mx ps =>
        obtain ⟨nd, hnd, hleaf, hmn, hmx, hps⟩ := hi
        rw [(lookup_eq_ok (u := .oobNode)).2 hnd]
        simp only [run_bind_ok, hpop, intersectNode_eq_hitBox, hmn, hmx, hleaf, hps]
        simp only [visitList, visit]
        have ih' : ∀ hd s, traverseLoop ix nodes ray fuel ⟨sp, hd, s⟩ = .ok (visitList ix ray ts ⟨hd, s⟩).1.isect := by
          intro hd s
          exact ih ⟨sp, hd, s⟩ ts (by rw [hsp]; exact his) (by simp only; omega) (by simpa [hsp2] using hfs)
            (by simp [totalNodes]; omega)
        by_cases hb : hitBox ray st.hd (mn, mx) = true
        · simp only [hb, if_true, Bool.not_true, Bool.false_eq_true, if_false, visitLeaf]
          cases hq : (intersectLeaf ix ray ps st.isect false).2
          · simp [ih']
          · cases ha : ray.anyHit <;> simp [ih']
        · simp only [hb]
          simp [ih']
      | branch mn mx ax l r =>
        obtain ⟨nd, hnd, hleaf, hmn, hmx, hax, hax3, hl0, hr0⟩ := hi
        rw [(lookup_eq_ok (u := .oobNode)).2 hnd]
        simp only [run_bind_ok, hpop, intersectNode_eq_hitBox, hmn, hmx, hleaf]
        simp only [visitList, visit]
        simp only [Tree.numNodes] at hfuel
        simp only [Tree.height] at hf
        have hml := Nat.le_max_left l.height r.height
        have hmr := Nat.le_max_right l.height r.height
        change _ ≤ Nat.max l.height r.height at hml
        change _ ≤ Nat.max l.height r.height at hmr
        by_cases hb : hitBox ray st.hd (mn, mx) = true
        · simp only [hb, if_true, Bool.not_false]
          obtain ⟨near, hnear⟩ := get?_ok_of_lt ray.directionSign ax hax3
          simp only [hax, hnear, run_bind_ok]
          have key : ∀ (a b : Nat) (ta tb : Tree T P), Represents nodes a ta → Represents nodes b tb →
              ta.height ≤ Nat.max l.height r.height → tb.height ≤ Nat.max l.height r.height →
              ta.numNodes + tb.numNodes = l.numNodes + r.numNodes →
              (do let stack ← sp.push b
                  let stack ← stack.push a
                  let q ← (.ok (({ st with stack } : TState T I), false) : Run (TState T I × Bool))
                  if q.2 = true then .ok q.1.isect else traverseLoop ix nodes ray fuel q.1) =
              (.ok (visitList ix ray (ta :: tb :: ts) ⟨st.hd, st.isect⟩).1.isect : Run I) := by
            intro a b ta tb ha hb hha hhb hn
            obtain ⟨s1, hs1, hs1l, hs1s, hs1c⟩ := Stack.push_spec sp b (by omega)
            obtain ⟨s2, hs2, hs2l, hs2s, hs2c⟩ := Stack.push_spec s1 a (by omega)
            simp only [hs1, run_bind_ok, hs2, Bool.false_eq_true, if_false]
            apply ih
            · simp only [hs2l, hs1l, hsp]
              exact .cons ha (.cons hb his)
            · simp only; omega
            · simp only [Fits, List.length_cons]
              refine ⟨by omega, by omega, ?_⟩
              rw [hs2c, hs1c, hsp2]; exact hfs
            · simp [totalNodes]; omega
          by_cases hn0 : near = 0
          · have hnf : nearFirst ray ax = true := by simp [nearFirst, hnear, hn0]
            have := key nd.child0 nd.child1 l r hl0 hr0 hml hmr rfl
            simp only [hn0, if_true, run_bind_assoc, run_pure, hnf]
            rw [this]
            simp only [visitList]
            split <;> simp_all
          · have hnf : nearFirst ray ax = false := by simp [nearFirst, hnear, hn0]
            have := key nd.child1 nd.child0 r l hr0 hl0 hmr hml (by omega)
            simp only [hn0, if_false, run_bind_assoc, run_pure, hnf, Bool.false_eq_true]
            rw [this]
            simp only [visitList]
            split <;> simp_all
        · simp only [hb]
          have := ih ⟨sp, st.hd, st.isect⟩ ts (by rw [hsp]; exact his) (by simp only; omega)
            (by simpa [hsp2] using hfs) (by simp [totalNodes]; omega)
          simp [this]

theorem Stack.empty_push (n : Nat) (h : 0 < n) (v : Nat) :
    ∃ s, (Stack.empty n).push v = .ok s ∧ s.toList = [v] ∧ s.ss = 1 ∧ s.cells.length = n := by
  obtain ⟨s, h1, h2, h3, h4⟩ := Stack.push_spec (Stack.empty n) v (by simp [Stack.empty, h])
  exact ⟨s, h1, by simpa [Stack.empty, Stack.toList] using h2, h3, by simpa [Stack.empty] using h4⟩

theorem traverse_eq (ix : Intersector T P I) (nodes : List (Node T P)) (ray : Ray T) (rayhit : RayHit T)
    (t : Tree T P) (hrep : Represents nodes 0 t) (hh : t.height + 2 ≤ maxTreeDepth) (hn : t.numNodes ≤ nodes.length) :
    traverse ix nodes ray rayhit =
      traverseFinish ix ray rayhit (visit ix ray t ⟨ray.maxHit, ix.prepare ray⟩).1.isect := by
  obtain ⟨s, h1, h2, h3, h4⟩ := Stack.empty_push maxTreeDepth (by decide) 0
  unfold traverse traverseInit
  simp only [h1, run_bind_ok, run_pure]
  have := traverseLoop_eq ix nodes ray (nodes.length + 1) ⟨s, ray.maxHit, ix.prepare ray⟩ [t]
    (by simp only [h2]; exact .cons hrep .nil) (by simp only [h3, h4]; decide)
    (by simp only [Fits, h4, List.length_nil]; exact ⟨by omega, trivial⟩) (by simp [totalNodes]; omega)
  rw [this]
  simp only [run_bind_ok, visitList]
  split <;> rfl

end Blazert
