/- Helper lemmas: a scene that refers to the caller's containers behaves like one that copies them, as long as the containers
are left alone. -/
import Verif.Proofs.Basic
import Verif.Spec.Memory

set_option autoImplicit false
set_option linter.unusedSectionVars false

namespace Blazert
open Scalar

/-! ### Computations that go the same way -/

/-- both succeed with related results, or both run into the same undefined behaviour -/
inductive RunRel {α β : Type} (R : α → β → Prop) : Run α → Run β → Prop
  | ok {a : α} {b : β} (h : R a b) : RunRel R (.ok a) (.ok b)
  | error (e : UB) : RunRel R (.error e) (.error e)

section
variable {α β γ δ : Type}

theorem RunRel.bind {R : α → β → Prop} {S : γ → δ → Prop} {x : Run α} {y : Run β} {f : α → Run γ} {g : β → Run δ}
    (h : RunRel R x y) (hf : ∀ a b, R a b → RunRel S (f a) (g b)) : RunRel S (x >>= f) (y >>= g) := by
  cases h with
  | ok h => exact hf _ _ h
  | error e => exact .error e

theorem RunRel.refl (x : Run α) : RunRel Eq x x := by
  cases x with
  | ok a => exact .ok rfl
  | error e => exact .error e

theorem RunRel.bindEq {S : γ → δ → Prop} (x : Run α) {f : α → Run γ} {g : α → Run δ}
    (hf : ∀ a, RunRel S (f a) (g a)) : RunRel S (x >>= f) (x >>= g) :=
  (RunRel.refl x).bind fun a b h => by subst h; exact hf a

theorem RunRel.mono {R S : α → β → Prop} {x : Run α} {y : Run β} (h : RunRel R x y) (hs : ∀ a b, R a b → S a b) :
    RunRel S x y := by
  cases h with
  | ok h => exact .ok (hs _ _ h)
  | error e => exact .error e

theorem RunRel.eq {x y : Run α} (h : RunRel Eq x y) : x = y := by
  cases h with
  | ok h => rw [h]
  | error e => rfl

theorem RunRel.map_eq {R : α → β → Prop} {x : Run α} {y : Run β} {f : α → γ} {g : β → γ} (h : RunRel R x y)
    (hf : ∀ a b, R a b → f a = g b) : x.map f = y.map g := by
  cases h with
  | ok h => simp only [Except.map, hf _ _ h]
  | error e => rfl

theorem RunRel.mapM {ι : Type} {R : α → β → Prop} {f : ι → Run α} {g : ι → Run β} (l : List ι)
    (h : ∀ i, RunRel R (f i) (g i)) : RunRel (List.Forall₂ R) (l.mapM f) (l.mapM g) := by
  induction l with
  | nil => exact .ok .nil
  | cons i l ih =>
    rw [List.mapM_cons, List.mapM_cons]
    exact (h i).bind fun a b hab => ih.bind fun as bs hs => .ok (.cons hab hs)

theorem RunRel.foldlM {ι : Type} {R : α → β → Prop} {f : α → ι → Run α} {g : β → ι → Run β}
    (h : ∀ a b i, R a b → RunRel R (f a i) (g b i)) (l : List ι) : ∀ a b, R a b → RunRel R (l.foldlM f a) (l.foldlM g b) := by
  induction l with
  | nil => intro a b hab; exact .ok hab
  | cons i l ih =>
    intro a b hab
    rw [List.foldlM_cons, List.foldlM_cons]
    exact (h a b i hab).bind fun a' b' h' => ih a' b' h'

end

/-! ### Building -/

/-- nodes that differ only in how their primitives are represented -/
structure NodeRel {T P Q : Type} (R : Q → P → Prop) (n : Node T Q) (n' : Node T P) : Prop where
  min : n.min = n'.min
  max : n.max = n'.max
  leaf : n.leaf = n'.leaf
  axis : n.axis = n'.axis
  child0 : n.child0 = n'.child0
  child1 : n.child1 = n'.child1
  prims : List.Forall₂ R n.prims n'.prims

section
variable {T P Q I : Type} [Scalar T]

/-- node lists that differ only in how the primitives are represented -/
abbrev NodesRel (R : Q → P → Prop) : List (Node T Q) → List (Node T P) → Prop := List.Forall₂ (NodeRel R)

/-- collections that differ only in how the primitives are represented -/
structure CollRel (R : Q → P → Prop) (c : Collection T Q) (c' : Collection T P) : Prop where
  size : c.size = c'.size
  box : c.box = c'.box
  center : c.center = c'.center
  prim : ∀ i, RunRel R (c.prim i) (c'.prim i)

variable {R : Q → P → Prop} {c : Collection T Q} {c' : Collection T P}

theorem lookup_rel {α β : Type} {S : α → β → Prop} {l : List α} {l' : List β} (h : List.Forall₂ S l l') (u : UB) (i : Nat) :
    RunRel S (lookup u l i) (lookup u l' i) := by
  induction h generalizing i with
  | nil => simp only [lookup, List.getElem?_nil]; exact .error u
  | cons ha _ ih =>
    cases i with
    | zero => simp only [lookup, List.getElem?_cons_zero]; exact .ok ha
    | succ i => simpa only [lookup, List.getElem?_cons_succ] using ih i

theorem forall₂_set {α β : Type} {S : α → β → Prop} {l : List α} {l' : List β} (h : List.Forall₂ S l l') {a : α} {b : β}
    (hab : S a b) (i : Nat) : List.Forall₂ S (l.set i a) (l'.set i b) := by
  induction h generalizing i with
  | nil => exact .nil
  | cons ha h ih =>
    cases i with
    | zero => exact .cons hab h
    | succ i => exact .cons ha (ih i)

theorem computeBoundingBox_rel (h : CollRel R c c') (idx : List Nat) : computeBoundingBox c idx = computeBoundingBox c' idx := by
  simp only [computeBoundingBox, h.box]

theorem findBestSplit_rel (h : CollRel R c c') (idx : List Nat) (mn mx : Vec3 T) (size : Nat) :
    findBestSplit c idx mn mx size = findBestSplit c' idx mn mx size := by
  have : sortIntoBins c idx mn mx size = sortIntoBins c' idx mn mx size := by
    simp only [sortIntoBins, binPrimitive, h.box, h.center]
  simp only [findBestSplit, this]

theorem splitLoop_rel (h : CollRel R c c') (part : StdPartition) (cut : Vec3 T) (tries : Nat) : ∀ axis idx bad,
    splitLoop part c cut tries axis idx bad = splitLoop part c' cut tries axis idx bad := by
  have hk : ∀ axis idx, splitKeys c cut axis idx = splitKeys c' cut axis idx := fun axis idx => by
    simp only [splitKeys, h.center]
  induction tries with
  | zero => intro axis idx bad; unfold splitLoop; rw [hk]
  | succ n ih =>
    intro axis idx bad
    unfold splitLoop
    simp only [hk, ih]

theorem createBranch_rel (h : CollRel R c c') (part : StdPartition) (idx : List Nat) (mn mx : Vec3 T) (stats : Statistics)
    (o : BuildOptions) : RunRel (fun a b => NodeRel R a.1 b.1 ∧ a.2 = b.2) (createBranch part c idx mn mx stats o)
      (createBranch part c' idx mn mx stats o) := by
  unfold createBranch
  have : split part c idx mn mx stats o = split part c' idx mn mx stats o := by
    unfold split
    simp only [findBestSplit_rel h, splitLoop_rel h]
  rw [this]
  exact .bindEq _ fun x => .ok ⟨⟨rfl, rfl, rfl, rfl, rfl, rfl, .nil⟩, rfl⟩

theorem createLeaf_rel (h : CollRel R c c') (idx : List Nat) (mn mx : Vec3 T) :
    RunRel (NodeRel R) (createLeaf c idx mn mx) (createLeaf c' idx mn mx) := by
  unfold createLeaf
  exact (RunRel.mapM idx h.prim).bind fun a b hab => .ok ⟨rfl, rfl, rfl, rfl, rfl, rfl, hab⟩

theorem modifyNode_rel {ns : List (Node T Q)} {ns' : List (Node T P)} (h : NodesRel R ns ns') (i : Nat)
    {f : Node T Q → Node T Q} {f' : Node T P → Node T P} (hf : ∀ n n', NodeRel R n n' → NodeRel R (f n) (f' n')) :
    RunRel (NodesRel R) (modifyNode ns i f) (modifyNode ns' i f') := by
  unfold modifyNode
  exact (lookup_rel h _ i).bind fun a b hab => .ok (forall₂_set h (hf a b hab) i)

theorem buildRecursive_rel (h : CollRel R c c') (part : StdPartition) (o : BuildOptions) (fuel : Nat) :
    ∀ (depth : Nat) (ns : List (Node T Q)) (ns' : List (Node T P)) (idx : List Nat) (stats : Statistics), NodesRel R ns ns' →
      RunRel (fun a b => a.1 = b.1 ∧ NodesRel R a.2.1 b.2.1 ∧ a.2.2 = b.2.2) (buildRecursive part c o fuel depth ns idx stats)
        (buildRecursive part c' o fuel depth ns' idx stats) := by
  induction fuel with
  | zero =>
    intro depth ns ns' idx stats hn
    unfold buildRecursive
    simp only [computeBoundingBox_rel h, hn.length_eq]
    generalize (if stats.maxTreeDepth < depth then _ else stats) = st
    refine .bindEq _ fun b => ?_
    split_ifs
    · exact (createLeaf_rel h idx b.1 b.2).bind fun a b hab => .ok ⟨rfl, List.rel_append hn (.cons hab .nil), rfl⟩
    · exact .error _
  | succ fuel ih =>
    intro depth ns ns' idx stats hn
    unfold buildRecursive
    simp only [computeBoundingBox_rel h, hn.length_eq]
    generalize (if stats.maxTreeDepth < depth then _ else stats) = st
    refine .bindEq _ fun b => ?_
    split_ifs
    · exact (createLeaf_rel h idx b.1 b.2).bind fun a b hab => .ok ⟨rfl, List.rel_append hn (.cons hab .nil), rfl⟩
    · refine (createBranch_rel h part idx b.1 b.2 _ o).bind fun x y hxy => ?_
      obtain ⟨n, l, r, st1⟩ := x
      obtain ⟨n', l', r', st2⟩ := y
      obtain ⟨hx, hy⟩ := hxy
      simp only [Prod.mk.injEq] at hy
      obtain ⟨rfl, rfl, rfl⟩ := hy
      refine (ih _ _ _ l _ (List.rel_append hn (.cons hx .nil))).bind fun x y hxy => ?_
      obtain ⟨o1, n1, s1⟩ := x
      obtain ⟨o2, n2, s2⟩ := y
      obtain ⟨rfl, h2, h3⟩ := hxy
      simp only at h2 h3
      subst h3
      refine (modifyNode_rel h2 _ ?_).bind fun m1 m2 hm => ?_
      · exact fun n n' hn => ⟨hn.min, hn.max, hn.leaf, hn.axis, rfl, hn.child1, hn.prims⟩
      refine (ih _ _ _ r _ hm).bind fun x y hxy => ?_
      obtain ⟨o1, n1, s1⟩ := x
      obtain ⟨o2, n2, s2⟩ := y
      obtain ⟨rfl, h2, h3⟩ := hxy
      simp only at h2 h3
      subst h3
      refine (modifyNode_rel h2 _ ?_).bind fun m1 m2 hm => .ok ⟨rfl, hm, rfl⟩
      exact fun n n' hn => ⟨hn.min, hn.max, hn.leaf, hn.axis, hn.child0, rfl, hn.prims⟩

theorem build_rel (h : CollRel R c c') (part : StdPartition) (o : BuildOptions) {ns : List (Node T Q)} {ns' : List (Node T P)}
    (hn : NodesRel R ns ns') : RunRel (fun a b => NodesRel R a.1 b.1) (build part c o ns) (build part c' o ns') := by
  unfold build
  rw [h.size]
  exact (buildRecursive_rel h part o _ _ _ _ _ _ hn).bind fun a b hab => .ok hab.2.1

/-! ### Traversal -/

variable {load : Q → Run P}

theorem intersectLeafR_eq (ix : Intersector T P I) (hl : ∀ q p, R q p → load q = .ok p) (ray : Ray T) {qs : List Q} {ps : List P}
    (h : List.Forall₂ R qs ps) : ∀ s hit, intersectLeafR ix load ray qs s hit = .ok (intersectLeaf ix ray ps s hit) := by
  induction h with
  | nil => intro s hit; rfl
  | cons hq _ ih =>
    intro s hit
    unfold intersectLeafR intersectLeaf
    rw [hl _ _ hq, run_bind_ok]
    simp only
    split
    · rfl
    · exact ih _ _

theorem traverseStepR_eq (ix : Intersector T P I) (hl : ∀ q p, R q p → load q = .ok p) {ns : List (Node T Q)}
    {ns' : List (Node T P)} (h : NodesRel R ns ns') (ray : Ray T) (st : TState T I) :
    traverseStepR ix load ns ray st = traverseStep ix ns' ray st := by
  unfold traverseStepR traverseStep
  refine RunRel.eq (.bindEq _ fun top => (lookup_rel h _ top).bind fun n n' hn => .bindEq _ fun stack => ?_)
  have hi : intersectNode ray.minHit st.hd n ray = intersectNode ray.minHit st.hd n' ray := by
    simp only [intersectNode, slabStep, hn.min, hn.max]
  rw [hi, hn.leaf, hn.axis, hn.child0, hn.child1, intersectLeafR_eq ix hl ray hn.prims, run_bind_ok]
  exact .refl _

theorem traverseLoopR_eq (ix : Intersector T P I) (hl : ∀ q p, R q p → load q = .ok p) {ns : List (Node T Q)}
    {ns' : List (Node T P)} (h : NodesRel R ns ns') (ray : Ray T) (fuel : Nat) : ∀ st,
    traverseLoopR ix load ns ray fuel st = traverseLoop ix ns' ray fuel st := by
  induction fuel with
  | zero => intro st; unfold traverseLoopR traverseLoop; rfl
  | succ n ih =>
    intro st
    unfold traverseLoopR traverseLoop
    simp only [traverseStepR_eq ix hl h, ih]

theorem traverseR_eq (ix : Intersector T P I) (hl : ∀ q p, R q p → load q = .ok p) {ns : List (Node T Q)}
    {ns' : List (Node T P)} (h : NodesRel R ns ns') (ray : Ray T) (rh : RayHit T) :
    traverseR ix load ns ray rh = traverse ix ns' ray rh := by
  unfold traverseR traverse
  rw [h.length_eq]
  simp only [traverseLoopR_eq ix hl h]

end
end Blazert
