/- The boxes of a built tree cover the primitives, geometrically. -/
import Verif.Proofs.Boxes
import Verif.Proofs.Slab
import Verif.Proofs.Scan
import Verif.Proofs.Vector
import Verif.Spec.Hits

set_option autoImplicit false

namespace Blazert
open Scalar

variable {F : Fmt ℝ} {P : Type}

theorem XF.lawful (F : Fmt ℝ) : LawfulLt (XF F) := ⟨XF.lt_irrefl, XF.lt_trans⟩

theorem BoxInRange.isV {b : Vec3 (XF F) × Vec3 (XF F)} (h : BoxInRange b) : ∃ mn mx, IsV b.1 mn ∧ IsV b.2 mx := by
  obtain ⟨⟨x, sx, ex, _⟩, ⟨x', sx', ex', _⟩⟩ := h 0
  obtain ⟨⟨y, sy, ey, _⟩, ⟨y', sy', ey', _⟩⟩ := h 1
  obtain ⟨⟨z, sz, ez, _⟩, ⟨z', sz', ez', _⟩⟩ := h 2
  exact ⟨⟨x, y, z⟩, ⟨x', y', z'⟩, ⟨⟨sx, ex⟩, ⟨sy, ey⟩, ⟨sz, ez⟩⟩, ⟨⟨sx', ex'⟩, ⟨sy', ey'⟩, ⟨sz', ez'⟩⟩⟩

theorem BoxContains.inBox {a b : Vec3 (XF F) × Vec3 (XF F)} (h : BoxContains a b) {mn mx mn' mx' p : Vec3 ℝ}
    (h1 : IsV a.1 mn) (h2 : IsV a.2 mx) (h3 : IsV b.1 mn') (h4 : IsV b.2 mx') (hp : InBox mn' mx' p) : InBox mn mx p := by
  rw [inBox_iff] at hp ⊢
  intro k
  obtain ⟨e1, e2⟩ := h k
  rw [(h1.get k).le (h3.get k)] at e1
  rw [(h4.get k).le (h2.get k)] at e2
  exact ⟨e1.trans (hp k).1, (hp k).2.trans e2⟩

/-- Every node's box contains the boxes of the primitives below it and is touched by them. -/
theorem Built.boxesCover {p : Collection (XF F) P} {o : BuildOptions} {d : Nat} {idx idx0 : List Nat} {t : Tree (XF F) P}
    (h : Built p o d idx t) (hsub : ∀ i ∈ idx, i ∈ idx0) (hbox : ∀ i ∈ idx0, ∀ b, p.box i = .ok b → BoxInRange b)
    (Covers : Vec3 (XF F) × Vec3 (XF F) → P → Prop)
    (hcov : ∀ box, ∀ i ∈ idx0, ∀ q b, p.prim i = .ok q → p.box i = .ok b → BoxInRange box → BoxContains box b →
      (∀ k, (∃ j ∈ idx0, ∃ b', p.box j = .ok b' ∧ b'.1.get k = box.1.get k) ∧
        (∃ j ∈ idx0, ∃ b', p.box j = .ok b' ∧ b'.2.get k = box.2.get k)) → Covers box q) :
    BoxesCover Covers t := by
  have key : ∀ (d : Nat) (idx : List Nat) (t : Tree (XF F) P), Built p o d idx t → (∀ i ∈ idx, i ∈ idx0) →
      ∀ q ∈ t.prims, Covers t.box q := by
    intro d idx t h hsub q hq
    obtain ⟨ps, h1, h2⟩ := h.prims_perm
    obtain ⟨i, hi, hq'⟩ := mapM_mem_of_out h1 (h2.subset hq)
    obtain ⟨bs, h3, _, _, h4⟩ := computeBoundingBox_spec p idx (fun i hi => hbox i (hsub i hi)) _ h.box
    obtain ⟨h5, h6, h7⟩ := h4 (List.ne_nil_of_mem hi)
    obtain ⟨b, hb, hib⟩ := mapM_mem_of_in h3 hi
    refine hcov _ i (hsub i hi) q b hq' hib h5 (h6 b hb) fun k => ?_
    obtain ⟨⟨b1, hb1, e1⟩, ⟨b2, hb2, e2⟩⟩ := h7 k
    obtain ⟨j1, hj1, hj1'⟩ := mapM_mem_of_out h3 hb1
    obtain ⟨j2, hj2, hj2'⟩ := mapM_mem_of_out h3 hb2
    exact ⟨⟨j1, hsub _ hj1, b1, hj1', e1⟩, ⟨j2, hsub _ hj2, b2, hj2', e2⟩⟩
  induction h with
  | leaf d idx mn mx ps hb hp hl =>
    intro q hq
    exact key d idx _ (.leaf d idx mn mx ps hb hp hl) hsub q (by simpa [Tree.prims, Tree.leaves] using hq)
  | branch d idx il ir mn mx ax l r hb hn hd hax hp hne hl hr ihl ihr =>
    exact ⟨key d idx _ (.branch d idx il ir mn mx ax l r hb hn hd hax hp hne hl hr) hsub,
      ihl fun i hi => hsub i (hp.subset (by simp [hi])), ihr fun i hi => hsub i (hp.subset (by simp [hi]))⟩

/-- the box covers the surface of the primitive, and the ray does not start in a z face -/
def CoversOf (Surf : P → Vec3 ℝ → Prop) (o d : Vec3 ℝ) (box : Vec3 (XF F) × Vec3 (XF F)) (q : P) : Prop :=
  ∃ mn mx, IsV box.1 mn ∧ IsV box.2 mx ∧ (∀ x, Surf q x → InBox mn mx x) ∧ (d.z = 0 → o.z ≠ mn.z ∧ o.z ≠ mx.z)

/-- what is needed of a collection -/
structure CollOk (p : Collection (XF F) P) (Surf : P → Vec3 ℝ → Prop) (o d : Vec3 ℝ) : Prop where
  range : ∀ i, i < p.size → ∀ b, p.box i = .ok b → BoxInRange b
  surf : ∀ i, i < p.size → ∀ q b, p.prim i = .ok q → p.box i = .ok b →
    ∃ mn mx, IsV b.1 mn ∧ IsV b.2 mx ∧ ∀ x, Surf q x → InBox mn mx x
  face : d.z = 0 → ∀ i, i < p.size → ∀ b, p.box i = .ok b → ¬ b.1.z.Is o.z ∧ ¬ b.2.z.Is o.z

theorem CollOk.boxesCover {p : Collection (XF F) P} {Surf : P → Vec3 ℝ → Prop} {o d : Vec3 ℝ} (h : CollOk p Surf o d)
    {opts : BuildOptions} {t : Tree (XF F) P} (ht : Built p opts 0 (List.range p.size) t) :
    BoxesCover (CoversOf Surf o d) t := by
  refine ht.boxesCover (idx0 := List.range p.size) (fun _ h => h) (fun i hi => h.range i (List.mem_range.1 hi)) _ ?_
  intro box i hi q b hq hb hr hc ht
  obtain ⟨mn, mx, h1, h2⟩ := hr.isV
  obtain ⟨mn', mx', h3, h4, h5⟩ := h.surf i (List.mem_range.1 hi) q b hq hb
  refine ⟨mn, mx, h1, h2, fun x hx => hc.inBox h1 h2 h3 h4 (h5 x hx), fun hz => ?_⟩
  obtain ⟨⟨j, hj, b1, e1, e2⟩, ⟨k, hk, b2, e3, e4⟩⟩ := ht 2
  constructor
  · intro he
    refine (h.face hz j (List.mem_range.1 hj) b1 e1).1 ?_
    rw [Vec3.get_two, Vec3.get_two] at e2
    rw [e2, he]; exact h1.2.2
  · intro he
    refine (h.face hz k (List.mem_range.1 hk) b2 e3).2 ?_
    rw [Vec3.get_two, Vec3.get_two] at e4
    rw [e4, he]; exact h2.2.2

/-! ### the ray -/

section
variable {origin direction : Vec3 (XF F)} {minHit maxHit : XF F} {o d : Vec3 ℝ} {m M : ℝ}

theorem RayFor.one_le (h : RayFor origin direction minHit maxHit o d m M) : 1 ≤ len d := by
  rcases h.scale with h | h
  · exact h.ge
  · exact h.1

theorem RayBase.unit_sq (h : RayBase origin direction minHit maxHit o d m M) : sq (unit d) = 1 := sq_divs_len h.ne_zero

theorem RayBase.dirUnit (hF : F.Exact) (h : RayBase origin direction minHit maxHit o d m M) (any : Bool) :
    IsV (Ray.make origin direction minHit maxHit any).direction (unit d) :=
  h.dir.normalize hF h.ne_zero

theorem along_unit (o d : Vec3 ℝ) (t : ℝ) : along o (unit d) t = along o d (t / len d) := by
  unfold along unit; ext <;> simp <;> ring

theorem cull (hF : F.Exact) (h : RayFor origin direction minHit maxHit o d m M) (any : Bool) {Surf : P → Vec3 ℝ → Prop}
    {box : Vec3 (XF F) × Vec3 (XF F)} {q : P} {x hd : XF F} {t : ℝ} (hc : CoversOf Surf o d box q) (hx : x.Is t)
    (hmt : m ≤ t) (hs : Surf q (along o (unit d) t)) (hlt : lt x hd = true) :
    hitBox (Ray.make origin direction minHit maxHit any) hd box = true := by
  obtain ⟨mn, mx, h1, h2, h3, h4⟩ := hc
  have h5 := h3 _ hs
  rw [along_unit] at h5
  have hl := h.one_le
  have ht0 : 0 ≤ t := h.nonneg.trans hmt
  have hle : t / len d ≤ t := div_le_self ht0 hl
  have hml : m ≤ t / len d := by
    rcases h.scale with h6 | ⟨_, h6⟩
    · rw [h6, div_one]; exact hmt
    · rw [h6]; positivity
  unfold hitBox
  refine intersectNode_of_inBox hF _ origin direction minHit maxHit any hd mn mx o d (t / len d) h1 h2 h.org h.dir h.noNegZero
    (by positivity) h5 h4 (.inr (.inr ⟨m, h.min, hml⟩)) ?_
  rcases (hx.lt_iff.1 hlt) with h7 | ⟨a, h7, h8⟩
  · exact .inr (.inl h7)
  · exact .inr (.inr ⟨a, h7, hle.trans h8.le⟩)

end

/-! ### from a contract to a statement about `traverse` -/

/-- What `traverse` achieves on one collection: `Hit i t`: primitive `i` is hit at distance `t`; `Rep rh t`: the record `rh`
describes a hit at distance `t` correctly. -/
def PartSpec {I : Type} (ix : Intersector (XF F) P I) (nodes : List (Node (XF F) P)) (ray : Ray (XF F)) (M : ℝ)
    (Hit : Nat → ℝ → Prop) (Rep : RayHit (XF F) → ℝ → Prop) : Prop :=
  ∀ rh, traverse ix nodes ray rh = .error .oobStack ∨ (traverse ix nodes ray rh = .ok (false, rh) ∧ ∀ i t, Hit i t → M ≤ t) ∨
    ∃ rh' t, traverse ix nodes ray rh = .ok (true, rh') ∧ rh'.hitDistance.Is t ∧ t < M ∧ Rep rh' t ∧
      (ray.anyHit = false → ∀ i t', Hit i t' → t ≤ t')

/-- what is to be shown of testing all primitives of a collection -/
def ScanSpec {I : Type} (ix : Intersector (XF F) P I) (p : Collection (XF F) P) (ray : Ray (XF F)) (M : ℝ)
    (Hit : Nat → ℝ → Prop) (Rep : RayHit (XF F) → ℝ → Prop) : Prop :=
  ray.anyHit = false → ∀ ps, (List.range p.size).mapM p.prim = .ok ps →
    (scanHit ix ray ps = false ∧ ∀ i t, Hit i t → M ≤ t) ∨
    (scanHit ix ray ps = true ∧ ∃ rh t, (ix.hitDistance (scan ix ray ps)).Is t ∧ t < M ∧ Rep rh t ∧ ∀ i t', Hit i t' → t ≤ t')

theorem le_of_not_lt {x y : XF F} {a b : ℝ} (hx : x.Is a) (hy : y.Is b) (h : lt x y = false) : b ≤ a := by
  by_contra hc
  rw [(hx.lt hy).2 (not_le.1 hc)] at h
  simp at h

theorem partSpec_of_contract {I : Type} {ix : Intersector (XF F) P I} {ray : Ray (XF F)} {S : P → Prop} {Inv : I → Prop}
    {G Acc : P → XF F → Prop} {Surf : P → Vec3 ℝ → Prop} {o d : Vec3 ℝ} {M : ℝ}
    {strict : Prop} (c : Contract ix ray S Inv G Acc (fun b q => strict → CoversOf Surf o d b q)) (p : Collection (XF F) P) (opts : BuildOptions)
    (nodes : List (Node (XF F) P)) (t : Tree (XF F) P) (hb : Built p opts 0 (List.range p.size) t)
    (hrep : Represents nodes 0 t) (hn : t.numNodes ≤ nodes.length) (hok : strict → CollOk p Surf o d)
    (hS : ∀ i, i < p.size → ∀ q, p.prim i = .ok q → S q) (Hit : Nat → ℝ → Prop) (Rep : RayHit (XF F) → ℝ → Prop)
    (hM : ray.maxHit.Is M)
    (hHit : ∀ i t, Hit i t → ∃ q x, i < p.size ∧ p.prim i = .ok q ∧ x.Is t ∧ G q x)
    (hpost : ∀ i q s0 s rh, i < p.size → p.prim i = .ok q → Inv s0 → ix.isect s0 q ray = (s, true) →
      ∃ rh' t, ix.post s rh = .ok rh' ∧ rh'.hitDistance = ix.hitDistance s ∧ (ix.hitDistance s).Is t ∧ Rep rh' t) :
    PartSpec ix nodes ray M Hit Rep ∧ ScanSpec ix p ray M Hit Rep := by
  obtain ⟨ps, hps, hperm⟩ := hb.prims_perm
  have hmem : ∀ q ∈ t.prims, ∃ i, i < p.size ∧ p.prim i = .ok q := by
    intro q hq
    obtain ⟨i, hi, hiq⟩ := mapM_mem_of_out hps (hperm.subset hq)
    exact ⟨i, List.mem_range.1 hi, hiq⟩
  have hmem' : ∀ i q, i < p.size → p.prim i = .ok q → q ∈ t.prims := by
    intro i q hi hq
    obtain ⟨q', hq', hiq'⟩ := mapM_mem_of_in hps (List.mem_range.2 hi)
    rw [hq, Except.ok.injEq] at hiq'
    exact hperm.symm.subset (hiq' ▸ hq')
  have hSt : ∀ q ∈ t.prims, S q := fun q hq => by
    obtain ⟨i, hi, hiq⟩ := hmem q hq
    exact hS i hi q hiq
  refine ⟨fun rh => ?_, fun hany ps' hps' => ?_⟩
  swap
  · rw [hps, Except.ok.injEq] at hps'
    subst hps'
    have hmem2 : ∀ i q, i < p.size → p.prim i = .ok q → q ∈ ps := fun i q hi hq => hperm.subset (hmem' i q hi hq)
    rcases scan_spec c hany ps (fun q hq => hSt q (hperm.symm.subset hq)) with ⟨h1, h2⟩ | ⟨h1, q, hq, s0, h2, h3, h4, h5⟩
    · refine .inl ⟨h1, fun i t' ht => ?_⟩
      obtain ⟨q, x, hi, hq, hx, hg⟩ := hHit i t' ht
      exact le_of_not_lt hx hM (h2 q (hmem2 i q hi hq) x hg)
    · obtain ⟨i, hi, hiq⟩ := hmem q (hperm.symm.subset hq)
      obtain ⟨rh', t', e1, e2, e3, e4⟩ := hpost i q s0 _ RayHit.fresh hi hiq h2 h3
      refine .inr ⟨h1, rh', t', e3, (e3.lt hM).1 h1, e4, fun j t2 ht2 => ?_⟩
      obtain ⟨q2, x, hj, hq2, hx, hg⟩ := hHit j t2 ht2
      exact le_of_not_lt hx e3 (h5 q2 (hmem2 j q2 hj hq2) x hg)
  have hbc : BoxesCover (fun b q => strict → CoversOf Surf o d b q) t := by
    by_cases hs : strict
    · exact ((hok hs).boxesCover hb).mono (fun _ _ h _ => h)
    · exact BoxesCover.trivial (fun _ _ h => absurd h hs) t
  rcases traverse_spec c nodes rh t hrep hn hSt hbc with
    h0 | ⟨h1, h2⟩ | ⟨q, hq, s0, s, h1, h2, h3, h4, h5, h6⟩
  · exact .inl h0
  · refine .inr (.inl ⟨h1, fun i t' ht => ?_⟩)
    obtain ⟨q, x, hi, hq, hx, hg⟩ := hHit i t' ht
    exact le_of_not_lt hx hM (h2 q (hmem' i q hi hq) x hg)
  · obtain ⟨i, hi, hiq⟩ := hmem q hq
    obtain ⟨rh', t', e1, e2, e3, e4⟩ := hpost i q s0 s rh hi hiq h1 h2
    refine .inr (.inr ⟨rh', t', ?_, by rw [e2]; exact e3, (e3.lt hM).1 h5, e4, fun hany j t2 ht2 => ?_⟩)
    · rw [h3, e1]; rfl
    · obtain ⟨q2, x, hj, hq2, hx, hg⟩ := hHit j t2 ht2
      exact le_of_not_lt hx e3 (h6 hany q2 (hmem' j q2 hj hq2) x hg)

end Blazert
