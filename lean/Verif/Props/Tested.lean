/- C66, C67: which primitives a traversal tests; the BVH does not hide primitives, with rounding. -/
import Verif.Props.Slab
import Verif.Proofs.Boxes
import Verif.Proofs.Tested
import Verif.Samples
import Mathlib.Tactic.IntervalCases

set_option autoImplicit false

namespace Blazert
open Scalar

section
variable {T P I : Type} [Scalar T]

/-- **C66**.  In any arithmetic: a closest-hit query on a built BVH that comes to an end tests some of the primitives `vs`
one after the other, each at most once, and its answer is the result of these tests and of nothing else.  A primitive is
left out only if the box test rejected a node above it, with a distance that was the closest known after some of the tests. -/
theorem C66_skips_only_rejected (part : StdPartition) (p : Collection T P) (opts : BuildOptions) (nodes : List (Node T P))
    (stats : Statistics) (hbuild : build part p opts [] = .ok (nodes, stats)) (ix : Intersector T P I) (ray : Ray T)
    (hany : ray.anyHit = false) (hq : Quiet ix ray) (rayhit out : RayHit T) (hit : Bool)
    (h : traverse ix nodes ray rayhit = .ok (hit, out)) :
    ∃ ps vs rest, (List.range p.size).mapM p.prim = .ok ps ∧ (vs ++ rest).Perm ps ∧ Answers ix ray rayhit vs hit out ∧
      ∀ q ∈ rest, ∃ i nd hd, nodes[i]? = some nd ∧ Under nodes q i ∧ DistanceAfter ix ray vs hd ∧
        intersectNode ray.minHit hd nd ray = false := by
  obtain ⟨t, hb, hr, vs, rest, h1, h2, h3⟩ := traverse_tested hbuild hany hq h
  obtain ⟨ps, hps, hperm⟩ := hb.prims_perm
  refine ⟨ps, vs, rest, hps, h1.trans hperm, h2, fun q hq => ?_⟩
  obtain ⟨u, hu, hqu, hd, hk, hbox⟩ := h3 q hq
  obtain ⟨i, nd, hi, hnd, e⟩ := hr.subtree hu
  exact ⟨i, nd, hd, hnd, hi.under hqu, hk, by rw [intersectNode_eq_hitBox, e, hbox]⟩

/-- The intersectors of blazert meet the assumption of C66. -/
theorem C66_intersectors (ray : Ray T) : (∀ c : SphereColl T, Quiet (sphereIx c) ray) ∧ Quiet (planeIx (T := T)) ray ∧
    (∀ m : MeshColl T, Quiet (triIx m) ray) ∧ Quiet (cylIx (T := T)) ray :=
  ⟨fun c => sphere_quiet c ray, plane_quiet ray, fun m => tri_quiet m ray, cylinder_quiet ray⟩

end

section
variable {K : Type} [Field K] [LinearOrder K] [IsStrictOrderedRing K] [FloorRing K] {F : Fmt K} {P I : Type}

/-- What C67 assumes about a collection and a ray (given by numbers `o`, `d`): finite boxes, no operation of a box test
leaves the range `[lo, hi]`, and a ray parallel to the z faces does not start in the plane of one. -/
structure Harmless (p : Collection (XF F) P) (lo hi : K) (o d : Vec3 K) : Prop where
  finite : ∀ i, i < p.size → ∀ b, p.box i = .ok b → BoxInRange b
  range : ∀ i, i < p.size → ∀ b, p.box i = .ok b → ∀ k c, (b.1.get k).Is c ∨ (b.2.get k).Is c →
    CoordInRange lo hi c (o.get k) (d.get k)
  face : d.z = 0 → ∀ i, i < p.size → ∀ b, p.box i = .ok b → ¬ b.1.z.Is o.z ∧ ¬ b.2.z.Is o.z

/-- at parameter `t` the ray is in the bounding box of the primitive `q` -/
def MeetsBox (p : Collection (XF F) P) (o d : Vec3 K) (q : P) (t : K) : Prop :=
  ∀ i, i < p.size → p.prim i = .ok q → ∃ b mn mx, p.box i = .ok b ∧ IsV b.1 mn ∧ IsV b.2 mx ∧ InBox mn mx (along o d t)

/-- **C67**, general.  In any format whose operations have relative error at most `u` on results in `[lo, hi]`: the BVH does
not hide primitives.  Whatever was built and however the query went, the tests made were those of some primitives `vs`, and
every primitive whose bounding box the ray meets at a parameter `t ≥ 0`, `t ≥ min`, was tested, unless at some point the
closest distance known was less than `t (1 + u)³`. -/
theorem C67_nothing_hidden (u lo hi : K) (hF : F.Relative u lo hi) (hu : 0 ≤ u) (hu64 : 64 * u ≤ 1) (hlo : 0 ≤ lo)
    (part : StdPartition) (p : Collection (XF F) P) (opts : BuildOptions) (nodes : List (Node (XF F) P))
    (stats : Statistics) (hbuild : build part p opts [] = .ok (nodes, stats)) (ix : Intersector (XF F) P I)
    (origin direction : Vec3 (XF F)) (minHit maxHit : XF F) (o d : Vec3 K) (m : K)
    (ho : IsV origin o) (hdir : IsV direction d) (hmin : minHit.Is m) (hneg : ∀ i, direction.get i ≠ .fin 0 true)
    (hharm : Harmless p lo hi o d)
    (hq : Quiet ix (Ray.make origin direction minHit maxHit false)) (rayhit out : RayHit (XF F)) (hit : Bool)
    (h : traverse ix nodes (Ray.make origin direction minHit maxHit false) rayhit = .ok (hit, out)) :
    ∃ ps vs rest, (List.range p.size).mapM p.prim = .ok ps ∧ (vs ++ rest).Perm ps ∧
      Answers ix (Ray.make origin direction minHit maxHit false) rayhit vs hit out ∧
      ∀ q ∈ ps, ∀ t, 0 ≤ t → m ≤ t → MeetsBox p o d q t →
        q ∈ vs ∨ ∃ hd, DistanceAfter ix (Ray.make origin direction minHit maxHit false) vs hd ∧ hd ≠ .inf false ∧
          ∀ h, hd.Is h → h < t * (1 + u) ^ 3 := by
  obtain ⟨t, hb, hr, vs, rest, h1, h2, h3⟩ := traverse_tested hbuild rfl hq h
  obtain ⟨ps, hps, hperm⟩ := hb.prims_perm
  refine ⟨ps, vs, rest, hps, h1.trans hperm, h2, fun q hqs t0 ht0 hmt hmeet => ?_⟩
  rcases List.mem_append.1 (((h1.trans hperm).mem_iff).2 hqs) with hq' | hq'
  · exact .inl hq'
  right
  obtain ⟨w, hw, hqw, hd, hk, hbox⟩ := h3 q hq'
  refine ⟨hd, hk, ?_⟩
  obtain ⟨dep, idx, hbw, hsub⟩ := hb.subtree hw
  have hlt : ∀ i ∈ idx, i < p.size := fun i hi => List.mem_range.1 (hsub.subset hi)
  obtain ⟨qs, e1, e2⟩ := hbw.prims_perm
  obtain ⟨i, hi', hiq⟩ := mapM_mem_of_out e1 (e2.subset hqw)
  obtain ⟨bs, e3, _, _, e4⟩ := computeBoundingBox_spec p idx (fun i hi => hharm.finite i (hlt i hi)) _ hbw.box
  obtain ⟨e5, e6, e7⟩ := e4 (List.ne_nil_of_mem hi')
  obtain ⟨b, hbb, hib⟩ := mapM_mem_of_in e3 hi'
  obtain ⟨b', mn, mx, f1, f2, f3, f4⟩ := hmeet i (hlt i hi') hiq
  rw [hib, Except.ok.injEq] at f1
  subst f1
  -- the coordinates of the box of `w`
  have hmem : ∀ k, (∃ j, j < p.size ∧ ∃ b', p.box j = .ok b' ∧ b'.1.get k = w.box.1.get k) ∧
      ∃ j, j < p.size ∧ ∃ b', p.box j = .ok b' ∧ b'.2.get k = w.box.2.get k := by
    intro k
    obtain ⟨⟨b1, hb1, g1⟩, ⟨b2, hb2, g2⟩⟩ := e7 k
    obtain ⟨j1, hj1, hj1'⟩ := mapM_mem_of_out e3 hb1
    obtain ⟨j2, hj2, hj2'⟩ := mapM_mem_of_out e3 hb2
    exact ⟨⟨j1, hlt _ hj1, b1, hj1', g1⟩, ⟨j2, hlt _ hj2, b2, hj2', g2⟩⟩
  obtain ⟨x0, hx0⟩ := (e5 0).1.is
  obtain ⟨y0, hy0⟩ := (e5 1).1.is
  obtain ⟨z0, hz0⟩ := (e5 2).1.is
  obtain ⟨x1, hx1⟩ := (e5 0).2.is
  obtain ⟨y1, hy1⟩ := (e5 1).2.is
  obtain ⟨z1, hz1⟩ := (e5 2).2.is
  have hvmn : IsV w.box.1 ⟨x0, y0, z0⟩ := ⟨hx0, hy0, hz0⟩
  have hvmx : IsV w.box.2 ⟨x1, y1, z1⟩ := ⟨hx1, hy1, hz1⟩
  have hrange : ∀ k, AxisInRange lo hi ((⟨x0, y0, z0⟩ : Vec3 K).get k) ((⟨x1, y1, z1⟩ : Vec3 K).get k) (o.get k)
      (d.get k) := by
    intro k
    obtain ⟨⟨j, hj, b1, g1, g2⟩, ⟨j', hj', b2, g3, g4⟩⟩ := hmem k
    obtain ⟨r1, r2⟩ := hharm.range j hj b1 g1 k _ (.inl (g2 ▸ hvmn.get k))
    obtain ⟨r3, r4⟩ := hharm.range j' hj' b2 g3 k _ (.inr (g4 ▸ hvmx.get k))
    exact ⟨r1, r3, fun hd => ⟨(r2 hd).1, (r2 hd).2, (r4 hd).2⟩⟩
  have hface : d.z = 0 → o.z ≠ z0 ∧ o.z ≠ z1 := by
    intro hz
    obtain ⟨⟨j, hj, b1, g1, g2⟩, ⟨j', hj', b2, g3, g4⟩⟩ := hmem 2
    have g2 : b1.1.z = w.box.1.z := g2
    have g4 : b2.2.z = w.box.2.z := g4
    refine ⟨fun e => (hharm.face hz j hj b1 g1).1 ?_, fun e => (hharm.face hz j' hj' b2 g3).2 ?_⟩
    · rw [g2, e]; exact hvmn.2.2
    · rw [g4, e]; exact hvmx.2.2
  have hin : InBox ⟨x0, y0, z0⟩ ⟨x1, y1, z1⟩ (along o d t0) := by
    have hc : ∀ k, (⟨x0, y0, z0⟩ : Vec3 K).get k ≤ mn.get k ∧ mx.get k ≤ (⟨x1, y1, z1⟩ : Vec3 K).get k := by
      intro k
      obtain ⟨c1, c2⟩ := e6 b hbb k
      rw [(hvmn.get k).le (f2.get k)] at c1
      rw [(f3.get k).le (hvmx.get k)] at c2
      exact ⟨c1, c2⟩
    obtain ⟨⟨a1, a2⟩, ⟨a3, a4⟩, ⟨a5, a6⟩⟩ := f4
    exact ⟨⟨(hc 0).1.trans a1, a2.trans (hc 0).2⟩, ⟨(hc 1).1.trans a3, a4.trans (hc 1).2⟩,
      ⟨(hc 2).1.trans a5, a6.trans (hc 2).2⟩⟩
  have key : (hd = .inf false ∨ ∃ h, hd.Is h ∧ t0 * (1 + u) ^ 3 ≤ h) → False := by
    intro hhd
    have := C21_box_test_complete_with_rounding_partial (P := Unit) u lo hi hF hu hu64 hlo
      ⟨w.box.1, w.box.2, true, 0, 0, 0, []⟩ origin direction minHit maxHit hd false _ _ o d m t0 hvmn hvmx ho hdir hmin ht0
      hmt hhd hin hrange hneg hface
    rw [hitBox] at hbox
    exact Bool.false_ne_true (hbox.symm.trans this)
  refine ⟨fun e => key (.inl e), fun h hh => ?_⟩
  by_contra hc
  exact key (.inr ⟨h, hh, not_lt.1 hc⟩)

/-- **C67**, a lone hit.  If all other primitives fail their tests (in the states that matter: at the beginning, and after a
test of `q`), then the query answers what a test of `q` alone answers: the BVH does not get in the way. -/
theorem C67_lone_hit (u lo hi : K) (hF : F.Relative u lo hi) (hu : 0 ≤ u) (hu64 : 64 * u ≤ 1) (hlo : 0 ≤ lo)
    (part : StdPartition) (p : Collection (XF F) P) (opts : BuildOptions) (nodes : List (Node (XF F) P))
    (stats : Statistics) (hbuild : build part p opts [] = .ok (nodes, stats)) (ix : Intersector (XF F) P I)
    (origin direction : Vec3 (XF F)) (minHit maxHit : XF F) (o d : Vec3 K) (m : K)
    (ho : IsV origin o) (hdir : IsV direction d) (hmin : minHit.Is m) (hneg : ∀ i, direction.get i ≠ .fin 0 true)
    (hharm : Harmless p lo hi o d)
    (hq : Quiet ix (Ray.make origin direction minHit maxHit false)) (rayhit out : RayHit (XF F)) (hit : Bool)
    (h : traverse ix nodes (Ray.make origin direction minHit maxHit false) rayhit = .ok (hit, out))
    (n : Nat) (q : P) (hn : n < p.size) (hpn : p.prim n = .ok q) (t : K) (ht : 0 ≤ t) (hmt : m ≤ t)
    (hmax : maxHit = .inf false ∨ ∃ h, maxHit.Is h ∧ t * (1 + u) ^ 3 ≤ h)
    (b : Vec3 (XF F) × Vec3 (XF F)) (mn mx : Vec3 K) (hb : p.box n = .ok b) (hbmn : IsV b.1 mn) (hbmx : IsV b.2 mx)
    (hin : InBox mn mx (along o d t))
    (hothers : ∀ i, i < p.size → i ≠ n → ∀ q', p.prim i = .ok q' → q' ≠ q ∧
      (ix.isect (ix.prepare (Ray.make origin direction minHit maxHit false)) q'
        (Ray.make origin direction minHit maxHit false)).2 = false ∧
      (ix.isect (scan ix (Ray.make origin direction minHit maxHit false) [q]) q'
        (Ray.make origin direction minHit maxHit false)).2 = false) :
    Answers ix (Ray.make origin direction minHit maxHit false) rayhit [q] hit out := by
  obtain ⟨ps, vs, rest, h1, h2, h3, h4⟩ := C67_nothing_hidden u lo hi hF hu hu64 hlo part p opts nodes stats hbuild ix
    origin direction minHit maxHit o d m ho hdir hmin hneg hharm hq rayhit out hit h
  have hray : (Ray.make origin direction minHit maxHit false).maxHit = maxHit := rfl
  generalize Ray.make origin direction minHit maxHit false = ray at *
  have hmem : ∀ q' ∈ ps, q' = q ∨ ((ix.isect (ix.prepare ray) q' ray).2 = false ∧
      (ix.isect (scan ix ray [q]) q' ray).2 = false) := by
    intro q' hq'
    obtain ⟨i, hi', hiq⟩ := mapM_mem_of_out h1 hq'
    by_cases hin : i = n
    · subst hin
      rw [hpn, Except.ok.injEq] at hiq
      exact .inl hiq.symm
    · exact .inr (hothers i (List.mem_range.1 hi') hin q' hiq).2
  have hvs : ∀ q' ∈ vs, q' ∈ ps := fun q' hq' => h2.subset (by simp [hq'])
  have hpair : vs.Pairwise (fun x y => x ≠ q ∨ y ≠ q) := by
    have h5 := mapM_ok_forall₂ _ _ _ h1
    have h6 := pairwise_of_forall₂ n q h5 List.nodup_range (fun i hi' hne hiq =>
      (hothers i (List.mem_range.1 hi') hne q hiq).1 rfl)
    exact (List.pairwise_append.1 ((h2.pairwise_iff (fun h => h.symm)).2 h6)).1
  have hstay : ∀ (s : I), s = ix.prepare ray ∨ s = scan ix ray [q] → ∀ l : List P, (∀ x ∈ l, x ∈ vs ∧ x ≠ q) →
      testAll ix ray s l = s := by
    intro s hs l hl
    refine testAll_stay hq s l fun x hx => ?_
    rcases hmem x (hvs x (hl x hx).1) with e | ⟨e1, e2⟩
    · exact absurd e (hl x hx).2
    · rcases hs with rfl | rfl
      · exact e1
      · exact e2
  have hqv : q ∈ vs := by
    by_contra hqv
    have hqs : q ∈ ps := by
      obtain ⟨q', hq', e⟩ := mapM_mem_of_in h1 (List.mem_range.2 hn)
      rw [hpn, Except.ok.injEq] at e
      exact e ▸ hq'
    have hmeet : MeetsBox p o d q t := by
      intro i hi' hiq
      by_cases hin' : i = n
      · subst hin'
        exact ⟨b, mn, mx, hb, hbmn, hbmx, hin⟩
      · exact absurd rfl (hothers i hi' hin' q hiq).1
    obtain ⟨hd, ⟨k, hk⟩, e1, e2⟩ := (h4 q hqs t ht hmt hmeet).resolve_left hqv
    rw [scan_eq_testAll, hstay _ (.inl rfl) _ (fun x hx => ⟨List.mem_of_mem_take hx, fun e =>
      hqv (e ▸ List.mem_of_mem_take hx)⟩), hq.start] at hk
    subst hk
    rw [hray] at e1 e2
    rcases hmax with hmax | ⟨h, h5, h6⟩
    · exact e1 hmax
    · exact absurd (e2 h h5) (not_lt.2 h6)
  obtain ⟨a, c, rfl⟩ := List.append_of_mem hqv
  obtain ⟨_, e2, e3⟩ := List.pairwise_append.1 hpair
  have ha : ∀ x ∈ a, x ∈ a ++ q :: c ∧ x ≠ q := fun x hx => ⟨by simp [hx], by simpa using e3 x hx q (by simp)⟩
  have hc : ∀ x ∈ c, x ∈ a ++ q :: c ∧ x ≠ q := fun x hx =>
    ⟨by simp [hx], by simpa using (List.pairwise_cons.1 e2).1 x hx⟩
  have hsc : scan ix ray (a ++ q :: c) = scan ix ray [q] := by
    rw [scan_eq_testAll, testAll_append, hstay _ (.inl rfl) a ha]
    exact hstay _ (.inr rfl) c hc
  unfold Answers scanHit at h3 ⊢
  rwa [hsc] at h3

end

section
variable {P I : Type}

/-- **C67** for `double`: `u = 2^-53`. -/
theorem C67_double (part : StdPartition) (p : Collection Double P) (opts : BuildOptions) (nodes : List (Node Double P))
    (stats : Statistics) (hbuild : build part p opts [] = .ok (nodes, stats)) (ix : Intersector Double P I)
    (origin direction : Vec3 Double) (minHit maxHit : Double) (o d : Vec3 ℚ) (m : ℚ)
    (ho : IsV origin o) (hdir : IsV direction d) (hmin : minHit.Is m) (hneg : ∀ i, direction.get i ≠ .fin 0 true)
    (hharm : Harmless p (1 / 2 ^ 1022) ((2 - 1 / 2 ^ 52) * 2 ^ 1023) o d)
    (hq : Quiet ix (Ray.make origin direction minHit maxHit false)) (rayhit out : RayHit Double) (hit : Bool)
    (h : traverse ix nodes (Ray.make origin direction minHit maxHit false) rayhit = .ok (hit, out)) :
    ∃ ps vs rest, (List.range p.size).mapM p.prim = .ok ps ∧ (vs ++ rest).Perm ps ∧
      Answers ix (Ray.make origin direction minHit maxHit false) rayhit vs hit out ∧
      ∀ q ∈ ps, ∀ t, 0 ≤ t → m ≤ t → MeetsBox p o d q t →
        q ∈ vs ∨ ∃ hd, DistanceAfter ix (Ray.make origin direction minHit maxHit false) vs hd ∧ hd ≠ .inf false ∧
          ∀ h, hd.Is h → h < t * (1 + 1 / 2 ^ 53) ^ 3 := by
  have e1 : Format.pow2 (-53) = 1 / 2 ^ 53 := by decide +kernel
  have e2 : Format.binary64.tiny = 1 / 2 ^ 1022 := by decide +kernel
  have e3 : Format.binary64.maxVal = (2 - 1 / 2 ^ 52) * 2 ^ 1023 := by decide +kernel
  have hF := Format.binary64_relative
  rw [e1, e2, e3] at hF
  exact C67_nothing_hidden _ _ _ hF (by norm_num) (by norm_num) (by norm_num) part p opts nodes stats hbuild ix origin
    direction minHit maxHit o d m ho hdir hmin hneg hharm hq rayhit out hit h

/-- **C67** for `float`: `u = 2^-24`. -/
theorem C67_float (part : StdPartition) (p : Collection Single P) (opts : BuildOptions) (nodes : List (Node Single P))
    (stats : Statistics) (hbuild : build part p opts [] = .ok (nodes, stats)) (ix : Intersector Single P I)
    (origin direction : Vec3 Single) (minHit maxHit : Single) (o d : Vec3 ℚ) (m : ℚ)
    (ho : IsV origin o) (hdir : IsV direction d) (hmin : minHit.Is m) (hneg : ∀ i, direction.get i ≠ .fin 0 true)
    (hharm : Harmless p (1 / 2 ^ 126) ((2 - 1 / 2 ^ 23) * 2 ^ 127) o d)
    (hq : Quiet ix (Ray.make origin direction minHit maxHit false)) (rayhit out : RayHit Single) (hit : Bool)
    (h : traverse ix nodes (Ray.make origin direction minHit maxHit false) rayhit = .ok (hit, out)) :
    ∃ ps vs rest, (List.range p.size).mapM p.prim = .ok ps ∧ (vs ++ rest).Perm ps ∧
      Answers ix (Ray.make origin direction minHit maxHit false) rayhit vs hit out ∧
      ∀ q ∈ ps, ∀ t, 0 ≤ t → m ≤ t → MeetsBox p o d q t →
        q ∈ vs ∨ ∃ hd, DistanceAfter ix (Ray.make origin direction minHit maxHit false) vs hd ∧ hd ≠ .inf false ∧
          ∀ h, hd.Is h → h < t * (1 + 1 / 2 ^ 24) ^ 3 := by
  have e1 : Format.pow2 (-24) = 1 / 2 ^ 24 := by decide +kernel
  have e2 : Format.binary32.tiny = 1 / 2 ^ 126 := by decide +kernel
  have e3 : Format.binary32.maxVal = (2 - 1 / 2 ^ 23) * 2 ^ 127 := by decide +kernel
  have hF := Format.binary32_relative
  rw [e1, e2, e3] at hF
  exact C67_nothing_hidden _ _ _ hF (by norm_num) (by norm_num) (by norm_num) part p opts nodes stats hbuild ix origin
    direction minHit maxHit o d m ho hdir hmin hneg hharm hq rayhit out hit h

end

/-! ### Examples -/

/-- a ray in direction `y` that passes close to the second of three spheres in a row and meets no other -/
def sampleRayY : Ray Double := Ray.make (dvec 4 (-5) (1/2)) (dvec 0 1 0) (dbl 0) (dbl 100) false

/-- Two of the three spheres are skipped, and the answer is that of the second one. -/
example : evalOk (do
      let (nodes, _) ← build stablePartition sampleSpheres.toCollection smallOptions []
      traverse (sphereIx sampleSpheres) nodes sampleRayY RayHit.fresh)
    (fun r => r.1 && r.2.primId == 1) = true := by decide +kernel

instance (lo hi c o d : ℚ) : Decidable (CoordInRange lo hi c o d) := by unfold CoordInRange Between; infer_instance

/-- the range condition of C67 for one coordinate, as a computation -/
def coordOk (o d : ℚ) : Double → Bool
  | .fin c _ => decide (CoordInRange (1 / 2 ^ 1022) ((2 - 1 / 2 ^ 52) * 2 ^ 1023) c o d)
  | _ => false

theorem sample_harmless : Harmless sampleSpheres.toCollection (1 / 2 ^ 1022) ((2 - 1 / 2 ^ 52) * 2 ^ 1023)
    ⟨4, -5, 1/2⟩ ⟨0, 1, 0⟩ := by
  have hb : ∀ {i b}, sampleSpheres.toCollection.box i = .ok b → b ∈ sampleSpheres.boxes :=
    fun h => List.mem_of_getElem? (lookup_eq_ok.1 h)
  refine ⟨fun i _ b h => ?_, fun i _ b h k c hc => ?_, fun _ i _ b h => ?_⟩
  · have : ∀ b ∈ sampleSpheres.boxes, BoxInRange b := by decide +kernel
    exact this b (hb h)
  · have : ∀ b ∈ sampleSpheres.boxes, ∀ k : Fin 3,
        coordOk ((⟨4, -5, 1/2⟩ : Vec3 ℚ).get k) ((⟨0, 1, 0⟩ : Vec3 ℚ).get k) (b.1.get k) = true ∧
        coordOk ((⟨4, -5, 1/2⟩ : Vec3 ℚ).get k) ((⟨0, 1, 0⟩ : Vec3 ℚ).get k) (b.2.get k) = true := by decide +kernel
    obtain ⟨e1, e2⟩ := this b (hb h) k
    rcases hc with ⟨s, hc⟩ | ⟨s, hc⟩
    · rw [hc] at e1; exact of_decide_eq_true e1
    · rw [hc] at e2; exact of_decide_eq_true e2
  · have : ∀ b ∈ sampleSpheres.boxes, b.1.z = dbl (-1) ∧ b.2.z = dbl 1 := by decide +kernel
    obtain ⟨e1, e2⟩ := this b (hb h)
    have f1 : dbl (-1) = .fin (-1) true := by decide +kernel
    have f2 : dbl 1 = .fin 1 false := by decide +kernel
    rw [e1, e2, f1, f2]
    exact ⟨fun ⟨s, e⟩ => (by injection e with e; norm_num at e), fun ⟨s, e⟩ => (by injection e with e; norm_num at e)⟩

/-- The hypotheses of C67 (and of its corollary) are met by this ray, scene, and every tree that can be built. -/
example (part : StdPartition) (opts : BuildOptions) (nodes : List (Node Double (Sphere Double))) (stats : Statistics)
    (hbuild : build part sampleSpheres.toCollection opts [] = .ok (nodes, stats)) (out : RayHit Double) (hit : Bool)
    (h : traverse (sphereIx sampleSpheres) nodes sampleRayY RayHit.fresh = .ok (hit, out)) :
    hit = true ∧ out.primId = 1 := by
  have e1 : Format.pow2 (-53) = 1 / 2 ^ 53 := by decide +kernel
  have e2 : Format.binary64.tiny = 1 / 2 ^ 1022 := by decide +kernel
  have e3 : Format.binary64.maxVal = (2 - 1 / 2 ^ 52) * 2 ^ 1023 := by decide +kernel
  have hF := Format.binary64_relative
  rw [e1, e2, e3] at hF
  have d0 : dbl 0 = .fin 0 false := by decide +kernel
  have d1 : dbl 1 = .fin 1 false := by decide +kernel
  have dv : ∀ x y z x' y' z' : ℚ, ∀ sx sy sz, dvec x y z = ⟨.fin x' sx, .fin y' sy, .fin z' sz⟩ →
      IsV (dvec x y z) ⟨x', y', z'⟩ := by
    intro x y z x' y' z' sx sy sz e
    rw [e]
    exact ⟨⟨_, rfl⟩, ⟨_, rfl⟩, ⟨_, rfl⟩⟩
  have key := C67_lone_hit _ _ _ hF (by norm_num) (by norm_num) (by norm_num) part sampleSpheres.toCollection opts nodes
    stats hbuild (sphereIx sampleSpheres) (dvec 4 (-5) (1/2)) (dvec 0 1 0) (dbl 0) (dbl 100) ⟨4, -5, 1/2⟩ ⟨0, 1, 0⟩ 0
    (dv _ _ _ _ _ _ false true false (by decide +kernel)) (dv _ _ _ _ _ _ false false false (by decide +kernel))
    ⟨false, d0⟩ (by decide +kernel) sample_harmless (sphere_quiet _ _) RayHit.fresh out hit h
    1 ⟨dvec 4 0 0, dbl 1, 1⟩ (by decide) rfl 4 (by norm_num) (by norm_num)
    (.inr ⟨100, ⟨false, by decide +kernel⟩, by norm_num⟩)
    (dvec 3 (-1) (-1), dvec 5 1 1) ⟨3, -1, -1⟩ ⟨5, 1, 1⟩ rfl
    (dv _ _ _ _ _ _ false true true (by decide +kernel)) (dv _ _ _ _ _ _ false false false (by decide +kernel))
    (by simp only [InBox, along, Vec3.add_x, Vec3.add_y, Vec3.add_z, Vec3.smul_x, Vec3.smul_y, Vec3.smul_z]; norm_num)
    (by
      intro i hi hne q' hq'
      have hi3 : i < 3 := hi
      interval_cases i
      · cases hq'
        exact ⟨fun e => absurd (congrArg Sphere.primId e) (by decide), by decide +kernel, by decide +kernel⟩
      · exact absurd rfl hne
      · cases hq'
        exact ⟨fun e => absurd (congrArg Sphere.primId e) (by decide), by decide +kernel, by decide +kernel⟩)
  obtain ⟨k1, k2, _⟩ := key
  have hs : scanHit (sphereIx sampleSpheres) (Ray.make (dvec 4 (-5) (1/2)) (dvec 0 1 0) (dbl 0) (dbl 100) false)
      [⟨dvec 4 0 0, dbl 1, 1⟩] = true := by decide +kernel
  rw [hs] at k1
  refine ⟨k1, ?_⟩
  have hp : ∃ r, (sphereIx sampleSpheres).post (scan (sphereIx sampleSpheres)
      (Ray.make (dvec 4 (-5) (1/2)) (dvec 0 1 0) (dbl 0) (dbl 100) false) [⟨dvec 4 0 0, dbl 1, 1⟩]) RayHit.fresh
        = .ok r ∧ r.primId = 1 := exists_ok_of_eval (by decide +kernel)
  obtain ⟨r, hr, hr'⟩ := hp
  rw [k2 k1, Except.ok.injEq] at hr
  rw [hr, hr']

end Blazert
