/- C82: rectangles that are met clearly are found, with rounding. -/
import Verif.Props.PlaneRound
import Verif.Proofs.PlaneBox

set_option autoImplicit false

namespace Blazert
open Scalar

section
variable {K : Type} [Field K] [LinearOrder K] [IsStrictOrderedRing K] [FloorRing K] {F : Fmt K}

/-- **C82**, general.  In any format that rounds, and whose finite results are accurate: let `L` bound the coordinates of the
origin, of all centers, and the sides of the rectangles, let `ε` bound the errors of their matrices, and let the direction
given be of length one up to rounding.  If the ray (along the stored direction) meets a rectangle of the collection at `τ`,
farther than `M` from its edges and later than `M` after the lower limit, and not at too small an angle (`M κ` at least
`200 (u + ε) L`), then whatever was built and however the query went: it reports a hit, at a distance of at most
`τ + M + 152 n (u + ε) L`, where `n` is the number of rectangles. -/
theorem C82_closest (u η lo hi : K) (hF : F.Rounds u η hi) (hfa : F.Faithful u η) (hodd : F.Odd) (hF' : F.Relative u lo hi)
    (hlo : 0 ≤ lo) (L ε : K) (hs : Scale u η hi L) (htiny : |F.tiny| ≤ L) (hε : ε ≤ 1 / 1000) (part : StdPartition)
    (centers : List (Vec3 (XF F))) (dxs dys : List (XF F)) (rotations : List (Mat3 (XF F)))
    (coll : PlaneColl (XF F)) (hcoll : PlaneColl.make centers dxs dys rotations = .ok coll)
    (opts : BuildOptions) (nodes : List (Node (XF F) (Plane (XF F)))) (stats : Statistics)
    (hbuild : build part coll.toCollection opts [] = .ok (nodes, stats))
    (origin direction : Vec3 (XF F)) (minHit maxHit : XF F) (o p : Vec3 K) (m : K)
    (ho : IsV origin o) (hdir : IsV direction p) (hmin : minHit.Is m) (hm : 0 ≤ m)
    (hneg : ∀ i, direction.get i ≠ .fin 0 true) (hunit : |Vec3.dot p p - 1| ≤ 16 * u)
    (hscale : Scale u η hi (|p.x| + |p.y| + |p.z|)) (hharm : Harmless coll.toCollection lo hi o p)
    (hsize : ∀ (i : Nat) (center : Vec3 (XF F)) (dx dy : XF F) (rotation : Mat3 (XF F)), coll.centers[i]? = some center →
      coll.dxs[i]? = some dx → coll.dys[i]? = some dy → coll.rotations[i]? = some rotation →
      ∃ c a b R, IsV center c ∧ dx.Is a ∧ dy.Is b ∧ IsM rotation R ∧ NearOrtho ε R ∧
        |o.x| + |o.y| + |o.z| + |c.x| + |c.y| + |c.z| + |a| + |b| ≤ L)
    (j : Nat) (center : Vec3 (XF F)) (dx dy : XF F) (rotation : Mat3 (XF F)) (hcj : coll.centers[j]? = some center)
    (hxj : coll.dxs[j]? = some dx) (hyj : coll.dys[j]? = some dy) (hrj : coll.rotations[j]? = some rotation)
    (c : Vec3 K) (a b : K) (R : Mat3 K) (hc : IsV center c) (ha : dx.Is a) (hb : dy.Is b) (hR : IsM rotation R)
    (d : Vec3 K) (hd : IsV (Ray.make origin direction minHit maxHit false).direction d) (τ M κ : K)
    (hmeet : MeetsRect c a b R o d m τ M κ) (hM : 200 * (u + ε) * L ≤ M * κ)
    (hmax : maxHit = .inf false ∨ ∃ X, maxHit.Is X ∧ τ + M + 152 * centers.length * (u + ε) * L < X)
    (rayhit out : RayHit (XF F)) (hit : Bool)
    (h : traverse planeIx nodes (Ray.make origin direction minHit maxHit false) rayhit = .ok (hit, out)) :
    hit = true ∧ ∃ h, out.hitDistance.Is h ∧ h ≤ τ + M + 152 * centers.length * (u + ε) * L := by
  obtain ⟨d', n, h1, h2, h3, h4, h5, h6, h7⟩ := normalize_near hF hdir hscale
  obtain rfl := h1.unique hd
  obtain ⟨u0, u1, η0, ηu, ηL, ηLL, ηuLL, ηuL, L0, uL0, uLL0, uL1, uLL1, hi1, hiL, hiLL⟩ := hs.sizes
  have hlen : coll.toCollection.size = centers.length := (PlaneColl.make_size hcoll).1
  -- the rectangle
  obtain ⟨c', a', b', R', k1, k2, k3, k4, k5, k6⟩ := hsize j center dx dy rotation hcj hxj hyj hrj
  obtain rfl := k1.unique hc
  obtain rfl := k2.unique ha
  obtain rfl := k3.unique hb
  obtain rfl := k4.only hR
  have ε0 := k5.rows.nonneg
  have hwithin : ∀ (q : Plane (XF F)) c a b R, IsV q.center c → q.dx.Is a → q.dy.Is b → IsM q.rotation R → NearOrtho ε R →
      |o.x| + |o.y| + |o.z| + |c.x| + |c.y| + |c.z| + |a| + |b| ≤ L → PlaneWithin ε o L q c a b R := by
    intro q c a b R a1 a2 a3 a4 a5 a6
    refine ⟨a1, a2, a3, a4, a5, ?_⟩
    have b1 := abs_sub_le' (le_refl |o.x|) (le_refl |c.x|)
    have b2 := abs_sub_le' (le_refl |o.y|) (le_refl |c.y|)
    have b3 := abs_sub_le' (le_refl |o.z|) (le_refl |c.z|)
    linarith
  obtain ⟨q1, q2⟩ := PlaneColl.prim_of hcj hxj hyj hrj
  set q : Plane (XF F) := ⟨center, dx, dy, rotation, j⟩ with hq
  have hqw : PlaneWithin ε o L q c' a' b' R' := hwithin q c' a' b' R' hc ha hb hR k5 k6
  set ray := Ray.make origin direction minHit maxHit false with hray
  have hrn : RayNear ray o d' m u := ⟨ho, hd, hmin, hm, h2⟩
  have hstart : (planeIx.prepare ray).hd = .inf false ∨ ∃ k, (planeIx.prepare ray).hd.Is k := by
    rcases hmax with h | ⟨X, hX, -⟩
    · exact .inl h
    · exact .inr ⟨X, hX⟩
  have hkeep : PlaneStart ray (planeIx.prepare ray) := ⟨rfl, rfl, rfl⟩
  obtain ⟨hmar, hτL, -⟩ := plane_hit_found hF hodd hs ray (i := planeIx.prepare ray) (q := q) ho hd hqw hε hmin hm h2 hmeet hM
    hstart
  have M0 := hmar.pos
  have hlarge := hmar.large
  have hMhalf := hmar.half
  have hW : (u + ε) * L = u * L + ε * L := by ring
  have εL0 : 0 ≤ ε * L := mul_nonneg ε0 L0.le
  have hτ0 : 0 ≤ τ := by linarith [hmeet.late]
  have hκ1 : κ ≤ 101 / 100 := by
    refine hmeet.steep.trans ?_
    have e1 : |Vec3.dot (R'.trans.mulVec d') (R'.trans.mulVec d') - 1| ≤ 11 * u + 4 * ε := by
      have n1 := k5.norm d'
      have n2 : 3 * ε * Vec3.dot d' d' ≤ 4 * ε := by
        have hd1 : Vec3.dot d' d' ≤ 101 / 100 := by have := (abs_le.1 h2).2; linarith
        have := mul_le_mul_of_nonneg_left hd1 ε0
        linarith
      exact (abs_near_trans n1 h2).trans (by linarith)
    exact (near_one_comp (e := R'.trans.mulVec d') (e1.trans (by linarith))).2.2
  -- the box
  obtain ⟨t, mn, mx, t1, t2, t3, t4⟩ := plane_box_met (p := p) (n := n) hF hs htiny (q := q) hc ha hb hR k5 hε
    (by
      have b1 := abs_nonneg o.x
      have b2 := abs_nonneg o.y
      have b3 := abs_nonneg o.z
      linarith) h2
    (fun k => by
      match k with
      | 0 => exact h5
      | 1 => exact h6
      | 2 => exact h7) hmeet hM hmar hκ1 hτ0 hτL
  obtain ⟨t5, t6⟩ := abs_le.1 t1
  have ht0 : 0 ≤ t := by linarith [hmeet.late]
  obtain ⟨p1, p2⟩ := unit_param hs hunit h3 h4 ht0 (by linarith)
  have hmeetbox : MeetsBox coll.toCollection o p q (t / n) := by
    intro i hi' hiq
    obtain ⟨g0, g1, g2, g3, g4⟩ := PlaneColl.prim_ok hiq
    obtain rfl : j = i := g0
    obtain ⟨bx, hb'⟩ : ∃ b, coll.toCollection.box j = .ok b := PlaneColl.make_box_ok hcoll hi'
    obtain ⟨cc, xx, yy, mm, e1, e2, e3, e4, e5⟩ := PlaneColl.make_box hcoll j bx (lookup_eq_ok.1 hb')
    rw [hcj, Option.some.injEq] at e1
    rw [hxj, Option.some.injEq] at e2
    rw [hyj, Option.some.injEq] at e3
    rw [hrj, Option.some.injEq] at e4
    subst e1 e2 e3 e4 e5
    exact ⟨_, mn, mx, hb', t2, t3, t4⟩
  -- the traversal
  obtain ⟨ps, vs, rest, e1, e2, ⟨e3, e4, -⟩, e5⟩ := C67_nothing_hidden u lo hi hF' u0.le (by linarith) hlo part
    coll.toCollection opts nodes stats hbuild planeIx origin direction minHit maxHit o p m ho hdir hmin hneg hharm
    (plane_quiet ray) rayhit out hit h
  have hgood : ∀ q ∈ vs, ∃ c a b R, PlaneWithin ε o L q c a b R := by
    intro q' hq'
    obtain ⟨i, -, hiq⟩ := mapM_mem_of_out e1 (e2.subset (List.mem_append_left _ hq'))
    obtain ⟨-, g1, g2, g3, g4⟩ := PlaneColl.prim_ok hiq
    obtain ⟨c, a, b, R, b1, b2, b3, b4, b5, b6⟩ := hsize i _ _ _ _ g1 g2 g3 g4
    exact ⟨c, a, b, R, hwithin q' c a b R b1 b2 b3 b4 b5 b6⟩
  have hlenps : (vs ++ rest).length = centers.length := by
    rw [e2.length_eq, (mapM_ok_forall₂ _ _ _ e1).length_eq.symm, List.length_range, hlen]
  have hqps : q ∈ ps := by
    obtain ⟨q', hq', e⟩ := mapM_mem_of_in e1 (List.mem_range.2 q1)
    rw [q2, Except.ok.injEq] at e
    exact e ▸ hq'
  have hE : 0 ≤ (u + ε) * L := by rw [hW]; linarith
  have hstep : ∀ (s : PlaneI (XF F)) q, PlaneStart ray s → PlaneStart ray (planeIx.isect s q ray).1 :=
    fun s q hs => Frame.start (planeIntersect_frame s q ray) hs
  have hfin : ∃ k, (scan planeIx ray vs).hd.Is k ∧ k ≤ τ + M + centers.length * (152 * ((u + ε) * L)) := by
    by_cases hv : q ∈ vs
    · -- tested
      obtain ⟨l1, l2, rfl⟩ := List.append_of_mem hv
      rw [scan_eq_testAll, testAll_append]
      have g1 := (plane_testAll_drift hF hfa hodd hs hrn ε0 hε l1 (fun q hq => hgood q (by simp [hq])) _ hkeep).1 hstart
      have g2 := (testAll_last (plane_quiet ray) (Inv := PlaneStart ray) hstep l1 _ hkeep).1
      set s := testAll planeIx ray (planeIx.prepare ray) l1 with hs'
      obtain ⟨-, -, k, f1, f2⟩ := plane_hit_found hF hodd hs ray (i := s) (q := q) (g2.1 ▸ ho) (g2.2.1 ▸ hd) hqw hε
        (g2.2.2 ▸ hmin) hm h2 hmeet hM g1
      have e : testAll planeIx ray s (q :: l2) = testAll planeIx ray (planeIntersect s q ray).1 l2 := rfl
      rw [e]
      obtain ⟨k', f3, f4⟩ := (plane_testAll_drift hF hfa hodd hs hrn ε0 hε l2 (fun q hq => hgood q (by simp [hq])) _
        (hstep s q g2)).2 k f1
      refine ⟨k', f3, f4.trans ?_⟩
      have h9 : (l2.length : K) * (152 * ((u + ε) * L)) ≤ centers.length * (152 * ((u + ε) * L)) := by
        refine mul_le_mul_of_nonneg_right ?_ (by linarith)
        rw [← hlenps]
        push_cast [List.length_append, List.length_cons]
        have a1 : (0 : K) ≤ l1.length := Nat.cast_nonneg _
        have a2 : (0 : K) ≤ rest.length := Nat.cast_nonneg _
        linarith
      linarith
    · -- skipped
      obtain ⟨hd', ⟨k, hk⟩, hne, hlt⟩ :=
        (e5 q hqps (t / n) (div_nonneg ht0 h3.le) (by linarith [hmeet.late]) hmeetbox).resolve_left hv
      have htake : ∀ q ∈ vs.take k, ∃ c a b R, PlaneWithin ε o L q c a b R := fun q hq => hgood q (List.mem_of_mem_take hq)
      have hdrop : ∀ q ∈ vs.drop k, ∃ c a b R, PlaneWithin ε o L q c a b R := fun q hq => hgood q (List.mem_of_mem_drop hq)
      have g1 := (plane_testAll_drift hF hfa hodd hs hrn ε0 hε _ htake _ hkeep).1 hstart
      have g2 := (testAll_last (plane_quiet ray) (Inv := PlaneStart ray) hstep (vs.take k) _ hkeep).1
      rw [← scan_eq_testAll] at g1 g2
      change hd' = (scan planeIx ray (vs.take k)).hd at hk
      rw [← hk] at g1
      obtain ⟨k0, hk0⟩ := g1.resolve_left hne
      have hk1 := hlt k0 hk0
      rw [hk] at hk0
      obtain ⟨k', f3, f4⟩ := (plane_testAll_drift hF hfa hodd hs hrn ε0 hε _ hdrop _ g2).2 k0 hk0
      have hsplit : scan planeIx ray vs = testAll planeIx ray (scan planeIx ray (vs.take k)) (vs.drop k) := by
        rw [scan_eq_testAll, scan_eq_testAll, ← testAll_append, List.take_append_drop]
      rw [hsplit]
      refine ⟨k', f3, f4.trans ?_⟩
      have h9 : ((vs.drop k).length : K) * (152 * ((u + ε) * L)) ≤ centers.length * (152 * ((u + ε) * L)) := by
        refine mul_le_mul_of_nonneg_right ?_ (by linarith)
        rw [← hlenps]
        have a2 : (vs.drop k).length ≤ (vs ++ rest).length := by
          rw [List.length_append, List.length_drop]; omega
        exact_mod_cast a2
      linarith
  obtain ⟨k, hk, hkle⟩ := hfin
  have hkle' : k ≤ τ + M + 152 * centers.length * (u + ε) * L := by linarith
  have hit' : hit = true := by
    rw [e3]
    rcases hmax with h | ⟨X, hX, hX'⟩
    · exact (XF.Is.lt_iff hk).2 (.inl h)
    · exact (XF.Is.lt hk hX).2 (by linarith)
  exact ⟨hit', k, by rw [plane_post_distance _ _ _ (e4 hit' : planePost _ _ = _)]; exact hk, hkle'⟩

end

theorem unit_sum {p : Vec3 ℚ} (hunit : |Vec3.dot p p - 1| ≤ 1 / 10) :
    9 / 10 ≤ |p.x| + |p.y| + |p.z| ∧ |p.x| + |p.y| + |p.z| ≤ 6 := by
  obtain ⟨q1, q2⟩ := abs_le.1 hunit
  have q4 := sum_sq_le p.x p.y p.z 0
  have q5 : p.x * p.x + p.y * p.y + p.z * p.z = Vec3.dot p p := rfl
  rw [abs_zero, add_zero, mul_zero, add_zero, q5] at q4
  obtain ⟨q6, q7, q8⟩ := comp_sq_le p
  have hx : |p.x| ≤ 2 := abs_le_of_sq_le_sq (by rw [pow_two]; linarith) (by norm_num)
  have hy : |p.y| ≤ 2 := abs_le_of_sq_le_sq (by rw [pow_two]; linarith) (by norm_num)
  have hz : |p.z| ≤ 2 := abs_le_of_sq_le_sq (by rw [pow_two]; linarith) (by norm_num)
  refine ⟨le_of_sq_le_sq (le_trans ?_ q4) (by positivity), by linarith⟩
  linarith

/-- **C82** for `double`. -/
theorem C82_double (L ε : ℚ) (hL1 : 1 / 2 ^ 484 ≤ L) (hL2 : L ≤ 2 ^ 500) (hε : ε ≤ 1 / 1000) (part : StdPartition)
    (centers : List (Vec3 Double)) (dxs dys : List Double) (rotations : List (Mat3 Double))
    (coll : PlaneColl Double) (hcoll : PlaneColl.make centers dxs dys rotations = .ok coll)
    (opts : BuildOptions) (nodes : List (Node Double (Plane Double))) (stats : Statistics)
    (hbuild : build part coll.toCollection opts [] = .ok (nodes, stats))
    (origin direction : Vec3 Double) (minHit maxHit : Double) (o p : Vec3 ℚ) (m : ℚ)
    (ho : IsV origin o) (hdir : IsV direction p) (hmin : minHit.Is m) (hm : 0 ≤ m)
    (hneg : ∀ i, direction.get i ≠ .fin 0 true) (hunit : |Vec3.dot p p - 1| ≤ 16 / 2 ^ 53)
    (hharm : Harmless coll.toCollection (1 / 2 ^ 1022) ((2 - 1 / 2 ^ 52) * 2 ^ 1023) o p)
    (hsize : ∀ (i : Nat) (center : Vec3 Double) (dx dy : Double) (rotation : Mat3 Double), coll.centers[i]? = some center →
      coll.dxs[i]? = some dx → coll.dys[i]? = some dy → coll.rotations[i]? = some rotation →
      ∃ c a b R, IsV center c ∧ dx.Is a ∧ dy.Is b ∧ IsM rotation R ∧ NearOrtho ε R ∧
        |o.x| + |o.y| + |o.z| + |c.x| + |c.y| + |c.z| + |a| + |b| ≤ L)
    (j : Nat) (center : Vec3 Double) (dx dy : Double) (rotation : Mat3 Double) (hcj : coll.centers[j]? = some center)
    (hxj : coll.dxs[j]? = some dx) (hyj : coll.dys[j]? = some dy) (hrj : coll.rotations[j]? = some rotation)
    (c : Vec3 ℚ) (a b : ℚ) (R : Mat3 ℚ) (hc : IsV center c) (ha : dx.Is a) (hb : dy.Is b) (hR : IsM rotation R)
    (d : Vec3 ℚ) (hd : IsV (Ray.make origin direction minHit maxHit false).direction d) (τ M κ : ℚ)
    (hmeet : MeetsRect c a b R o d m τ M κ) (hM : 200 * (1 / 2 ^ 53 + ε) * L ≤ M * κ)
    (hmax : maxHit = .inf false ∨ ∃ X, maxHit.Is X ∧ τ + M + 152 * centers.length * (1 / 2 ^ 53 + ε) * L < X)
    (rayhit out : RayHit Double) (hit : Bool)
    (h : traverse planeIx nodes (Ray.make origin direction minHit maxHit false) rayhit = .ok (hit, out)) :
    hit = true ∧ ∃ h, out.hitDistance.Is h ∧ h ≤ τ + M + 152 * centers.length * (1 / 2 ^ 53 + ε) * L := by
  have hS := unit_sum (p := p) (hunit.trans (by decide +kernel))
  have hsc : Scale (1 / 2 ^ 53) (1 / 2 ^ 1075) ((2 - 1 / 2 ^ 52) * 2 ^ 1023) (|p.x| + |p.y| + |p.z|) :=
    scale_double (le_trans (by decide +kernel) hS.1) (hS.2.trans (by decide +kernel))
  have ht : |Format.binary64.tiny| ≤ 1 / 2 ^ 484 := by decide +kernel
  exact C82_closest _ _ _ _ rounds_double faithful_double Format.binary64_odd relative_double (by decide +kernel) L ε
    (scale_double hL1 hL2) (ht.trans hL1) hε part centers dxs dys rotations coll hcoll opts nodes stats hbuild origin direction
    minHit maxHit o p m ho hdir hmin hm hneg (hunit.trans_eq (by ring)) hsc hharm hsize j center dx dy rotation hcj hxj hyj hrj
    c a b R hc ha hb hR d hd τ M κ hmeet hM hmax rayhit out hit h

/-- **C82** for `float`. -/
theorem C82_float (L ε : ℚ) (hL1 : 1 / 2 ^ 51 ≤ L) (hL2 : L ≤ 2 ^ 60) (hε : ε ≤ 1 / 1000) (part : StdPartition)
    (centers : List (Vec3 Single)) (dxs dys : List Single) (rotations : List (Mat3 Single))
    (coll : PlaneColl Single) (hcoll : PlaneColl.make centers dxs dys rotations = .ok coll)
    (opts : BuildOptions) (nodes : List (Node Single (Plane Single))) (stats : Statistics)
    (hbuild : build part coll.toCollection opts [] = .ok (nodes, stats))
    (origin direction : Vec3 Single) (minHit maxHit : Single) (o p : Vec3 ℚ) (m : ℚ)
    (ho : IsV origin o) (hdir : IsV direction p) (hmin : minHit.Is m) (hm : 0 ≤ m)
    (hneg : ∀ i, direction.get i ≠ .fin 0 true) (hunit : |Vec3.dot p p - 1| ≤ 16 / 2 ^ 24)
    (hharm : Harmless coll.toCollection (1 / 2 ^ 126) ((2 - 1 / 2 ^ 23) * 2 ^ 127) o p)
    (hsize : ∀ (i : Nat) (center : Vec3 Single) (dx dy : Single) (rotation : Mat3 Single), coll.centers[i]? = some center →
      coll.dxs[i]? = some dx → coll.dys[i]? = some dy → coll.rotations[i]? = some rotation →
      ∃ c a b R, IsV center c ∧ dx.Is a ∧ dy.Is b ∧ IsM rotation R ∧ NearOrtho ε R ∧
        |o.x| + |o.y| + |o.z| + |c.x| + |c.y| + |c.z| + |a| + |b| ≤ L)
    (j : Nat) (center : Vec3 Single) (dx dy : Single) (rotation : Mat3 Single) (hcj : coll.centers[j]? = some center)
    (hxj : coll.dxs[j]? = some dx) (hyj : coll.dys[j]? = some dy) (hrj : coll.rotations[j]? = some rotation)
    (c : Vec3 ℚ) (a b : ℚ) (R : Mat3 ℚ) (hc : IsV center c) (ha : dx.Is a) (hb : dy.Is b) (hR : IsM rotation R)
    (d : Vec3 ℚ) (hd : IsV (Ray.make origin direction minHit maxHit false).direction d) (τ M κ : ℚ)
    (hmeet : MeetsRect c a b R o d m τ M κ) (hM : 200 * (1 / 2 ^ 24 + ε) * L ≤ M * κ)
    (hmax : maxHit = .inf false ∨ ∃ X, maxHit.Is X ∧ τ + M + 152 * centers.length * (1 / 2 ^ 24 + ε) * L < X)
    (rayhit out : RayHit Single) (hit : Bool)
    (h : traverse planeIx nodes (Ray.make origin direction minHit maxHit false) rayhit = .ok (hit, out)) :
    hit = true ∧ ∃ h, out.hitDistance.Is h ∧ h ≤ τ + M + 152 * centers.length * (1 / 2 ^ 24 + ε) * L := by
  have hS := unit_sum (p := p) (hunit.trans (by decide +kernel))
  have hsc : Scale (1 / 2 ^ 24) (1 / 2 ^ 150) ((2 - 1 / 2 ^ 23) * 2 ^ 127) (|p.x| + |p.y| + |p.z|) :=
    scale_float (le_trans (by decide +kernel) hS.1) (hS.2.trans (by decide +kernel))
  have ht : |Format.binary32.tiny| ≤ 1 / 2 ^ 51 := by decide +kernel
  exact C82_closest _ _ _ _ rounds_float faithful_float Format.binary32_odd relative_float (by decide +kernel) L ε
    (scale_float hL1 hL2) (ht.trans hL1) hε part centers dxs dys rotations coll hcoll opts nodes stats hbuild origin direction
    minHit maxHit o p m ho hdir hmin hm hneg (hunit.trans_eq (by ring)) hsc hharm hsize j center dx dy rotation hcj hxj hyj hrj
    c a b R hc ha hb hR d hd τ M κ hmeet hM hmax rayhit out hit h

/-! ### Example -/

/-- a vertical ray from below the two rectangles of `samplePlanes` -/
def verticalRay : Ray Double := Ray.make (dvec (1/4) (1/8) (-5)) (dvec 0 0 1) (dbl 0) (dbl 100) false

theorem planes_harmless : Harmless samplePlanes.toCollection (1 / 2 ^ 1022) ((2 - 1 / 2 ^ 52) * 2 ^ 1023)
    ⟨1/4, 1/8, -5⟩ ⟨0, 0, 1⟩ := by
  have hb : ∀ {i b}, samplePlanes.toCollection.box i = .ok b → b ∈ samplePlanes.boxes :=
    fun h => List.mem_of_getElem? (lookup_eq_ok.1 h)
  refine ⟨fun i _ b h => ?_, fun i _ b h k c hc => ?_, fun hz => absurd hz (by norm_num)⟩
  · have : ∀ b ∈ samplePlanes.boxes, BoxInRange b := by decide +kernel
    exact this b (hb h)
  · have : ∀ b ∈ samplePlanes.boxes, ∀ k : Fin 3,
        coordOk ((⟨1/4, 1/8, -5⟩ : Vec3 ℚ).get k) ((⟨0, 0, 1⟩ : Vec3 ℚ).get k) (b.1.get k) = true ∧
        coordOk ((⟨1/4, 1/8, -5⟩ : Vec3 ℚ).get k) ((⟨0, 0, 1⟩ : Vec3 ℚ).get k) (b.2.get k) = true := by decide +kernel
    obtain ⟨e1, e2⟩ := this b (hb h) k
    rcases hc with ⟨s, hc⟩ | ⟨s, hc⟩
    · rw [hc] at e1; exact of_decide_eq_true e1
    · rw [hc] at e2; exact of_decide_eq_true e2

/-- The hypotheses of C82 are met by the vertical ray and the tilted rectangle, for every tree that can be built and every
execution: it finds a hit at less than 4.667 (the second rectangle is at 10). -/
example (part : StdPartition) (opts : BuildOptions) (nodes : List (Node Double (Plane Double))) (stats : Statistics)
    (hbuild : build part samplePlanes.toCollection opts [] = .ok (nodes, stats)) (out : RayHit Double) (hit : Bool)
    (h : traverse planeIx nodes verticalRay RayHit.fresh = .ok (hit, out)) :
    hit = true ∧ ∃ h, out.hitDistance.Is h ∧ h ≤ 4667 / 1000 := by
  have dv : ∀ x y z x' y' z' : ℚ, ∀ sx sy sz, dvec x y z = ⟨.fin x' sx, .fin y' sy, .fin z' sz⟩ →
      IsV (dvec x y z) ⟨x', y', z'⟩ := by
    intro x y z x' y' z' sx sy sz e
    rw [e]
    exact ⟨⟨_, rfl⟩, ⟨_, rfl⟩, ⟨_, rfl⟩⟩
  have f1 : IsV (dvec 0 0 0) ⟨0, 0, 0⟩ := dv _ _ _ _ _ _ false false false (by decide +kernel)
  have f2 : IsV (dvec 1 0 5) ⟨1, 0, 5⟩ := dv _ _ _ _ _ _ false false false (by decide +kernel)
  have f3 : (dbl 4).Is 4 := ⟨false, by decide +kernel⟩
  have f4 : (dbl 2).Is 2 := ⟨false, by decide +kernel⟩
  have f5 : (dbl 8).Is 8 := ⟨false, by decide +kernel⟩
  have f6 : (dbl 3).Is 3 := ⟨false, by decide +kernel⟩
  have f7 : IsM idMat ⟨⟨1, 0, 0⟩, ⟨0, 1, 0⟩, ⟨0, 0, 1⟩⟩ :=
    ⟨dv _ _ _ _ _ _ false false false (by decide +kernel), dv _ _ _ _ _ _ false false false (by decide +kernel),
      dv _ _ _ _ _ _ false false false (by decide +kernel)⟩
  have f8 : NearOrtho (1 / 2 ^ 52) (⟨⟨1, 0, 0⟩, ⟨0, 1, 0⟩, ⟨0, 0, 1⟩⟩ : Mat3 ℚ) := by
    refine ⟨⟨?_, ?_, ?_, ?_, ?_, ?_⟩, ⟨?_, ?_, ?_, ?_, ?_, ?_⟩⟩ <;> decide +kernel
  have f9 : IsV verticalRay.direction ⟨0, 0, 1⟩ := by
    have e : verticalRay.direction = ⟨.fin 0 false, .fin 0 false, .fin 1 false⟩ := by decide +kernel
    rw [e]
    exact ⟨⟨_, rfl⟩, ⟨_, rfl⟩, ⟨_, rfl⟩⟩
  have key := C82_double 24 (1 / 2 ^ 52) (by decide +kernel) (by decide +kernel) (by decide +kernel) part
    samplePlanes.centers samplePlanes.dxs samplePlanes.dys samplePlanes.rotations samplePlanes rfl opts nodes stats hbuild
    (dvec (1/4) (1/8) (-5)) (dvec 0 0 1) (dbl 0) (dbl 100) ⟨1/4, 1/8, -5⟩ ⟨0, 0, 1⟩ 0
    (dv _ _ _ _ _ _ false false true (by decide +kernel)) (dv _ _ _ _ _ _ false false false (by decide +kernel))
    ⟨false, by decide +kernel⟩ le_rfl (by decide +kernel) (by decide +kernel) planes_harmless
    (fun i center dx dy rotation h1 h2 h3 h4 => by
      have hi : i < 2 := (List.getElem?_eq_some_iff.1 h1).1
      interval_cases i
      · cases h1; cases h2; cases h3; cases h4
        exact ⟨_, _, _, _, f1, f3, f4, tilt_is, tilt_near, by decide +kernel⟩
      · cases h1; cases h2; cases h3; cases h4
        exact ⟨_, _, _, _, f2, f5, f6, f7, f8, by decide +kernel⟩)
    0 _ _ _ _ rfl rfl rfl rfl _ _ _ _ f1 f3 f4 tilt_is ⟨0, 0, 1⟩ f9
    (5 - 3602879701896397 / 2 ^ 52 * (1 / 4 / (5404319552844595 / 2 ^ 53))) (1 / 10 ^ 11) (1 / 2)
    ⟨⟨1 / 4 / (5404319552844595 / 2 ^ 53), 1 / 8, by decide +kernel, by decide +kernel, by decide +kernel⟩, by decide +kernel,
      by decide +kernel, by decide +kernel⟩ (by decide +kernel)
    (.inr ⟨100, ⟨false, by decide +kernel⟩, by decide +kernel⟩) RayHit.fresh out hit h
  obtain ⟨k1, k, k2, k3⟩ := key
  exact ⟨k1, k, k2, k3.trans (by decide +kernel)⟩

end Blazert
