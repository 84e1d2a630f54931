/- C68, C69: closest hits on spheres, with rounding. -/
import Verif.Props.Tested
import Verif.Proofs.AnyTests
import Verif.Proofs.Sqrt
import Verif.Proofs.SphereScan
import Verif.Proofs.Kinds

set_option autoImplicit false

namespace Blazert
open Scalar

section
variable {K : Type} [Field K] [LinearOrder K] [IsStrictOrderedRing K] [FloorRing K] {F : Fmt K}

/-- **C68**, directions.  In any format that rounds (relative error `u`, absolute error `η`): the direction that a ray
stores is of length one up to rounding, and parallel to the one given: its components are those of `p / n`, where `n` is
`|p|` up to rounding. -/
theorem C68_direction (u η hi : K) (hF : F.Rounds u η hi) (origin direction : Vec3 (XF F)) (minHit maxHit : XF F) (any : Bool)
    (p : Vec3 K) (hdir : IsV direction p) (hscale : Scale u η hi (|p.x| + |p.y| + |p.z|)) :
    ∃ d n, IsV (Ray.make origin direction minHit maxHit any).direction d ∧ |Vec3.dot d d - 1| ≤ 11 * u ∧ 0 < n ∧
      |n ^ 2 - Vec3.dot p p| ≤ 9 * u * Vec3.dot p p ∧
      ∀ k, |d.get k - p.get k / n| ≤ u * |p.get k / n| + η := by
  obtain ⟨d, n, h1, h2, h3, h4, h5, h6, h7⟩ := normalize_near hF hdir hscale
  refine ⟨d, n, h1, h2, h3, h4, fun k => ?_⟩
  match k with
  | 0 => exact h5
  | 1 => exact h6
  | 2 => exact h7

/-- **C68**.  In any format that rounds: a hit on a sphere reported by a query (with or without `any_hit`) is genuine up to rounding.  The
point at the reported distance (along the stored direction) is on the sphere named in the record, up to an error of
`2000 u L²` in the power of the point, where `L` is any bound for the size of sphere and distance. -/
theorem C68_hit_on_sphere (u η hi : K) (hF : F.Rounds u η hi) (part : StdPartition) (coll : SphereColl (XF F))
    (opts : BuildOptions) (nodes : List (Node (XF F) (Sphere (XF F)))) (stats : Statistics)
    (hbuild : build part coll.toCollection opts [] = .ok (nodes, stats))
    (origin direction : Vec3 (XF F)) (minHit maxHit : XF F) {any : Bool} (o p : Vec3 K) (m : K)
    (ho : IsV origin o) (hdir : IsV direction p) (hmin : minHit.Is m) (hm : 0 ≤ m)
    (hscale : Scale u η hi (|p.x| + |p.y| + |p.z|)) (rayhit out : RayHit (XF F))
    (h : traverse (sphereIx coll) nodes (Ray.make origin direction minHit maxHit any) rayhit = .ok (true, out)) :
    ∃ center radius d, coll.centers[out.primId]? = some center ∧ coll.radii[out.primId]? = some radius ∧
      IsV (Ray.make origin direction minHit maxHit any).direction d ∧
      ∀ c r L, IsV center c → radius.Is r → |o.x - c.x| + |o.y - c.y| + |o.z - c.z| + |r| ≤ L → Scale u η hi L →
        ∃ h, out.hitDistance.Is h ∧ 0 ≤ h ∧ |power c r (along o d h)| ≤ 2000 * u * L ^ 2 := by
  obtain ⟨d, n, h1, h2, -⟩ := normalize_near hF hdir hscale
  have hquiet := sphere_quiet coll (Ray.make origin direction minHit maxHit any)
  obtain ⟨ps, vs, rest, e1, e2, ⟨e3, e4, -⟩⟩ := traverse_tests hbuild hquiet h
  have e4 := e4 rfl
  set ray := Ray.make origin direction minHit maxHit any with hray
  obtain ⟨f1, f2⟩ := testAll_last hquiet (Inv := SphereKeeps ray) (fun s q => SphereKeeps.step s q) vs _
    (SphereKeeps.prepare ray coll)
  rw [← scan_eq_testAll] at f1 f2
  rcases f2 with f2 | ⟨q, hq, s', f3, f4⟩
  · rw [scanHit, f2, hquiet.start, XF.lt_irrefl] at e3
    cases e3
  have hqps : q ∈ ps := e2.subset (by simp [hq])
  obtain ⟨i, hi', hiq⟩ := mapM_mem_of_out e1 hqps
  obtain ⟨g1, g2, g3⟩ := SphereColl.prim_eq hiq
  have hout : out.primId = i ∧ out.hitDistance = (scan (sphereIx coll) ray vs).hd := by
    obtain ⟨k1, k2⟩ := spherePost_ok e4
    exact ⟨k1.trans ((sphere_primId (ray := ray) f4).trans g3), k2⟩
  rw [hout.1, hout.2]
  refine ⟨q.center, q.radius, d, g1, g2, h1, fun c r L hc hr hL hsc => ?_⟩
  obtain ⟨k, t, a1, a2, -, -, -, -, a3⟩ := sphere_hit_near hF hsc ray (f3.org ▸ ho) (f3.dir ▸ h1) hc hr (f3.min ▸ hmin) hm h2
    hsc.eleven hL f4
  refine ⟨k, a1, a2, a3.trans ?_⟩
  have := hsc.sizes.uLL0
  nlinarith

/-- **C69**, general.  In any format that rounds: let `L` bound the coordinates of the origin, of all centers, and the radii,
and let the direction given be of length one up to rounding.  If the ray (along the stored direction) is clear of a sphere of
the collection at its lower limit `m`, and well inside it at a later parameter `τ`, then whatever was built and however
the query went: it reports a hit, at a distance of at most `τ + 106 n u L`, where `n` is the number of spheres. -/
theorem C69_closest (u η lo hi : K) (hF : F.Rounds u η hi) (hF' : F.Relative u lo hi) (hlo : 0 ≤ lo) (L : K)
    (hs : Scale u η hi L) (part : StdPartition) (centers : List (Vec3 (XF F))) (radii : List (XF F))
    (coll : SphereColl (XF F)) (hcoll : SphereColl.make centers radii = .ok coll)
    (opts : BuildOptions) (nodes : List (Node (XF F) (Sphere (XF F)))) (stats : Statistics)
    (hbuild : build part coll.toCollection opts [] = .ok (nodes, stats))
    (origin direction : Vec3 (XF F)) (minHit maxHit : XF F) (o p : Vec3 K) (m : K)
    (ho : IsV origin o) (hdir : IsV direction p) (hmin : minHit.Is m) (hm : 0 ≤ m)
    (hneg : ∀ i, direction.get i ≠ .fin 0 true) (hunit : |Vec3.dot p p - 1| ≤ 16 * u)
    (hscale : Scale u η hi (|p.x| + |p.y| + |p.z|)) (hharm : Harmless coll.toCollection lo hi o p)
    (hsize : ∀ (i : Nat) (center : Vec3 (XF F)) (radius : XF F), coll.centers[i]? = some center → coll.radii[i]? = some radius →
      ∃ c r, IsV center c ∧ radius.Is r ∧ |o.x| + |o.y| + |o.z| + |c.x| + |c.y| + |c.z| + |r| ≤ L)
    (j : Nat) (center : Vec3 (XF F)) (radius : XF F) (hcj : coll.centers[j]? = some center)
    (hrj : coll.radii[j]? = some radius) (c : Vec3 K) (r : K) (hc : IsV center c) (hr : radius.Is r) (hr0 : 0 < r)
    (d : Vec3 K) (hd : IsV (Ray.make origin direction minHit maxHit false).direction d) (τ : K) (hτ : m < τ)
    (hout : 400 * u * L ^ 2 ≤ power c r (along o d m)) (hin : power c r (along o d τ) ≤ -(400 * u * L ^ 2))
    (hmax : maxHit = .inf false ∨ ∃ M, maxHit.Is M ∧ τ + 106 * centers.length * u * L < M)
    (rayhit out : RayHit (XF F)) (hit : Bool)
    (h : traverse (sphereIx coll) nodes (Ray.make origin direction minHit maxHit false) rayhit = .ok (hit, out)) :
    hit = true ∧ ∃ h, out.hitDistance.Is h ∧ h ≤ τ + 106 * centers.length * u * L := by
  obtain ⟨d', n, h1, h2, h3, h4, h5, h6, h7⟩ := normalize_near hF hdir hscale
  obtain rfl := h1.unique hd
  obtain ⟨u0, u1, η0, ηu, ηL, ηLL, ηuLL, ηuL, L0, uL0, uLL0, uL1, uLL1, hi1, hiL, hiLL⟩ := hs.sizes
  obtain ⟨n1, n2⟩ := abs_le.1 h2
  have hN0 : 3 / 4 ≤ Vec3.dot d' d' := by linarith
  have hN1 : Vec3.dot d' d' ≤ 5 / 4 := by linarith
  have hlen : coll.toCollection.size = centers.length ∧ ∀ (i : Nat) b, coll.toCollection.box i = .ok b → ∃ c r,
      coll.centers[i]? = some c ∧ coll.radii[i]? = some r ∧ b = sphereBox c r :=
    ⟨(SphereColl.make_size hcoll).1, fun i b hb => SphereColl.make_box hcoll i b (lookup_eq_ok.1 hb)⟩
  -- the sphere
  obtain ⟨c', r', k1, k2, k3⟩ := hsize j center radius hcj hrj
  obtain rfl := k1.unique hc
  obtain rfl := k2.unique hr
  have hwithin : ∀ (q : Sphere (XF F)) c r, IsV q.center c → q.radius.Is r →
      |o.x| + |o.y| + |o.z| + |c.x| + |c.y| + |c.z| + |r| ≤ L → SphereWithin o L q c r := by
    intro q c r a1 a2 a3
    refine ⟨a1, a2, ?_⟩
    have b1 := abs_sub_le' (le_refl |o.x|) (le_refl |c.x|)
    have b2 := abs_sub_le' (le_refl |o.y|) (le_refl |c.y|)
    have b3 := abs_sub_le' (le_refl |o.z|) (le_refl |c.z|)
    linarith
  obtain ⟨q1, q2⟩ := SphereColl.make_prim hcoll hcj hrj
  set q : Sphere (XF F) := ⟨center, radius, j⟩ with hq
  have hqw : SphereWithin o L q c' r' := hwithin q c' r' hc hr k3
  set ray := Ray.make origin direction minHit maxHit false with hray
  have hrn : RayNear ray o d' m u := ⟨ho, hd, hmin, hm, h2⟩
  -- exact quantities
  have hout' : 400 * (u * L ^ 2) ≤ Vec3.dot (along o d' m - c') (along o d' m - c') - r' * r' := by
    rw [← mul_assoc]; exact hout
  have hin' : Vec3.dot (along o d' τ - c') (along o d' τ - c') - r' * r' ≤ -(400 * (u * L ^ 2)) := by
    rw [← mul_assoc]; exact hin
  obtain ⟨_, _, _, -, -, -, -, -, -, hb, hc''⟩ := sphere_coeffs hF hs ho hd hc hr hN1 hqw.size
  have hinq := hin'
  have houtq := hout'
  rw [along_sq] at hinq houtq
  have hτL := inside_bound L0 hN0 hb hc'' (by linarith) (hinq.trans (by linarith))
  obtain ⟨p1, p2⟩ := unit_param hs hunit h3 h4 (by linarith : 0 ≤ τ) hτL
  have hgap := entry_gap hs hN1 (by linarith) hb hm hτ hτL hinq houtq
  -- the box
  have hrL : r' ≤ L := by
    have := le_abs_self r'
    have b1 := abs_nonneg o.x
    have b2 := abs_nonneg o.y
    have b3 := abs_nonneg o.z
    have b4 := abs_nonneg c'.x
    have b5 := abs_nonneg c'.y
    have b6 := abs_nonneg c'.z
    linarith
  have hmeet : MeetsBox coll.toCollection o p q (τ / n) := by
    intro i hi' hiq
    obtain ⟨g1, g2, g3⟩ := SphereColl.prim_eq hiq
    obtain rfl : j = i := g3
    have hbx : ∃ b, coll.toCollection.box j = .ok b := SphereColl.make_box_ok hcoll hi'
    obtain ⟨b, hb'⟩ := hbx
    obtain ⟨cc, rr, e1, e2, e3⟩ := hlen.2 j b hb'
    rw [hcj, Option.some.injEq] at e1
    rw [hrj, Option.some.injEq] at e2
    subst e1 e2 e3
    obtain ⟨dx, dy, dz⟩ := comp_le hN1
    have hsum : (o.x + τ * d'.x - c'.x) ^ 2 + (o.y + τ * d'.y - c'.y) ^ 2 + (o.z + τ * d'.z - c'.z) ^ 2 ≤
        r' ^ 2 - 400 * (u * L ^ 2) := by
      have e : (o.x + τ * d'.x - c'.x) ^ 2 + (o.y + τ * d'.y - c'.y) ^ 2 + (o.z + τ * d'.z - c'.z) ^ 2 =
        Vec3.dot (along o d' τ - c') (along o d' τ - c') := by
        show _ = (o.x + τ * d'.x - c'.x) * (o.x + τ * d'.x - c'.x) + (o.y + τ * d'.y - c'.y) * (o.y + τ * d'.y - c'.y) +
          (o.z + τ * d'.z - c'.z) * (o.z + τ * d'.z - c'.z)
        ring
      rw [e, pow_two r']
      linarith
    have s1 := pow_two_nonneg (o.x + τ * d'.x - c'.x)
    have s2 := pow_two_nonneg (o.y + τ * d'.y - c'.y)
    have s3 := pow_two_nonneg (o.z + τ * d'.z - c'.z)
    have hτ0 : 0 ≤ τ := by linarith
    have ax := inside_axis hs hr0 hrL dx h5 hτ0 hτL (o := o.x) (c := c'.x) (by linarith)
    have ay := inside_axis hs hr0 hrL dy h6 hτ0 hτL (o := o.y) (c := c'.y) (by linarith)
    have az := inside_axis hs hr0 hrL dz h7 hτ0 hτL (o := o.z) (c := c'.z) (by linarith)
    have b1 := abs_nonneg o.x
    have b2 := abs_nonneg o.y
    have b3 := abs_nonneg o.z
    have b4 := abs_nonneg c'.x
    have b5 := abs_nonneg c'.y
    have b6 := abs_nonneg c'.z
    obtain ⟨x0, x1, a1, a2, a3, a4⟩ := sphere_box_axis hF hs hc.1 hr (by linarith) ax
    obtain ⟨y0, y1, a5, a6, a7, a8⟩ := sphere_box_axis hF hs hc.2.1 hr (by linarith) ay
    obtain ⟨z0, z1, a9, a10, a11, a12⟩ := sphere_box_axis hF hs hc.2.2 hr (by linarith) az
    exact ⟨_, ⟨x0, y0, z0⟩, ⟨x1, y1, z1⟩, hb', ⟨a1, a5, a9⟩, ⟨a2, a6, a10⟩, ⟨a3, a4⟩, ⟨a7, a8⟩, ⟨a11, a12⟩⟩
  -- the traversal
  obtain ⟨ps, vs, rest, e1, e2, ⟨e3, e4, -⟩, e5⟩ := C67_nothing_hidden u lo hi hF' u0.le (by linarith) hlo part
    coll.toCollection opts nodes stats hbuild (sphereIx coll) origin direction minHit maxHit o p m ho hdir hmin hneg hharm
    (sphere_quiet coll ray) rayhit out hit h
  have hgood : ∀ q ∈ vs, ∃ c r, SphereWithin o L q c r := by
    intro q' hq'
    obtain ⟨i, -, hiq⟩ := mapM_mem_of_out e1 (e2.subset (List.mem_append_left _ hq'))
    obtain ⟨g1, g2, -⟩ := SphereColl.prim_eq hiq
    obtain ⟨c, r, b1, b2, b3⟩ := hsize i _ _ g1 g2
    exact ⟨c, r, hwithin q' c r b1 b2 b3⟩
  have hlenps : (vs ++ rest).length = centers.length := by
    rw [e2.length_eq, (mapM_ok_forall₂ _ _ _ e1).length_eq.symm, List.length_range, hlen.1]
  have hqps : q ∈ ps := by
    obtain ⟨q', hq', e⟩ := mapM_mem_of_in e1 (List.mem_range.2 q1)
    rw [q2, Except.ok.injEq] at e
    exact e ▸ hq'
  have hstart : ((sphereIx coll).prepare ray).hd = .inf false ∨ ∃ k, ((sphereIx coll).prepare ray).hd.Is k := by
    rcases hmax with h | ⟨M, hM, -⟩
    · exact .inl h
    · exact .inr ⟨M, hM⟩
  have hkeep := SphereKeeps.prepare ray coll
  have hfin : ∃ k, (scan (sphereIx coll) ray vs).hd.Is k ∧ k ≤ τ + centers.length * (106 * (u * L)) := by
    by_cases hv : q ∈ vs
    · -- tested
      obtain ⟨l1, l2, rfl⟩ := List.append_of_mem hv
      rw [scan_eq_testAll, testAll_append]
      have g1 := (testAll_drift hF hs hrn coll l1 (fun q hq => hgood q (by simp [hq])) _ hkeep).1 hstart
      have g2 := (testAll_last (sphere_quiet coll ray) (Inv := SphereKeeps ray) (fun s q => SphereKeeps.step s q) l1 _
        hkeep).1
      set s := testAll (sphereIx coll) ray ((sphereIx coll).prepare ray) l1 with hs'
      obtain ⟨⟨k, f1, f2⟩, -⟩ := sphere_hit_found hF hs ray (g2.org ▸ ho) (g2.dir ▸ hd) hc hr (g2.min ▸ hmin) hm h2 hs.eleven
        hqw.size hτ hin' hout' g1 (s := q)
      have e : testAll (sphereIx coll) ray s (q :: l2) = testAll (sphereIx coll) ray (sphereIntersect s q ray).1 l2 := rfl
      rw [e]
      obtain ⟨k', f3, f4⟩ := (testAll_drift hF hs hrn coll l2 (fun q hq => hgood q (by simp [hq])) _
        (SphereKeeps.step (c := coll) s q g2)).2 k f1
      refine ⟨k', f3, f4.trans ?_⟩
      have h8 : (11 * u + 13 * u) * τ + 14 * (u * L) ≤ 106 * (u * L) := by
        have := mul_le_mul_of_nonneg_left hτL u0.le
        linarith
      have h9 : ((l2.length : K) + 1) * (106 * (u * L)) ≤ centers.length * (106 * (u * L)) := by
        refine mul_le_mul_of_nonneg_right ?_ (by linarith)
        rw [← hlenps]
        push_cast [List.length_append, List.length_cons]
        have a1 : (0 : K) ≤ l1.length := Nat.cast_nonneg _
        have a2 : (0 : K) ≤ rest.length := Nat.cast_nonneg _
        linarith
      linarith
    · -- skipped
      obtain ⟨hd', ⟨k, hk⟩, hne, hlt⟩ :=
        (e5 q hqps (τ / n) (div_nonneg (by linarith) h3.le) (by linarith) hmeet).resolve_left hv
      have htake : ∀ q ∈ vs.take k, ∃ c r, SphereWithin o L q c r := fun q hq => hgood q (List.mem_of_mem_take hq)
      have hdrop : ∀ q ∈ vs.drop k, ∃ c r, SphereWithin o L q c r := fun q hq => hgood q (List.mem_of_mem_drop hq)
      have g1 := (testAll_drift hF hs hrn coll _ htake _ hkeep).1 hstart
      have g2 := (testAll_last (sphere_quiet coll ray) (Inv := SphereKeeps ray) (fun s q => SphereKeeps.step s q)
        (vs.take k) _ hkeep).1
      rw [← scan_eq_testAll] at g1 g2
      change hd' = (scan (sphereIx coll) ray (vs.take k)).hd at hk
      rw [← hk] at g1
      obtain ⟨k0, hk0⟩ := g1.resolve_left hne
      have hk1 := hlt k0 hk0
      rw [hk] at hk0
      obtain ⟨k', f3, f4⟩ := (testAll_drift hF hs hrn coll _ hdrop _ g2).2 k0 hk0
      have hsplit : scan (sphereIx coll) ray vs = testAll (sphereIx coll) ray (scan (sphereIx coll) ray (vs.take k))
          (vs.drop k) := by
        rw [scan_eq_testAll, scan_eq_testAll, ← testAll_append, List.take_append_drop]
      rw [hsplit]
      refine ⟨k', f3, f4.trans ?_⟩
      have hrest : q ∈ rest := (List.mem_append.1 ((e2.mem_iff).2 hqps)).resolve_left hv
      have h9 : (((vs.drop k).length : K) + 1) * (106 * (u * L)) ≤ centers.length * (106 * (u * L)) := by
        refine mul_le_mul_of_nonneg_right ?_ (by linarith)
        rw [← hlenps]
        have a1 : 1 ≤ rest.length := List.length_pos_of_mem hrest
        have a2 : (vs.drop k).length + 1 ≤ (vs ++ rest).length := by
          rw [List.length_append, List.length_drop]; omega
        exact_mod_cast a2
      linarith
  obtain ⟨k, hk, hkle⟩ := hfin
  have hkle' : k ≤ τ + 106 * centers.length * u * L := by linarith
  have hit' : hit = true := by
    rw [e3]
    rcases hmax with h | ⟨M, hM, hM'⟩
    · exact (XF.Is.lt_iff hk).2 (.inl h)
    · exact (XF.Is.lt hk hM).2 (by linarith)
  exact ⟨hit', k, by rw [(spherePost_ok (e4 hit')).2]; exact hk, hkle'⟩

end

theorem scale_double {L : ℚ} (h1 : 1 / 2 ^ 484 ≤ L) (h2 : L ≤ 2 ^ 500) :
    Scale (1 / 2 ^ 53) (1 / 2 ^ 1075) ((2 - 1 / 2 ^ 52) * 2 ^ 1023) L := by
  have h0 : (0 : ℚ) < 1 / 2 ^ 484 := by decide +kernel
  have h3 : (1 / 2 ^ 484 : ℚ) ^ 2 ≤ L ^ 2 := pow_le_pow_left₀ h0.le h1 2
  have h4 : L ^ 2 ≤ (2 ^ 500 : ℚ) ^ 2 := pow_le_pow_left₀ (h0.le.trans h1) h2 2
  have e1 : (1 / 2 ^ 1075 : ℚ) ≤ (1 / 2 ^ 53) ^ 2 * (1 / 2 ^ 484) ^ 2 := by decide +kernel
  have e2 : 64 * (2 ^ 500 : ℚ) ^ 2 ≤ ((2 - 1 / 2 ^ 52) * 2 ^ 1023) := by decide +kernel
  refine ⟨by decide +kernel, by decide +kernel, by decide +kernel, by decide +kernel, ?_, lt_of_lt_of_le h0 h1, ?_,
    by decide +kernel⟩
  · exact e1.trans (mul_le_mul_of_nonneg_left h3 (by positivity))
  · exact (mul_le_mul_of_nonneg_left h4 (by norm_num)).trans e2

theorem rounds_double : Format.binary64.Rounds (1 / 2 ^ 53) (1 / 2 ^ 1075) ((2 - 1 / 2 ^ 52) * 2 ^ 1023) := by
  have e1 : Format.pow2 (-53) = 1 / 2 ^ 53 := by decide +kernel
  have e2 : Format.pow2 (-1075) = 1 / 2 ^ 1075 := by decide +kernel
  have e3 : Format.binary64.maxVal = ((2 - 1 / 2 ^ 52) * 2 ^ 1023) := by decide +kernel
  have h := Format.binary64_rounds
  rw [e1, e2, e3] at h
  exact h

theorem relative_double : Format.binary64.Relative (1 / 2 ^ 53) (1 / 2 ^ 1022) ((2 - 1 / 2 ^ 52) * 2 ^ 1023) := by
  have e1 : Format.pow2 (-53) = 1 / 2 ^ 53 := by decide +kernel
  have e2 : Format.binary64.tiny = 1 / 2 ^ 1022 := by decide +kernel
  have e3 : Format.binary64.maxVal = ((2 - 1 / 2 ^ 52) * 2 ^ 1023) := by decide +kernel
  have h := Format.binary64_relative
  rw [e1, e2, e3] at h
  exact h

/-- **C68** for `double`. -/
theorem C68_double (part : StdPartition) (coll : SphereColl Double) (opts : BuildOptions) (nodes : List (Node Double (Sphere Double)))
    (stats : Statistics) (hbuild : build part coll.toCollection opts [] = .ok (nodes, stats))
    (origin direction : Vec3 Double) (minHit maxHit : Double) {any : Bool} (o p : Vec3 ℚ) (m : ℚ)
    (ho : IsV origin o) (hdir : IsV direction p) (hmin : minHit.Is m) (hm : 0 ≤ m)
    (hp1 : 1 / 2 ^ 484 ≤ |p.x| + |p.y| + |p.z|) (hp2 : |p.x| + |p.y| + |p.z| ≤ 2 ^ 500) (rayhit out : RayHit Double)
    (h : traverse (sphereIx coll) nodes (Ray.make origin direction minHit maxHit any) rayhit = .ok (true, out)) :
    ∃ center radius d, coll.centers[out.primId]? = some center ∧ coll.radii[out.primId]? = some radius ∧
      IsV (Ray.make origin direction minHit maxHit any).direction d ∧ |Vec3.dot d d - 1| ≤ 11 / 2 ^ 53 ∧
      ∀ c r L, IsV center c → radius.Is r → |o.x - c.x| + |o.y - c.y| + |o.z - c.z| + |r| ≤ L → 1 / 2 ^ 484 ≤ L →
        L ≤ 2 ^ 500 → ∃ h, out.hitDistance.Is h ∧ 0 ≤ h ∧ |power c r (along o d h)| ≤ 2000 / 2 ^ 53 * L ^ 2 := by
  have hsc := scale_double hp1 hp2
  obtain ⟨center, radius, d, h1, h2, h3, h4⟩ := C68_hit_on_sphere _ _ _ rounds_double part coll opts nodes stats hbuild origin
    direction minHit maxHit o p m ho hdir hmin hm hsc rayhit out h
  obtain ⟨d', n, g1, g2, -⟩ := C68_direction _ _ _ rounds_double origin direction minHit maxHit any p hdir hsc
  obtain rfl := g1.unique h3
  refine ⟨center, radius, _, h1, h2, h3, g2.trans_eq (by ring), fun c r L hc hr hL hL1 hL2 => ?_⟩
  obtain ⟨k, k1, k2, k3⟩ := h4 c r L hc hr hL (scale_double hL1 hL2)
  exact ⟨k, k1, k2, k3.trans_eq (by ring)⟩

/-- **C69** for `double`. -/
theorem C69_double (L : ℚ) (hL1 : 1 / 2 ^ 484 ≤ L) (hL2 : L ≤ 2 ^ 500) (part : StdPartition)
    (centers : List (Vec3 Double)) (radii : List Double) (coll : SphereColl Double)
    (hcoll : SphereColl.make centers radii = .ok coll) (opts : BuildOptions) (nodes : List (Node Double (Sphere Double)))
    (stats : Statistics) (hbuild : build part coll.toCollection opts [] = .ok (nodes, stats))
    (origin direction : Vec3 Double) (minHit maxHit : Double) (o p : Vec3 ℚ) (m : ℚ)
    (ho : IsV origin o) (hdir : IsV direction p) (hmin : minHit.Is m) (hm : 0 ≤ m)
    (hneg : ∀ i, direction.get i ≠ .fin 0 true) (hunit : |Vec3.dot p p - 1| ≤ 16 / 2 ^ 53)
    (hharm : Harmless coll.toCollection (1 / 2 ^ 1022) ((2 - 1 / 2 ^ 52) * 2 ^ 1023) o p)
    (hsize : ∀ (i : Nat) (center : Vec3 Double) (radius : Double), coll.centers[i]? = some center → coll.radii[i]? = some radius →
      ∃ c r, IsV center c ∧ radius.Is r ∧ |o.x| + |o.y| + |o.z| + |c.x| + |c.y| + |c.z| + |r| ≤ L)
    (j : Nat) (center : Vec3 Double) (radius : Double) (hcj : coll.centers[j]? = some center)
    (hrj : coll.radii[j]? = some radius) (c : Vec3 ℚ) (r : ℚ) (hc : IsV center c) (hr : radius.Is r) (hr0 : 0 < r)
    (d : Vec3 ℚ) (hd : IsV (Ray.make origin direction minHit maxHit false).direction d) (τ : ℚ) (hτ : m < τ)
    (hout : 400 / 2 ^ 53 * L ^ 2 ≤ power c r (along o d m)) (hin : power c r (along o d τ) ≤ -(400 / 2 ^ 53 * L ^ 2))
    (hmax : maxHit = .inf false ∨ ∃ M, maxHit.Is M ∧ τ + 106 * centers.length / 2 ^ 53 * L < M)
    (rayhit out : RayHit Double) (hit : Bool)
    (h : traverse (sphereIx coll) nodes (Ray.make origin direction minHit maxHit false) rayhit = .ok (hit, out)) :
    hit = true ∧ ∃ h, out.hitDistance.Is h ∧ h ≤ τ + 106 * centers.length / 2 ^ 53 * L := by
  have e : τ + 106 * centers.length / 2 ^ 53 * L = τ + 106 * centers.length * (1 / 2 ^ 53) * L := by ring
  have e2 : (400 : ℚ) / 2 ^ 53 * L ^ 2 = 400 * (1 / 2 ^ 53) * L ^ 2 := by ring
  rw [e] at hmax ⊢
  rw [e2] at hout hin
  have hS : 9 / 10 ≤ |p.x| + |p.y| + |p.z| ∧ |p.x| + |p.y| + |p.z| ≤ 6 := by
    obtain ⟨q1, q2⟩ := abs_le.1 hunit
    have q3 : (16 : ℚ) / 2 ^ 53 ≤ 1 / 10 := by norm_num
    have q4 := sum_sq_le p.x p.y p.z 0
    have q5 : p.x * p.x + p.y * p.y + p.z * p.z = Vec3.dot p p := rfl
    rw [abs_zero, add_zero, mul_zero, add_zero, q5] at q4
    obtain ⟨q6, q7, q8⟩ := comp_sq_le p
    have hx : |p.x| ≤ 2 := abs_le_of_sq_le_sq (by rw [pow_two]; linarith) (by norm_num)
    have hy : |p.y| ≤ 2 := abs_le_of_sq_le_sq (by rw [pow_two]; linarith) (by norm_num)
    have hz : |p.z| ≤ 2 := abs_le_of_sq_le_sq (by rw [pow_two]; linarith) (by norm_num)
    refine ⟨le_of_sq_le_sq (le_trans ?_ q4) (by positivity), by linarith⟩
    linarith
  have hsc : Scale (1 / 2 ^ 53) (1 / 2 ^ 1075) ((2 - 1 / 2 ^ 52) * 2 ^ 1023) (|p.x| + |p.y| + |p.z|) :=
    scale_double (le_trans (by decide +kernel) hS.1) (hS.2.trans (by decide +kernel))
  exact C69_closest _ _ _ _ rounds_double relative_double (by decide +kernel) L (scale_double hL1 hL2) part centers radii coll
    hcoll opts nodes stats hbuild origin direction minHit maxHit o p m ho hdir hmin hm hneg
    (hunit.trans_eq (by ring)) hsc hharm hsize j center radius hcj hrj c r hc hr hr0 d hd τ hτ hout hin hmax rayhit out hit h

theorem scale_float {L : ℚ} (h1 : 1 / 2 ^ 51 ≤ L) (h2 : L ≤ 2 ^ 60) :
    Scale (1 / 2 ^ 24) (1 / 2 ^ 150) ((2 - 1 / 2 ^ 23) * 2 ^ 127) L := by
  have h0 : (0 : ℚ) < 1 / 2 ^ 51 := by decide +kernel
  have h3 : (1 / 2 ^ 51 : ℚ) ^ 2 ≤ L ^ 2 := pow_le_pow_left₀ h0.le h1 2
  have h4 : L ^ 2 ≤ (2 ^ 60 : ℚ) ^ 2 := pow_le_pow_left₀ (h0.le.trans h1) h2 2
  have e1 : (1 / 2 ^ 150 : ℚ) ≤ (1 / 2 ^ 24) ^ 2 * (1 / 2 ^ 51) ^ 2 := by decide +kernel
  have e2 : 64 * (2 ^ 60 : ℚ) ^ 2 ≤ ((2 - 1 / 2 ^ 23) * 2 ^ 127) := by decide +kernel
  refine ⟨by decide +kernel, by decide +kernel, by decide +kernel, by decide +kernel, ?_, lt_of_lt_of_le h0 h1, ?_,
    by decide +kernel⟩
  · exact e1.trans (mul_le_mul_of_nonneg_left h3 (by positivity))
  · exact (mul_le_mul_of_nonneg_left h4 (by norm_num)).trans e2

theorem rounds_float : Format.binary32.Rounds (1 / 2 ^ 24) (1 / 2 ^ 150) ((2 - 1 / 2 ^ 23) * 2 ^ 127) := by
  have e1 : Format.pow2 (-24) = 1 / 2 ^ 24 := by decide +kernel
  have e2 : Format.pow2 (-150) = 1 / 2 ^ 150 := by decide +kernel
  have e3 : Format.binary32.maxVal = ((2 - 1 / 2 ^ 23) * 2 ^ 127) := by decide +kernel
  have h := Format.binary32_rounds
  rw [e1, e2, e3] at h
  exact h

theorem relative_float : Format.binary32.Relative (1 / 2 ^ 24) (1 / 2 ^ 126) ((2 - 1 / 2 ^ 23) * 2 ^ 127) := by
  have e1 : Format.pow2 (-24) = 1 / 2 ^ 24 := by decide +kernel
  have e2 : Format.binary32.tiny = 1 / 2 ^ 126 := by decide +kernel
  have e3 : Format.binary32.maxVal = ((2 - 1 / 2 ^ 23) * 2 ^ 127) := by decide +kernel
  have h := Format.binary32_relative
  rw [e1, e2, e3] at h
  exact h

/-- **C68** for `float`. -/
theorem C68_float (part : StdPartition) (coll : SphereColl Single) (opts : BuildOptions) (nodes : List (Node Single (Sphere Single)))
    (stats : Statistics) (hbuild : build part coll.toCollection opts [] = .ok (nodes, stats))
    (origin direction : Vec3 Single) (minHit maxHit : Single) {any : Bool} (o p : Vec3 ℚ) (m : ℚ)
    (ho : IsV origin o) (hdir : IsV direction p) (hmin : minHit.Is m) (hm : 0 ≤ m)
    (hp1 : 1 / 2 ^ 51 ≤ |p.x| + |p.y| + |p.z|) (hp2 : |p.x| + |p.y| + |p.z| ≤ 2 ^ 60) (rayhit out : RayHit Single)
    (h : traverse (sphereIx coll) nodes (Ray.make origin direction minHit maxHit any) rayhit = .ok (true, out)) :
    ∃ center radius d, coll.centers[out.primId]? = some center ∧ coll.radii[out.primId]? = some radius ∧
      IsV (Ray.make origin direction minHit maxHit any).direction d ∧ |Vec3.dot d d - 1| ≤ 11 / 2 ^ 24 ∧
      ∀ c r L, IsV center c → radius.Is r → |o.x - c.x| + |o.y - c.y| + |o.z - c.z| + |r| ≤ L → 1 / 2 ^ 51 ≤ L →
        L ≤ 2 ^ 60 → ∃ h, out.hitDistance.Is h ∧ 0 ≤ h ∧ |power c r (along o d h)| ≤ 2000 / 2 ^ 24 * L ^ 2 := by
  have hsc := scale_float hp1 hp2
  obtain ⟨center, radius, d, h1, h2, h3, h4⟩ := C68_hit_on_sphere _ _ _ rounds_float part coll opts nodes stats hbuild origin
    direction minHit maxHit o p m ho hdir hmin hm hsc rayhit out h
  obtain ⟨d', n, g1, g2, -⟩ := C68_direction _ _ _ rounds_float origin direction minHit maxHit any p hdir hsc
  obtain rfl := g1.unique h3
  refine ⟨center, radius, _, h1, h2, h3, g2.trans_eq (by ring), fun c r L hc hr hL hL1 hL2 => ?_⟩
  obtain ⟨k, k1, k2, k3⟩ := h4 c r L hc hr hL (scale_float hL1 hL2)
  exact ⟨k, k1, k2, k3.trans_eq (by ring)⟩

/-- **C69** for `float`. -/
theorem C69_float (L : ℚ) (hL1 : 1 / 2 ^ 51 ≤ L) (hL2 : L ≤ 2 ^ 60) (part : StdPartition)
    (centers : List (Vec3 Single)) (radii : List Single) (coll : SphereColl Single)
    (hcoll : SphereColl.make centers radii = .ok coll) (opts : BuildOptions) (nodes : List (Node Single (Sphere Single)))
    (stats : Statistics) (hbuild : build part coll.toCollection opts [] = .ok (nodes, stats))
    (origin direction : Vec3 Single) (minHit maxHit : Single) (o p : Vec3 ℚ) (m : ℚ)
    (ho : IsV origin o) (hdir : IsV direction p) (hmin : minHit.Is m) (hm : 0 ≤ m)
    (hneg : ∀ i, direction.get i ≠ .fin 0 true) (hunit : |Vec3.dot p p - 1| ≤ 16 / 2 ^ 24)
    (hharm : Harmless coll.toCollection (1 / 2 ^ 126) ((2 - 1 / 2 ^ 23) * 2 ^ 127) o p)
    (hsize : ∀ (i : Nat) (center : Vec3 Single) (radius : Single), coll.centers[i]? = some center → coll.radii[i]? = some radius →
      ∃ c r, IsV center c ∧ radius.Is r ∧ |o.x| + |o.y| + |o.z| + |c.x| + |c.y| + |c.z| + |r| ≤ L)
    (j : Nat) (center : Vec3 Single) (radius : Single) (hcj : coll.centers[j]? = some center)
    (hrj : coll.radii[j]? = some radius) (c : Vec3 ℚ) (r : ℚ) (hc : IsV center c) (hr : radius.Is r) (hr0 : 0 < r)
    (d : Vec3 ℚ) (hd : IsV (Ray.make origin direction minHit maxHit false).direction d) (τ : ℚ) (hτ : m < τ)
    (hout : 400 / 2 ^ 24 * L ^ 2 ≤ power c r (along o d m)) (hin : power c r (along o d τ) ≤ -(400 / 2 ^ 24 * L ^ 2))
    (hmax : maxHit = .inf false ∨ ∃ M, maxHit.Is M ∧ τ + 106 * centers.length / 2 ^ 24 * L < M)
    (rayhit out : RayHit Single) (hit : Bool)
    (h : traverse (sphereIx coll) nodes (Ray.make origin direction minHit maxHit false) rayhit = .ok (hit, out)) :
    hit = true ∧ ∃ h, out.hitDistance.Is h ∧ h ≤ τ + 106 * centers.length / 2 ^ 24 * L := by
  have e : τ + 106 * centers.length / 2 ^ 24 * L = τ + 106 * centers.length * (1 / 2 ^ 24) * L := by ring
  have e2 : (400 : ℚ) / 2 ^ 24 * L ^ 2 = 400 * (1 / 2 ^ 24) * L ^ 2 := by ring
  rw [e] at hmax ⊢
  rw [e2] at hout hin
  have hS : 9 / 10 ≤ |p.x| + |p.y| + |p.z| ∧ |p.x| + |p.y| + |p.z| ≤ 6 := by
    obtain ⟨q1, q2⟩ := abs_le.1 hunit
    have q3 : (16 : ℚ) / 2 ^ 24 ≤ 1 / 10 := by norm_num
    have q4 := sum_sq_le p.x p.y p.z 0
    have q5 : p.x * p.x + p.y * p.y + p.z * p.z = Vec3.dot p p := rfl
    rw [abs_zero, add_zero, mul_zero, add_zero, q5] at q4
    obtain ⟨q6, q7, q8⟩ := comp_sq_le p
    have hx : |p.x| ≤ 2 := abs_le_of_sq_le_sq (by rw [pow_two]; linarith) (by norm_num)
    have hy : |p.y| ≤ 2 := abs_le_of_sq_le_sq (by rw [pow_two]; linarith) (by norm_num)
    have hz : |p.z| ≤ 2 := abs_le_of_sq_le_sq (by rw [pow_two]; linarith) (by norm_num)
    refine ⟨le_of_sq_le_sq (le_trans ?_ q4) (by positivity), by linarith⟩
    linarith
  have hsc : Scale (1 / 2 ^ 24) (1 / 2 ^ 150) ((2 - 1 / 2 ^ 23) * 2 ^ 127) (|p.x| + |p.y| + |p.z|) :=
    scale_float (le_trans (by decide +kernel) hS.1) (hS.2.trans (by decide +kernel))
  exact C69_closest _ _ _ _ rounds_float relative_float (by decide +kernel) L (scale_float hL1 hL2) part centers radii coll
    hcoll opts nodes stats hbuild origin direction minHit maxHit o p m ho hdir hmin hm hneg
    (hunit.trans_eq (by ring)) hsc hharm hsize j center radius hcj hrj c r hc hr hr0 d hd τ hτ hout hin hmax rayhit out hit h

/-! ### Examples -/

deriving instance DecidableEq for SphereColl

theorem sample_size (i : Nat) (center : Vec3 Double) (radius : Double) (hc : sampleSpheres.centers[i]? = some center)
    (hr : sampleSpheres.radii[i]? = some radius) :
    ∃ c r, IsV center c ∧ radius.Is r ∧ |(4 : ℚ)| + |-5| + |1/2| + |c.x| + |c.y| + |c.z| + |r| ≤ 20 := by
  have dv : ∀ x y z x' y' z' : ℚ, ∀ sx sy sz, dvec x y z = ⟨.fin x' sx, .fin y' sy, .fin z' sz⟩ →
      IsV (dvec x y z) ⟨x', y', z'⟩ := by
    intro x y z x' y' z' sx sy sz e
    rw [e]
    exact ⟨⟨_, rfl⟩, ⟨_, rfl⟩, ⟨_, rfl⟩⟩
  have hi : i < 3 := (List.getElem?_eq_some_iff.1 hc).1
  have f1 : IsV (dvec 0 0 0) ⟨0, 0, 0⟩ := dv _ _ _ _ _ _ false false false (by decide +kernel)
  have f2 : IsV (dvec 4 0 0) ⟨4, 0, 0⟩ := dv _ _ _ _ _ _ false false false (by decide +kernel)
  have f3 : IsV (dvec 8 0 0) ⟨8, 0, 0⟩ := dv _ _ _ _ _ _ false false false (by decide +kernel)
  have f4 : (dbl 1).Is 1 := ⟨false, by decide +kernel⟩
  interval_cases i
  · cases hc; cases hr; exact ⟨_, _, f1, f4, by decide +kernel⟩
  · cases hc; cases hr; exact ⟨_, _, f2, f4, by decide +kernel⟩
  · cases hc; cases hr; exact ⟨_, _, f3, f4, by decide +kernel⟩

/-- The hypotheses of C69 are met by the sample spheres and a ray that passes the center of the second at distance 1/2: the
query finds it at a distance of at most five. -/
example (part : StdPartition) (opts : BuildOptions) (nodes : List (Node Double (Sphere Double))) (stats : Statistics)
    (hbuild : build part sampleSpheres.toCollection opts [] = .ok (nodes, stats)) (out : RayHit Double) (hit : Bool)
    (h : traverse (sphereIx sampleSpheres) nodes sampleRayY RayHit.fresh = .ok (hit, out)) :
    hit = true ∧ ∃ h, out.hitDistance.Is h ∧ h ≤ 5 + 106 * 3 / 2 ^ 53 * 20 := by
  have dv : ∀ x y z x' y' z' : ℚ, ∀ sx sy sz, dvec x y z = ⟨.fin x' sx, .fin y' sy, .fin z' sz⟩ →
      IsV (dvec x y z) ⟨x', y', z'⟩ := by
    intro x y z x' y' z' sx sy sz e
    rw [e]
    exact ⟨⟨_, rfl⟩, ⟨_, rfl⟩, ⟨_, rfl⟩⟩
  have d0 : dbl 0 = .fin 0 false := by decide +kernel
  have d1 : dbl 1 = .fin 1 false := by decide +kernel
  refine C69_double 20 (by decide +kernel) (by decide +kernel) part sampleSpheres.centers sampleSpheres.radii sampleSpheres
    (by decide +kernel) opts nodes stats hbuild (dvec 4 (-5) (1/2)) (dvec 0 1 0) (dbl 0) (dbl 100) ⟨4, -5, 1/2⟩ ⟨0, 1, 0⟩ 0
    (dv _ _ _ _ _ _ false true false (by decide +kernel)) (dv _ _ _ _ _ _ false false false (by decide +kernel))
    ⟨false, d0⟩ le_rfl (by decide +kernel) (by norm_num [Vec3.dot]) sample_harmless sample_size 1 (dvec 4 0 0) (dbl 1) rfl rfl
    ⟨4, 0, 0⟩ 1 (dv _ _ _ _ _ _ false false false (by decide +kernel)) ⟨false, d1⟩ (by norm_num) ⟨0, 1, 0⟩ ?_ 5 (by norm_num)
    (by decide +kernel) (by decide +kernel) (.inr ⟨100, ⟨false, by decide +kernel⟩, by norm_num [sampleSpheres]⟩)
    RayHit.fresh out hit h
  · have e : (Ray.make (dvec 4 (-5) (1/2)) (dvec 0 1 0) (dbl 0) (dbl 100) false).direction =
        ⟨.fin 0 false, .fin 1 false, .fin 0 false⟩ := by decide +kernel
    rw [e]
    exact ⟨⟨_, rfl⟩, ⟨_, rfl⟩, ⟨_, rfl⟩⟩

/-- C68 on the same scene: a ray that is slanted, so that its normalized direction is not exact; the query reports a hit on
sphere 0. -/
def sampleRaySlanted : Ray Double := Ray.make (dvec (1/4) (-5) (1/8)) (dvec 1 9 (1/4)) (dbl 0) (dbl 100) false

example : evalOk (do
      let (nodes, _) ← build stablePartition sampleSpheres.toCollection smallOptions []
      traverse (sphereIx sampleSpheres) nodes sampleRaySlanted RayHit.fresh)
    (fun r => r.1 && r.2.primId == 0) = true := by decide +kernel

/-- The point this ray reports is on the sphere up to `10^-10`. -/
example (part : StdPartition) (opts : BuildOptions) (nodes : List (Node Double (Sphere Double))) (stats : Statistics)
    (hbuild : build part sampleSpheres.toCollection opts [] = .ok (nodes, stats)) (out : RayHit Double)
    (h : traverse (sphereIx sampleSpheres) nodes sampleRaySlanted RayHit.fresh = .ok (true, out)) (hid : out.primId = 0) :
    ∃ d h, IsV sampleRaySlanted.direction d ∧ out.hitDistance.Is h ∧
      |power ⟨0, 0, 0⟩ 1 (along ⟨1/4, -5, 1/8⟩ d h)| ≤ 1 / 10 ^ 10 := by
  have dv : ∀ x y z x' y' z' : ℚ, ∀ sx sy sz, dvec x y z = ⟨.fin x' sx, .fin y' sy, .fin z' sz⟩ →
      IsV (dvec x y z) ⟨x', y', z'⟩ := by
    intro x y z x' y' z' sx sy sz e
    rw [e]
    exact ⟨⟨_, rfl⟩, ⟨_, rfl⟩, ⟨_, rfl⟩⟩
  obtain ⟨c, r, d, h1, h2, h3, -, h4⟩ := C68_double part sampleSpheres opts nodes stats hbuild _ _ (dbl 0) _ ⟨1/4, -5, 1/8⟩
    ⟨1, 9, 1/4⟩ 0 (dv _ _ _ _ _ _ false true false (by decide +kernel)) (dv _ _ _ _ _ _ false false false (by decide +kernel))
    ⟨false, by decide +kernel⟩ le_rfl (by decide +kernel) (by decide +kernel) RayHit.fresh out h
  rw [hid] at h1 h2
  cases h1
  cases h2
  obtain ⟨k, k1, -, k3⟩ := h4 ⟨0, 0, 0⟩ 1 20 (dv _ _ _ _ _ _ false false false (by decide +kernel))
    ⟨false, by decide +kernel⟩ (by decide +kernel) (by decide +kernel) (by decide +kernel)
  exact ⟨d, k, h3, k1, k3.trans (by norm_num)⟩

end Blazert
