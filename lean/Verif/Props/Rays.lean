/- C22-C24: what remains true of them for committed scenes, and how far C23 fails.  Exact real arithmetic. -/
import Verif.Props.Closest
import Verif.Proofs.Blind

set_option autoImplicit false

namespace Blazert
open Scalar

variable {F : Fmt ℝ}

/-! ### C22 -/

/-- **C22**.  If the direction is at least as long as a unit vector, before and after it is multiplied by `k > 0`, and
`min_hit_distance` is 0, the answer and the distance are the same.  Missing from the full claim: shorter directions (false, see
`C22_scaled_direction_misses`), other `min_hit_distance`, and what C01 excludes. -/
theorem C22_scaling_partial (hF : F.Exact) {s : Scene (XF F)} {rs : List Nat} (hist : History s rs)
    (hc : s.committed = true) (hgood : s.Good) (hdepth : DepthAtMost s 26) {origin direction direction' : Vec3 (XF F)}
    {minHit maxHit : XF F} {o d : Vec3 ℝ} {M k : ℝ} (hk : 0 < k) (hray : RayBase origin direction minHit maxHit o d 0 M)
    (hdir' : IsV direction' (Vec3.smul k d)) (hlen : 1 ≤ len d) (hlen' : 1 ≤ k * len d)
    (hnz : ∀ i, direction.get i ≠ .fin 0 true) (hnz' : ∀ i, direction'.get i ≠ .fin 0 true)
    (hoff : s.OffZFaces o d) (hclear : s.Clear (4 * F.eps) o (unit d) 0)
    (rh0 : RayHit (XF F)) (hrh0 : ∀ t, t < M → rh0.hitDistance.Above t) :
    ∃ hit rh rh', s.intersect1 (Ray.make origin direction minHit maxHit false) rh0 = .ok (hit, rh) ∧
      s.intersect1 (Ray.make origin direction' minHit maxHit false) rh0 = .ok (hit, rh') ∧
      (hit = true → SameDistance rh.hitDistance rh'.hitDistance) ∧ (hit = false → rh = rh') := by
  have hne : Vec3.smul k d ≠ ⟨0, 0, 0⟩ := by
    intro h
    have : len (Vec3.smul k d) = 0 := by rw [h]; simp [len, sq, Vec3.dot]
    rw [len_smul, abs_of_pos hk] at this
    linarith
  have hr1 : RayFor origin direction minHit maxHit o d 0 M := ⟨hray, .inr ⟨hlen, rfl⟩, hnz⟩
  have hr2 : RayFor origin direction' minHit maxHit o (Vec3.smul k d) 0 M :=
    ⟨⟨hray.org, hdir', hray.min, hray.max, hray.nonneg, hne⟩, .inr ⟨by rw [len_smul, abs_of_pos hk]; exact hlen', rfl⟩, hnz'⟩
  have hoff' : s.OffZFaces o (Vec3.smul k d) := by
    have hz : (Vec3.smul k d).z = 0 → d.z = 0 := by
      intro h
      rw [Vec3.smul_z] at h
      rcases mul_eq_zero.1 h with h | h
      · exact absurd h hk.ne'
      · exact h
    exact ⟨fun h => hoff.1 (hz h), fun h => hoff.2 (hz h), fun h => hoff.3 (hz h)⟩
  obtain ⟨hit, rh, e, e1, e2, e3⟩ := C01_closest_hit_partial hF hist hc hgood hdepth hr1 hoff hclear rh0 hrh0
  obtain ⟨hit', rh', f, f1, f2, f3⟩ := C01_closest_hit_partial hF hist hc hgood hdepth hr2 hoff'
    (by rw [unit_smul hk]; exact hclear) rh0 hrh0
  rw [unit_smul hk] at f1 f2
  obtain rfl : hit = hit' := by rw [Bool.eq_iff_iff, e1, f1]
  refine ⟨hit, rh, rh', e, f, fun h => ?_, fun h => (e3 h).trans (f3 h).symm⟩
  obtain ⟨t, a1, a2, a3⟩ := e2 h
  obtain ⟨t', b1, b2, b3⟩ := f2 h
  obtain rfl : t = t' := le_antisymm (a3 _ _ _ b2) (b3 _ _ _ a2)
  exact ⟨t, a1, b1⟩

/-- the hypotheses can be met: the sample scene, direction `(0,0,-1)` and `k = 7` -/
example : ∃ s : Scene (XF exactFmt), History s [0, 1] ∧ s.committed = true ∧ s.Good ∧ DepthAtMost s 26 ∧
    RayBase (rvec 0 0 10 : Vec3 (XF exactFmt)) (rvec 0 0 (-1)) (rl 0) (rl 100) ⟨0, 0, 10⟩ ⟨0, 0, -1⟩ 0 100 ∧
    IsV (rvec 0 0 (-7) : Vec3 (XF exactFmt)) (Vec3.smul 7 ⟨0, 0, -1⟩) ∧ 1 ≤ len ⟨0, 0, -1⟩ ∧ 1 ≤ 7 * len ⟨0, 0, -1⟩ ∧
    s.OffZFaces ⟨0, 0, 10⟩ ⟨0, 0, -1⟩ ∧ s.Clear (4 * exactFmt.eps) ⟨0, 0, 10⟩ (unit ⟨0, 0, -1⟩) 0 ∧
    (∀ t, t < 100 → (RayHit.fresh : RayHit (XF exactFmt)).hitDistance.Above t) := by
  obtain ⟨s, h1, h2, h3, h4, h5, h6, h7⟩ := sample_scene sampleBalls sampleBalls_small
  have hl : len ⟨0, 0, -1⟩ = 1 := by norm_num [len, sq, Vec3.dot]
  refine ⟨s, h1, h2, h3, h4, (sample_ray _).toRayBase, ?_, hl.ge, by rw [hl]; norm_num, offZ_of_ne (by norm_num),
    sample_clear h6 _, sample_fresh le_rfl⟩
  have : Vec3.smul 7 ⟨0, 0, -1⟩ = (⟨0, 0, -7⟩ : Vec3 ℝ) := by ext <;> norm_num [Vec3.smul]
  rw [this]
  exact rvec_is _ _ _

/-! ### C23 -/

/-- **C23 fails for nearly every query**: if any component of the direction is `-0.0`, the traversal of any BVH reports a miss,
whatever it contains, unless the origin lies in the plane of a face of the root box to which the ray is parallel. -/
theorem C23_negative_zero_blind {P I : Type} (hF : F.Exact) (ix : Intersector (XF F) P I) (nodes : List (Node (XF F) P))
    (root : Node (XF F) P) (hroot : nodes[0]? = some root) {mn mx : Vec3 ℝ} (hmn : IsV root.min mn) (hmx : IsV root.max mx)
    (hbox : ∀ i, mn.get i ≤ mx.get i) {origin direction : Vec3 (XF F)} {minHit maxHit : XF F}
    {o d : Vec3 ℝ} {m M : ℝ} (hray : RayBase origin direction minHit maxHit o d m M)
    (hface : ∀ i, d.get i = 0 → o.get i ≠ mn.get i ∧ o.get i ≠ mx.get i)
    (i : Fin 3) (hi : direction.get i = .fin 0 true) (any : Bool)
    (hprep : ix.hitDistance (ix.prepare (Ray.make origin direction minHit maxHit any)) = maxHit) (rh : RayHit (XF F)) :
    traverse ix nodes (Ray.make origin direction minHit maxHit any) rh = .ok (false, rh) := by
  refine traverse_root_rejected ix nodes _ rh root hroot ?_ ?_
  · exact intersectNode_negZero hF root origin direction minHit maxHit any maxHit mn mx o d m M hmn hmx hray.org hray.dir hbox
      hface i hi hray.min (.inr ⟨M, hray.max, le_rfl⟩)
  · rw [hprep]
    exact XF.irreflLt F _

/-- the intersectors satisfy the hypothesis -/
example (mesh : MeshColl (XF F)) (coll : SphereColl (XF F)) (ray : Ray (XF F)) :
    (triIx mesh).hitDistance ((triIx mesh).prepare ray) = ray.maxHit ∧
    (sphereIx coll).hitDistance ((sphereIx coll).prepare ray) = ray.maxHit ∧
    planeIx.hitDistance (planeIx.prepare ray) = ray.maxHit := ⟨rfl, rfl, rfl⟩

/-- ... and so do a box, a ray through its middle and the ray's component `-0.0` -/
example : IsV (rvec (-1) (-1) (-1) : Vec3 (XF exactFmt)) ⟨-1, -1, -1⟩ ∧ IsV (rvec 1 1 1 : Vec3 (XF exactFmt)) ⟨1, 1, 1⟩ ∧
    RayBase (rvec 0 0 3 : Vec3 (XF exactFmt)) ⟨.fin 0 true, rl 0, rl (-1)⟩ (rl 0) (rl 100) ⟨0, 0, 3⟩ ⟨0, 0, -1⟩ 0 100 ∧
    (∀ i, (⟨0, 0, -1⟩ : Vec3 ℝ).get i = 0 → (⟨0, 0, 3⟩ : Vec3 ℝ).get i ≠ (⟨-1, -1, -1⟩ : Vec3 ℝ).get i ∧
      (⟨0, 0, 3⟩ : Vec3 ℝ).get i ≠ (⟨1, 1, 1⟩ : Vec3 ℝ).get i) := by
  refine ⟨rvec_is _ _ _, rvec_is _ _ _, ⟨rvec_is _ _ _, ⟨⟨true, rfl⟩, rl_is _, rl_is _⟩, rl_is _, rl_is _, le_rfl, ?_⟩, ?_⟩
  · intro h
    have := congrArg Vec3.z h
    norm_num at this
  · intro i
    match i with
    | 0 => norm_num [Vec3.get]
    | 1 => norm_num [Vec3.get]
    | 2 => norm_num [Vec3.get]

/-- **C23**, what remains: writing `-0.0` for some zeros of the direction never makes a hit of a miss, and never makes a hit
closer. -/
theorem C23_no_new_hits_partial (hF : F.Exact) {s : Scene (XF F)} {rs : List Nat} (hist : History s rs)
    (hc : s.committed = true) (hgood : s.Good) (hdepth : DepthAtMost s 26) {origin direction direction' : Vec3 (XF F)}
    {minHit maxHit : XF F} {o d : Vec3 ℝ} {m M : ℝ} (hray : RayFor origin direction minHit maxHit o d m M)
    (hdir' : IsV direction' d) (hoff : s.OffZFaces o d) (hclear : s.Clear (4 * F.eps) o (unit d) m)
    (rh0 rh' : RayHit (XF F)) (hrh0 : ∀ t, t < M → rh0.hitDistance.Above t)
    (h : s.intersect1 (Ray.make origin direction' minHit maxHit false) rh0 = .ok (true, rh')) :
    ∃ rh t t', s.intersect1 (Ray.make origin direction minHit maxHit false) rh0 = .ok (true, rh) ∧
      rh.hitDistance.Is t ∧ rh'.hitDistance.Is t' ∧ t ≤ t' := by
  have hbase' : RayBase origin direction' minHit maxHit o d m M :=
    ⟨hray.org, hdir', hray.min, hray.max, hray.nonneg, hray.ne_zero⟩
  obtain ⟨t', e1, e2, e3⟩ := C02_no_phantom_partial hF hist hc hgood.toPlain hbase' false rh0 rh' hrh0 h
  have hit := hclear _ _ _ e3.near
  obtain ⟨b, rh, f, f1, f2, f3⟩ := C01_closest_hit_partial hF hist hc hgood hdepth hray hoff hclear rh0 hrh0
  obtain rfl : b = true := f1.2 ⟨_, _, t', hit, e2⟩
  obtain ⟨t, g1, g2, g3⟩ := f2 rfl
  exact ⟨rh, t, t', f, g1, e1, g3 _ _ _ hit⟩

/-! ### C24 -/

/-- **C24**, what remains: rays lying in an x face or a y face of any bounding box lose nothing; C01 holds for them, with no
hypothesis about boxes, if the z component of the direction is not zero. -/
theorem C24_xy_faces_partial (hF : F.Exact) {s : Scene (XF F)} {rs : List Nat} (hist : History s rs)
    (hc : s.committed = true) (hgood : s.Good) (hdepth : DepthAtMost s 26) {origin direction : Vec3 (XF F)} {minHit maxHit : XF F}
    {o d : Vec3 ℝ} {m M : ℝ} (hray : RayFor origin direction minHit maxHit o d m M) (hz : d.z ≠ 0)
    (rh0 : RayHit (XF F)) (hrh0 : ∀ t, t < M → rh0.hitDistance.Above t) (g i : Nat) (t : ℝ)
    (hhit : s.Hit o (unit d) m g i t) (ht : t < M) :
    ∃ rh t', s.intersect1 (Ray.make origin direction minHit maxHit false) rh0 = .ok (true, rh) ∧ rh.hitDistance.Is t' ∧ t' ≤ t := by
  obtain ⟨b, rh, f, f1, f2⟩ := C01_closest_hit_tolerance_partial hF hist hc hgood hdepth hray
    ⟨fun e => absurd e hz, fun e => absurd e hz, fun e => absurd e hz⟩ rh0 hrh0
  cases b with
  | false => exact absurd ((f1 rfl).2 g i t hhit) (not_le.2 ht)
  | true =>
    obtain ⟨t', g1, _, _, g4⟩ := f2 rfl
    exact ⟨rh, t', f, g1, g4 g i t hhit⟩

end Blazert
