/- C92: normals of cylinders, with rounding. -/
import Verif.Props.CylRound
import Verif.Proofs.CylShade

set_option autoImplicit false

namespace Blazert
open Scalar

section
variable {K : Type} [Field K] [LinearOrder K] [IsStrictOrderedRing K] [FloorRing K] {F : Fmt K}

/-- **C92**, general.  In any format that rounds monotonically, and whose finite results are accurate: when a query reports a hit on an
elliptic cylinder, the recorded normal has length 1 up to `11 u`, and the point at the reported distance is, up to rounding, either on a cap,
and then the normal is the axis pointing out of that cap, up to `160 u + ε` in each coordinate; or on the tube, and then the normal points
away from the axis along the gradient of the tube's equation at that point, up to `(4300 u + 260 ε) (L / m)²` (`m` is at most the smaller half
axis, `L` bounds the size and the distance) -- except that, if the origin is within the solid, it may be that gradient in the coordinates
of the cylinder instead of those of the scene, for the code forgets to turn it (C39).  Assumed is what C89 assumes, and that `(L / m)²`
times the unit of rounding is small. -/
theorem C92_cylinder_normal (u η hi : K) (hF : F.Rounds u η hi) (hfa : F.Faithful u η) (hodd : F.Odd) (hord : F.Ordered) (part : StdPartition)
    (hs1 : Scale u η hi (1 / 2)) (hs2 : Scale u η hi 8)
    (coll : CylColl (XF F)) (opts : BuildOptions) (nodes : List (Node (XF F) (Cylinder (XF F)))) (stats : Statistics)
    (hbuild : build part coll.toCollection opts [] = .ok (nodes, stats))
    (origin direction : Vec3 (XF F)) (minHit maxHit : XF F) {any : Bool} (o p : Vec3 K)
    (ho : IsV origin o) (hdir : IsV direction p)
    (hscale : Scale u η hi (|p.x| + |p.y| + |p.z|)) (rayhit out : RayHit (XF F))
    (h : traverse cylIx nodes (Ray.make origin direction minHit maxHit any) rayhit = .ok (true, out)) :
    ∃ center fa fb fh rotation d, coll.centers[out.primId]? = some center ∧ coll.as[out.primId]? = some fa ∧
      coll.bs[out.primId]? = some fb ∧ coll.heights[out.primId]? = some fh ∧ coll.rotations[out.primId]? = some rotation ∧
      IsV (Ray.make origin direction minHit maxHit any).direction d ∧
      ∀ c a b h R ε L ν μ m, IsV center c → fa.Is a → fb.Is b → fh.Is h → IsM rotation R → NearOrtho ε R → ε ≤ 1 / 1000 →
        ν ≤ a → ν ≤ b → 0 < h → |o.x - c.x| + |o.y - c.y| + |o.z - c.z| + a + b + h ≤ L → TubeScale u η hi L ν μ →
        0 < m → m ≤ a → m ≤ b → Scale u η hi (1 / L) → Scale u η hi (8 * L / m ^ 2) → (3000 * u + 200 * ε) * L ^ 2 ≤ m ^ 2 →
        (∀ e, IsV (rotation.trans.mulVec (Ray.make origin direction minHit maxHit any).direction) e → Slanted μ e) →
        60 * (u * ((a ^ 2 + b ^ 2) * L ^ 2)) ≤ |tubeE a b (R.trans.mulVec (o - c)).x (R.trans.mulVec (o - c)).y| ∨
          h / 2 + 10 * (u * L) < |(R.trans.mulVec (o - c)).z| →
        ∃ k n, out.hitDistance.Is k ∧ 0 ≤ k ∧ k ≤ 4 * L ∧ IsV out.normal n ∧ |Vec3.dot n n - 1| ≤ 11 * u ∧
          NearShade a b h ((700 * u + 40 * ε) * ((a ^ 2 + b ^ 2) * L ^ 2)) ((300 * u + 20 * ε) * L) (160 * u + ε)
            ((4300 * u + 260 * ε) * (L / m) ^ 2) (-(60 * (u * ((a ^ 2 + b ^ 2) * L ^ 2)))) (10 * (u * L)) R (R.trans.mulVec (o - c))
            (R.trans.mulVec (along o d k - c)) n := by
  obtain ⟨d, n, h1, h2, -⟩ := normalize_near hF hdir hscale
  have hquiet := cylinder_quiet (Ray.make origin direction minHit maxHit any)
  obtain ⟨ps, vs, rest, e1, e2, ⟨e3, e4, -⟩⟩ := traverse_tests hbuild hquiet h
  have e4 := e4 rfl
  set ray := Ray.make origin direction minHit maxHit any with hray
  obtain ⟨f1, f2⟩ := testAll_last hquiet (Inv := PlaneStart ray)
    (fun s q hs => Frame.start (cylIntersect_frame s q ray) hs) vs (cylIx.prepare ray) ⟨rfl, rfl, rfl⟩
  rw [← scan_eq_testAll] at f1 f2
  rcases f2 with f2 | ⟨q, hq, s', f3, f4⟩
  · rw [scanHit, f2, hquiet.start, XF.lt_irrefl] at e3
    cases e3
  have hqps : q ∈ ps := e2.subset (by simp [hq])
  obtain ⟨i, hi', hiq⟩ := mapM_mem_of_out e1 hqps
  obtain ⟨g0, g1, g2, g3, g4, g5⟩ := CylColl.prim_ok hiq
  obtain ⟨k1, k2⟩ := Frame.post (cylIntersect_frame s' q ray) f4 (e4 : planePost _ _ = _)
  have k3 : out.normal = Vec3.normalize (scan cylIx ray vs).normal := by
    have e4' : planePost (scan cylIx ray vs) _ = .ok out := e4
    simp only [planePost, Except.ok.injEq] at e4'
    rw [← e4']
  rw [k1, k2, k3, g0]
  refine ⟨q.center, q.a, q.b, q.height, q.rotation, d, g1, g2, g3, g4, g5, h1,
    fun c a b h R ε L ν μ m hc ha hb hh hR hε hε' haν hbν h0 hL hsc m0 ma mb hl1 hl2 hsm hsl hcl => ?_⟩
  have u0 := hs1.u_pos
  have ε0 := hε.rows.nonneg
  have o0 : 0 ≤ |o.x - c.x| + |o.y - c.y| + |o.z - c.z| := by positivity
  have a0 := m0.trans_le ma
  have b0 := m0.trans_le mb
  have hasp : ∀ x y : K, 0 < x → x ≤ L → m ≤ y → 1000 * (u * x ^ 2) ≤ y ^ 2 := by
    intro x y x0 hx hy
    have i1 : x ^ 2 ≤ L ^ 2 := pow_le_pow_left₀ x0.le hx 2
    have i2 : m ^ 2 ≤ y ^ 2 := pow_le_pow_left₀ m0.le hy 2
    have i3 : 1000 * u * x ^ 2 ≤ (3000 * u + 200 * ε) * L ^ 2 := mul_le_mul (by linarith) i1 (by positivity) (by positivity)
    linarith
  obtain ⟨k, n, a1, a2, a3, -, a4, a5, a6⟩ := cyl_hit_shade hF hfa hodd hord ray (i := s') (f3.1 ▸ ho) (f3.2.1 ▸ h1)
    ⟨hc, ha, hb, hh, hR, hε, haν, hbν, h0, hL, hsc, hasp a b a0 (by linarith) mb, hasp b a b0 (by linarith) ma, f3.2.1 ▸ hsl, hcl⟩ hε' h2
    hs1 hs2 m0 ma mb hl1 hl2 hsm f4
  exact ⟨k, n, a1, a2, a3, a4, a5, a6⟩

end

/-- **C92** for `double`: half axes and lengths between `2^-100` and `2^100`, and no component of the computed direction (other than
zeros) below `2^-150`. -/
theorem C92_double (part : StdPartition) (coll : CylColl Double) (opts : BuildOptions) (nodes : List (Node Double (Cylinder Double)))
    (stats : Statistics) (hbuild : build part coll.toCollection opts [] = .ok (nodes, stats))
    (origin direction : Vec3 Double) (minHit maxHit : Double) {any : Bool} (o p : Vec3 ℚ)
    (ho : IsV origin o) (hdir : IsV direction p)
    (hp1 : 1 / 2 ^ 484 ≤ |p.x| + |p.y| + |p.z|) (hp2 : |p.x| + |p.y| + |p.z| ≤ 2 ^ 500) (rayhit out : RayHit Double)
    (h : traverse cylIx nodes (Ray.make origin direction minHit maxHit any) rayhit = .ok (true, out)) :
    ∃ center fa fb fh rotation d, coll.centers[out.primId]? = some center ∧ coll.as[out.primId]? = some fa ∧
      coll.bs[out.primId]? = some fb ∧ coll.heights[out.primId]? = some fh ∧ coll.rotations[out.primId]? = some rotation ∧
      IsV (Ray.make origin direction minHit maxHit any).direction d ∧
      ∀ c a b h R ε L m, IsV center c → fa.Is a → fb.Is b → fh.Is h → IsM rotation R → NearOrtho ε R → ε ≤ 1 / 1000 →
        1 / 2 ^ 100 ≤ m → m ≤ a → m ≤ b → 0 < h → |o.x - c.x| + |o.y - c.y| + |o.z - c.z| + a + b + h ≤ L → L ≤ 2 ^ 100 →
        (3000 / 2 ^ 53 + 200 * ε) * L ^ 2 ≤ m ^ 2 →
        (∀ e, IsV (rotation.trans.mulVec (Ray.make origin direction minHit maxHit any).direction) e → Slanted (1 / 2 ^ 150) e) →
        60 / 2 ^ 53 * ((a ^ 2 + b ^ 2) * L ^ 2) ≤ |tubeE a b (R.trans.mulVec (o - c)).x (R.trans.mulVec (o - c)).y| ∨
          h / 2 + 10 / 2 ^ 53 * L < |(R.trans.mulVec (o - c)).z| →
        ∃ k n, out.hitDistance.Is k ∧ 0 ≤ k ∧ IsV out.normal n ∧ |Vec3.dot n n - 1| ≤ 11 / 2 ^ 53 ∧
          NearShade a b h ((700 / 2 ^ 53 + 40 * ε) * ((a ^ 2 + b ^ 2) * L ^ 2)) ((300 / 2 ^ 53 + 20 * ε) * L) (160 / 2 ^ 53 + ε)
            ((4300 / 2 ^ 53 + 260 * ε) * (L / m) ^ 2) (-(60 / 2 ^ 53 * ((a ^ 2 + b ^ 2) * L ^ 2))) (10 / 2 ^ 53 * L) R
            (R.trans.mulVec (o - c)) (R.trans.mulVec (along o d k - c)) n := by
  obtain ⟨center, fa, fb, fh, rotation, d, h1, h2, h3, h4, h5, h6, h7⟩ := C92_cylinder_normal _ _ _ rounds_double faithful_double
    Format.binary64_odd Format.binary64_ordered part (scale_double (by decide +kernel) (by decide +kernel))
    (scale_double (by decide +kernel) (by decide +kernel)) coll opts nodes stats hbuild origin direction minHit maxHit o p ho hdir
    (scale_double hp1 hp2) rayhit out h
  refine ⟨center, fa, fb, fh, rotation, d, h1, h2, h3, h4, h5, h6,
    fun c a b h R ε L m hc ha hb hh hR hε hε' hm ma mb h0 hL hL2 hsm hsl hcl => ?_⟩
  have hν : (0 : ℚ) < 1 / 2 ^ 100 := by decide +kernel
  have m0 : 0 < m := hν.trans_le hm
  have hpos : 0 ≤ |o.x - c.x| + |o.y - c.y| + |o.z - c.z| := by positivity
  have hL1 : 1 / 2 ^ 100 ≤ L := by linarith only [hL, hm, ma, mb, h0, hpos, hν]
  have L0 : 0 < L := hν.trans_le hL1
  have i1 : Scale (1 / 2 ^ 53) (1 / 2 ^ 1075) ((2 - 1 / 2 ^ 52) * 2 ^ 1023) (1 / L) := by
    refine scale_double (le_trans ?_ (one_div_le_one_div_of_le L0 hL2)) ((one_div_le_one_div_of_le hν hL1).trans ?_)
    · decide +kernel
    · decide +kernel
  have i2 : Scale (1 / 2 ^ 53) (1 / 2 ^ 1075) ((2 - 1 / 2 ^ 52) * 2 ^ 1023) (8 * L / m ^ 2) := by
    have mL : m ≤ L := by linarith only [hL, hpos, h0, ma, mb, m0]
    refine scale_double ?_ ?_
    · rw [le_div_iff₀ (by positivity)]
      have k1 : 1 / 2 ^ 484 * m ^ 2 ≤ 1 / 2 ^ 484 * (2 ^ 100 * L) := by
        refine mul_le_mul_of_nonneg_left ?_ (by decide +kernel)
        rw [pow_two]
        exact mul_le_mul (mL.trans hL2) mL m0.le (by decide +kernel)
      refine k1.trans ?_
      rw [← mul_assoc]
      exact mul_le_mul_of_nonneg_right (by decide +kernel) L0.le
    · refine (div_le_div₀ (by decide +kernel) (mul_le_mul_of_nonneg_left hL2 (by norm_num)) (pow_pos hν 2) (pow_le_pow_left₀ hν.le hm 2)).trans ?_
      decide +kernel
  obtain ⟨k, n, k1, k2, -, k3, k4, k5⟩ := h7 c a b h R ε L _ _ m hc ha hb hh hR hε hε' (hm.trans ma) (hm.trans mb) h0 hL
    (tubeScale_double hL1 hL2) m0 ma mb i1 i2 (le_trans (le_of_eq (by ring)) hsm) hsl
    (hcl.imp (fun hx => le_trans (le_of_eq (by ring)) hx) (fun hx => lt_of_le_of_lt (le_of_eq (by ring)) hx))
  refine ⟨k, n, k1, k2, k3, k4.trans_eq (by ring), ?_⟩
  rw [show (700 / 2 ^ 53 : ℚ) = 700 * (1 / 2 ^ 53) by ring, show (300 / 2 ^ 53 : ℚ) = 300 * (1 / 2 ^ 53) by ring,
    show (160 / 2 ^ 53 : ℚ) = 160 * (1 / 2 ^ 53) by ring, show (4300 / 2 ^ 53 : ℚ) = 4300 * (1 / 2 ^ 53) by ring,
    show 60 / 2 ^ 53 * ((a ^ 2 + b ^ 2) * L ^ 2) = 60 * (1 / 2 ^ 53 * ((a ^ 2 + b ^ 2) * L ^ 2)) by ring,
    show 10 / 2 ^ 53 * L = 10 * (1 / 2 ^ 53 * L) by ring]
  exact k5

/-- **C92** for `float`: half axes and lengths between `2^-10` and `2^10`, and no component of the computed direction (other than
zeros) below `2^-20`. -/
theorem C92_float (part : StdPartition) (coll : CylColl Single) (opts : BuildOptions) (nodes : List (Node Single (Cylinder Single)))
    (stats : Statistics) (hbuild : build part coll.toCollection opts [] = .ok (nodes, stats))
    (origin direction : Vec3 Single) (minHit maxHit : Single) {any : Bool} (o p : Vec3 ℚ)
    (ho : IsV origin o) (hdir : IsV direction p)
    (hp1 : 1 / 2 ^ 51 ≤ |p.x| + |p.y| + |p.z|) (hp2 : |p.x| + |p.y| + |p.z| ≤ 2 ^ 60) (rayhit out : RayHit Single)
    (h : traverse cylIx nodes (Ray.make origin direction minHit maxHit any) rayhit = .ok (true, out)) :
    ∃ center fa fb fh rotation d, coll.centers[out.primId]? = some center ∧ coll.as[out.primId]? = some fa ∧
      coll.bs[out.primId]? = some fb ∧ coll.heights[out.primId]? = some fh ∧ coll.rotations[out.primId]? = some rotation ∧
      IsV (Ray.make origin direction minHit maxHit any).direction d ∧
      ∀ c a b h R ε L m, IsV center c → fa.Is a → fb.Is b → fh.Is h → IsM rotation R → NearOrtho ε R → ε ≤ 1 / 1000 →
        1 / 2 ^ 10 ≤ m → m ≤ a → m ≤ b → 0 < h → |o.x - c.x| + |o.y - c.y| + |o.z - c.z| + a + b + h ≤ L → L ≤ 2 ^ 10 →
        (3000 / 2 ^ 24 + 200 * ε) * L ^ 2 ≤ m ^ 2 →
        (∀ e, IsV (rotation.trans.mulVec (Ray.make origin direction minHit maxHit any).direction) e → Slanted (1 / 2 ^ 20) e) →
        60 / 2 ^ 24 * ((a ^ 2 + b ^ 2) * L ^ 2) ≤ |tubeE a b (R.trans.mulVec (o - c)).x (R.trans.mulVec (o - c)).y| ∨
          h / 2 + 10 / 2 ^ 24 * L < |(R.trans.mulVec (o - c)).z| →
        ∃ k n, out.hitDistance.Is k ∧ 0 ≤ k ∧ IsV out.normal n ∧ |Vec3.dot n n - 1| ≤ 11 / 2 ^ 24 ∧
          NearShade a b h ((700 / 2 ^ 24 + 40 * ε) * ((a ^ 2 + b ^ 2) * L ^ 2)) ((300 / 2 ^ 24 + 20 * ε) * L) (160 / 2 ^ 24 + ε)
            ((4300 / 2 ^ 24 + 260 * ε) * (L / m) ^ 2) (-(60 / 2 ^ 24 * ((a ^ 2 + b ^ 2) * L ^ 2))) (10 / 2 ^ 24 * L) R
            (R.trans.mulVec (o - c)) (R.trans.mulVec (along o d k - c)) n := by
  obtain ⟨center, fa, fb, fh, rotation, d, h1, h2, h3, h4, h5, h6, h7⟩ := C92_cylinder_normal _ _ _ rounds_float faithful_float
    Format.binary32_odd Format.binary32_ordered part (scale_float (by decide +kernel) (by decide +kernel))
    (scale_float (by decide +kernel) (by decide +kernel)) coll opts nodes stats hbuild origin direction minHit maxHit o p ho hdir
    (scale_float hp1 hp2) rayhit out h
  refine ⟨center, fa, fb, fh, rotation, d, h1, h2, h3, h4, h5, h6,
    fun c a b h R ε L m hc ha hb hh hR hε hε' hm ma mb h0 hL hL2 hsm hsl hcl => ?_⟩
  have hν : (0 : ℚ) < 1 / 2 ^ 10 := by decide +kernel
  have m0 : 0 < m := hν.trans_le hm
  have hpos : 0 ≤ |o.x - c.x| + |o.y - c.y| + |o.z - c.z| := by positivity
  have hL1 : 1 / 2 ^ 10 ≤ L := by linarith only [hL, hm, ma, mb, h0, hpos, hν]
  have L0 : 0 < L := hν.trans_le hL1
  have i1 : Scale (1 / 2 ^ 24) (1 / 2 ^ 150) ((2 - 1 / 2 ^ 23) * 2 ^ 127) (1 / L) := by
    refine scale_float (le_trans ?_ (one_div_le_one_div_of_le L0 hL2)) ((one_div_le_one_div_of_le hν hL1).trans ?_)
    · decide +kernel
    · decide +kernel
  have i2 : Scale (1 / 2 ^ 24) (1 / 2 ^ 150) ((2 - 1 / 2 ^ 23) * 2 ^ 127) (8 * L / m ^ 2) := by
    have mL : m ≤ L := by linarith only [hL, hpos, h0, ma, mb, m0]
    refine scale_float ?_ ?_
    · rw [le_div_iff₀ (by positivity)]
      have k1 : 1 / 2 ^ 51 * m ^ 2 ≤ 1 / 2 ^ 51 * (2 ^ 10 * L) := by
        refine mul_le_mul_of_nonneg_left ?_ (by decide +kernel)
        rw [pow_two]
        exact mul_le_mul (mL.trans hL2) mL m0.le (by decide +kernel)
      refine k1.trans ?_
      rw [← mul_assoc]
      exact mul_le_mul_of_nonneg_right (by decide +kernel) L0.le
    · refine (div_le_div₀ (by decide +kernel) (mul_le_mul_of_nonneg_left hL2 (by norm_num)) (pow_pos hν 2) (pow_le_pow_left₀ hν.le hm 2)).trans ?_
      decide +kernel
  obtain ⟨k, n, k1, k2, -, k3, k4, k5⟩ := h7 c a b h R ε L _ _ m hc ha hb hh hR hε hε' (hm.trans ma) (hm.trans mb) h0 hL
    (tubeScale_float hL1 hL2) m0 ma mb i1 i2 (le_trans (le_of_eq (by ring)) hsm) hsl
    (hcl.imp (fun hx => le_trans (le_of_eq (by ring)) hx) (fun hx => lt_of_le_of_lt (le_of_eq (by ring)) hx))
  refine ⟨k, n, k1, k2, k3, k4.trans_eq (by ring), ?_⟩
  rw [show (700 / 2 ^ 24 : ℚ) = 700 * (1 / 2 ^ 24) by ring, show (300 / 2 ^ 24 : ℚ) = 300 * (1 / 2 ^ 24) by ring,
    show (160 / 2 ^ 24 : ℚ) = 160 * (1 / 2 ^ 24) by ring, show (4300 / 2 ^ 24 : ℚ) = 4300 * (1 / 2 ^ 24) by ring,
    show 60 / 2 ^ 24 * ((a ^ 2 + b ^ 2) * L ^ 2) = 60 * (1 / 2 ^ 24 * ((a ^ 2 + b ^ 2) * L ^ 2)) by ring,
    show 10 / 2 ^ 24 * L = 10 * (1 / 2 ^ 24 * L) by ring]
  exact k5

/-- So, for an origin outside of the solid, the normal is right on the whole surface. -/
theorem C92_outside {K : Type} [Field K] [LinearOrder K] {a b h e δ f g e' δ' : K} {R : Mat3 K} {P v n : Vec3 K}
    (hs : NearShade a b h e δ f g e' δ' R P v n) (hout : e' < tubeE a b P.x P.y ∨ h / 2 + δ' < |P.z|) :
    (∃ σ, (σ = 1 ∨ σ = -1) ∧ NearCap a b h e δ σ v ∧ ∀ j, |n.get j - σ * (perp R).get j| ≤ f) ∨
      (NearSide a b h e δ v ∧ NearDir g n (R.mulVec (tubeGrad a b v))) := by
  rcases hs with hs | ⟨h1, h2 | ⟨⟨h2, h3⟩, -⟩⟩
  · exact .inl hs
  · exact .inr ⟨h1, h2⟩
  · rcases hout with h4 | h4
    · exact absurd h2 (not_le.2 h4)
    · exact absurd h3 (not_le.2 h4)

/-! ### Examples -/

/-- The ray of the example of C89, from below: the normal is that of the lower cap or the turned gradient. -/
example (part : StdPartition) (opts : BuildOptions) (nodes : List (Node Double (Cylinder Double))) (stats : Statistics)
    (hbuild : build part sampleTubes.toCollection opts [] = .ok (nodes, stats)) (out : RayHit Double)
    (h : traverse cylIx nodes sampleTubeRay RayHit.fresh = .ok (true, out)) (hid : out.primId = 0) :
    ∃ d k n, IsV sampleTubeRay.direction d ∧ out.hitDistance.Is k ∧ IsV out.normal n ∧
      ((∃ σ : ℚ, (σ = 1 ∨ σ = -1) ∧ ∀ j, |n.get j - σ * (perp tiltQ).get j| ≤ 1 / 10 ^ 13) ∨
        NearDir (1 / 10 ^ 9) n (tiltQ.mulVec (tubeGrad 1 2 (tiltQ.trans.mulVec (along ⟨1/4, 1/8, -5⟩ d k - ⟨0, 0, 0⟩))))) := by
  have dv : ∀ x y z x' y' z' : ℚ, ∀ sx sy sz, dvec x y z = ⟨.fin x' sx, .fin y' sy, .fin z' sz⟩ →
      IsV (dvec x y z) ⟨x', y', z'⟩ := by
    intro x y z x' y' z' sx sy sz e
    rw [e]
    exact ⟨⟨_, rfl⟩, ⟨_, rfl⟩, ⟨_, rfl⟩⟩
  obtain ⟨c, fa, fb, fh, R, d, h1, h2, h3, h4, h5, h6, h7⟩ := C92_double part sampleTubes opts nodes stats hbuild _ _ (dbl 0) _
    ⟨1/4, 1/8, -5⟩ ⟨1/16, 1/32, 1⟩ (dv _ _ _ _ _ _ false false true (by decide +kernel))
    (dv _ _ _ _ _ _ false false false (by decide +kernel)) (by decide +kernel) (by decide +kernel) RayHit.fresh out h
  rw [hid] at h1 h2 h3 h4 h5
  cases h1
  cases h2
  cases h3
  cases h4
  cases h5
  obtain ⟨k, n, k1, -, k2, -, k3⟩ := h7 ⟨0, 0, 0⟩ 1 2 3 tiltQ (1 / 2 ^ 52) 12 1 (dv _ _ _ _ _ _ false false false (by decide +kernel))
    ⟨false, by decide +kernel⟩ ⟨false, by decide +kernel⟩ ⟨false, by decide +kernel⟩ tilt_is tilt_near (by decide +kernel)
    (by decide +kernel) (by decide +kernel) (by decide +kernel) (by decide +kernel) (by decide +kernel) (by decide +kernel)
    (by decide +kernel) (slanted_of_eval (by decide +kernel)) (.inr (by decide +kernel))
  refine ⟨d, k, n, h6, k1, k2, ?_⟩
  rcases C92_outside k3 (.inr (by decide +kernel)) with ⟨σ, s1, -, s2⟩ | ⟨-, l, l0, s2⟩
  · exact .inl ⟨σ, s1, fun j => (s2 j).trans (by decide +kernel)⟩
  · exact .inr ⟨l, l0, fun j => (s2 j).trans (by decide +kernel)⟩

/-- a slanted ray from the side, and one from within the tilted cylinder: both report its tube, the second with a normal that has not
been turned -/
example : evalOk (do
      let (nodes, _) ← build stablePartition sampleTubes.toCollection smallOptions []
      let r ← traverse cylIx nodes (Ray.make (dvec 5 (1/4) (1/8)) (dvec (-1) 0 (1/16)) (dbl 0) (dbl 100) false) RayHit.fresh
      let r' ← traverse cylIx nodes (Ray.make (dvec 0 (1/4) 0) (dvec 1 (1/8) (1/16)) (dbl 0) (dbl 100) false) RayHit.fresh
      pure (r, r'))
    (fun r => r.1.1 && r.1.2.primId == 0 && r.2.1 && r.2.2.primId == 0 && !(eq r.1.2.normal.z (nat 0)) && eq r.2.2.normal.z (nat 0)) = true := by
  decide +kernel

end Blazert
