/- C89: hits on cylinders, with rounding. -/
import Verif.Props.PlaneRound
import Verif.Proofs.CylHit
import Verif.Proofs.Ordered

set_option autoImplicit false

namespace Blazert
open Scalar

section
variable {K : Type} [Field K] [LinearOrder K] [IsStrictOrderedRing K] [FloorRing K] {F : Fmt K}

/-- **C89**, general.  In any format that rounds monotonically, and whose finite results are accurate: a hit on an elliptic cylinder
reported by a query (with or without `any_hit`) is genuine up to rounding.  The point at the reported distance (along the stored
direction), in the coordinates of the cylinder named in the record, is near its surface: it satisfies the equation of the tube
`b² x² + a² y² - a² b² = 0` within `(700 u + 40 ε) (a² + b²) L²` and is between the caps, or it is at the height of a cap within
`(300 u + 20 ε) L` and within the tube.  Here `L` bounds the size of the cylinder and its distance, `ε` is the error of its
matrix.  Assumed are that the origin is not on the tube between the caps (there the code may report a point on a cap's plane far outside the
tube, see C36), that neither half axis is smaller than the other by a factor of more than `1000 u`, and that no component of the computed
direction is so small that underflow matters. -/
theorem C89_hit_on_cylinder (u η hi : K) (hF : F.Rounds u η hi) (hfa : F.Faithful u η) (hodd : F.Odd) (hord : F.Ordered) (part : StdPartition)
    (coll : CylColl (XF F)) (opts : BuildOptions) (nodes : List (Node (XF F) (Cylinder (XF F)))) (stats : Statistics)
    (hbuild : build part coll.toCollection opts [] = .ok (nodes, stats))
    (origin direction : Vec3 (XF F)) (minHit maxHit : XF F) {any : Bool} (o p : Vec3 K)
    (ho : IsV origin o) (hdir : IsV direction p)
    (hscale : Scale u η hi (|p.x| + |p.y| + |p.z|)) (rayhit out : RayHit (XF F))
    (h : traverse cylIx nodes (Ray.make origin direction minHit maxHit any) rayhit = .ok (true, out)) :
    ∃ center fa fb fh rotation d, coll.centers[out.primId]? = some center ∧ coll.as[out.primId]? = some fa ∧
      coll.bs[out.primId]? = some fb ∧ coll.heights[out.primId]? = some fh ∧ coll.rotations[out.primId]? = some rotation ∧
      IsV (Ray.make origin direction minHit maxHit any).direction d ∧
      ∀ c a b h R ε L ν μ, IsV center c → fa.Is a → fb.Is b → fh.Is h → IsM rotation R → NearOrtho ε R → ε ≤ 1 / 1000 →
        ν ≤ a → ν ≤ b → 0 < h → |o.x - c.x| + |o.y - c.y| + |o.z - c.z| + a + b + h ≤ L → TubeScale u η hi L ν μ →
        1000 * (u * a ^ 2) ≤ b ^ 2 → 1000 * (u * b ^ 2) ≤ a ^ 2 →
        (∀ e, IsV (rotation.trans.mulVec (Ray.make origin direction minHit maxHit any).direction) e → Slanted μ e) →
        60 * (u * ((a ^ 2 + b ^ 2) * L ^ 2)) ≤ |tubeE a b (R.trans.mulVec (o - c)).x (R.trans.mulVec (o - c)).y| ∨
          h / 2 + 10 * (u * L) < |(R.trans.mulVec (o - c)).z| →
        ∃ k, out.hitDistance.Is k ∧ 0 ≤ k ∧ k ≤ 4 * L ∧
          NearCylinder a b h ((700 * u + 40 * ε) * ((a ^ 2 + b ^ 2) * L ^ 2)) ((300 * u + 20 * ε) * L)
            (R.trans.mulVec (along o d k - c)) := by
  obtain ⟨d, n, h1, h2, -⟩ := normalize_near hF hdir hscale
  have hquiet := cylinder_quiet (Ray.make origin direction minHit maxHit any)
  obtain ⟨ps, vs, rest, e1, e2, ⟨e3, e4, -⟩⟩ := traverse_tests hbuild hquiet h
  have e4 := e4 rfl
  set ray := Ray.make origin direction minHit maxHit any with hray
  obtain ⟨f1, f2⟩ := testAll_last hquiet (Inv := PlaneStart ray)
    (fun s q hs => Frame.start (cylIntersect_frame s q ray) hs) vs (cylIx.prepare ray) ⟨rfl, rfl, rfl⟩
  rw [← scan_eq_testAll] at f1 f2
  rcases f2 with f2 | ⟨q, hq, s', f3, f4⟩
  · rw [scanHit, f2, hquiet.start, XF.lt_irrefl] at e3
    cases e3
  have hqps : q ∈ ps := e2.subset (by simp [hq])
  obtain ⟨i, hi', hiq⟩ := mapM_mem_of_out e1 hqps
  obtain ⟨g0, g1, g2, g3, g4, g5⟩ := CylColl.prim_ok hiq
  obtain ⟨k1, k2⟩ := Frame.post (cylIntersect_frame s' q ray) f4 (e4 : planePost _ _ = _)
  rw [k1, k2, g0]
  refine ⟨q.center, q.a, q.b, q.height, q.rotation, d, g1, g2, g3, g4, g5, h1,
    fun c a b h R ε L ν μ hc ha hb hh hR hε hε' haν hbν h0 hL hsc asp1 asp2 hsl hcl => ?_⟩
  obtain ⟨k, a1, a2, a3, -, a4⟩ := cyl_hit_near hF hfa hodd hord ray (i := s') (f3.1 ▸ ho) (f3.2.1 ▸ h1)
    ⟨hc, ha, hb, hh, hR, hε, haν, hbν, h0, hL, hsc, asp1, asp2, f3.2.1 ▸ hsl, hcl⟩ hε' h2 f4
  exact ⟨k, a1, a2, a3, a4⟩

end

theorem tubeScale_double {L : ℚ} (h1 : 1 / 2 ^ 100 ≤ L) (h2 : L ≤ 2 ^ 100) :
    TubeScale (1 / 2 ^ 53) (1 / 2 ^ 1075) ((2 - 1 / 2 ^ 52) * 2 ^ 1023) L (1 / 2 ^ 100) (1 / 2 ^ 150) := by
  have h0 : (0 : ℚ) < 1 / 2 ^ 100 := by decide +kernel
  have e1 : (1 / 2 ^ 484 : ℚ) ≤ 1 / 2 ^ 100 := by decide +kernel
  have e2 : (2 ^ 100 : ℚ) ≤ 2 ^ 500 := by decide +kernel
  have e3 : (1 + 2 ^ 100 : ℚ) ≤ 2 ^ 101 := by decide +kernel
  have hQ0 : 0 ≤ 1 + L := by linarith only [h0, h1]
  have hQ : 1 + L ≤ 2 ^ 101 := by linarith only [h2, e3]
  have Q2 : (1 + L) ^ 2 ≤ (2 ^ 101) ^ 2 := pow_le_pow_left₀ hQ0 hQ 2
  have Q3 : (1 + L) ^ 3 ≤ (2 ^ 101) ^ 3 := pow_le_pow_left₀ hQ0 hQ 3
  have Q4 : (1 + L) ^ 4 ≤ (2 ^ 101) ^ 4 := pow_le_pow_left₀ hQ0 hQ 4
  have k1 : 2 ^ 12 * ((1 / 2 ^ 1075) * (2 ^ 101) ^ 2) ≤ (1 / 2 ^ 53 : ℚ) * (1 / 2 ^ 150 * (1 / 2 ^ 100)) ^ 3 := by decide +kernel
  have k2 : 2 ^ 12 * ((1 / 2 ^ 1075) * (2 ^ 101) ^ 2) ≤ (1 / 2 ^ 53 : ℚ) * (1 / 2 ^ 100) ^ 4 := by decide +kernel
  have k3 : 2 ^ 10 * (2 ^ 101) ^ 4 ≤ ((2 - 1 / 2 ^ 52) * 2 ^ 1023 : ℚ) * (1 / 2 ^ 150) ^ 2 := by decide +kernel
  have k4 : 2 ^ 10 * (2 ^ 101) ^ 3 ≤ ((2 - 1 / 2 ^ 52) * 2 ^ 1023 : ℚ) * (1 / 2 ^ 150 * (1 / 2 ^ 100)) ^ 2 := by decide +kernel
  have k5 : (0 : ℚ) ≤ 1 / 2 ^ 1075 := by decide +kernel
  have k6 := mul_le_mul_of_nonneg_left (mul_le_mul_of_nonneg_left Q2 k5) (show (0 : ℚ) ≤ 2 ^ 12 by norm_num)
  have k7 := mul_le_mul_of_nonneg_left Q4 (show (0 : ℚ) ≤ 2 ^ 10 by norm_num)
  have k8 := mul_le_mul_of_nonneg_left Q3 (show (0 : ℚ) ≤ 2 ^ 10 by norm_num)
  exact ⟨scale_double (e1.trans h1) (h2.trans e2), h0, by decide +kernel, by decide +kernel, by decide +kernel, k6.trans k1, k6.trans k2,
    k7.trans k3, k8.trans k4⟩

theorem tubeScale_float {L : ℚ} (h1 : 1 / 2 ^ 10 ≤ L) (h2 : L ≤ 2 ^ 10) :
    TubeScale (1 / 2 ^ 24) (1 / 2 ^ 150) ((2 - 1 / 2 ^ 23) * 2 ^ 127) L (1 / 2 ^ 10) (1 / 2 ^ 20) := by
  have h0 : (0 : ℚ) < 1 / 2 ^ 10 := by decide +kernel
  have e1 : (1 / 2 ^ 51 : ℚ) ≤ 1 / 2 ^ 10 := by decide +kernel
  have e2 : (2 ^ 10 : ℚ) ≤ 2 ^ 60 := by decide +kernel
  have e3 : (1 + 2 ^ 10 : ℚ) ≤ 2 ^ 11 := by decide +kernel
  have hQ0 : 0 ≤ 1 + L := by linarith only [h0, h1]
  have hQ : 1 + L ≤ 2 ^ 11 := by linarith only [h2, e3]
  have Q2 : (1 + L) ^ 2 ≤ (2 ^ 11) ^ 2 := pow_le_pow_left₀ hQ0 hQ 2
  have Q3 : (1 + L) ^ 3 ≤ (2 ^ 11) ^ 3 := pow_le_pow_left₀ hQ0 hQ 3
  have Q4 : (1 + L) ^ 4 ≤ (2 ^ 11) ^ 4 := pow_le_pow_left₀ hQ0 hQ 4
  have k1 : 2 ^ 12 * ((1 / 2 ^ 150) * (2 ^ 11) ^ 2) ≤ (1 / 2 ^ 24 : ℚ) * (1 / 2 ^ 20 * (1 / 2 ^ 10)) ^ 3 := by decide +kernel
  have k2 : 2 ^ 12 * ((1 / 2 ^ 150) * (2 ^ 11) ^ 2) ≤ (1 / 2 ^ 24 : ℚ) * (1 / 2 ^ 10) ^ 4 := by decide +kernel
  have k3 : 2 ^ 10 * (2 ^ 11) ^ 4 ≤ ((2 - 1 / 2 ^ 23) * 2 ^ 127 : ℚ) * (1 / 2 ^ 20) ^ 2 := by decide +kernel
  have k4 : 2 ^ 10 * (2 ^ 11) ^ 3 ≤ ((2 - 1 / 2 ^ 23) * 2 ^ 127 : ℚ) * (1 / 2 ^ 20 * (1 / 2 ^ 10)) ^ 2 := by decide +kernel
  have k5 : (0 : ℚ) ≤ 1 / 2 ^ 150 := by decide +kernel
  have k6 := mul_le_mul_of_nonneg_left (mul_le_mul_of_nonneg_left Q2 k5) (show (0 : ℚ) ≤ 2 ^ 12 by norm_num)
  have k7 := mul_le_mul_of_nonneg_left Q4 (show (0 : ℚ) ≤ 2 ^ 10 by norm_num)
  have k8 := mul_le_mul_of_nonneg_left Q3 (show (0 : ℚ) ≤ 2 ^ 10 by norm_num)
  exact ⟨scale_float (e1.trans h1) (h2.trans e2), h0, by decide +kernel, by decide +kernel, by decide +kernel, k6.trans k1, k6.trans k2,
    k7.trans k3, k8.trans k4⟩

/-- **C89** for `double`: half axes and lengths between `2^-100` and `2^100`, and no component of the computed direction (other than
zeros) below `2^-150`. -/
theorem C89_double (part : StdPartition) (coll : CylColl Double) (opts : BuildOptions) (nodes : List (Node Double (Cylinder Double)))
    (stats : Statistics) (hbuild : build part coll.toCollection opts [] = .ok (nodes, stats))
    (origin direction : Vec3 Double) (minHit maxHit : Double) {any : Bool} (o p : Vec3 ℚ)
    (ho : IsV origin o) (hdir : IsV direction p)
    (hp1 : 1 / 2 ^ 484 ≤ |p.x| + |p.y| + |p.z|) (hp2 : |p.x| + |p.y| + |p.z| ≤ 2 ^ 500) (rayhit out : RayHit Double)
    (h : traverse cylIx nodes (Ray.make origin direction minHit maxHit any) rayhit = .ok (true, out)) :
    ∃ center fa fb fh rotation d, coll.centers[out.primId]? = some center ∧ coll.as[out.primId]? = some fa ∧
      coll.bs[out.primId]? = some fb ∧ coll.heights[out.primId]? = some fh ∧ coll.rotations[out.primId]? = some rotation ∧
      IsV (Ray.make origin direction minHit maxHit any).direction d ∧ |Vec3.dot d d - 1| ≤ 11 / 2 ^ 53 ∧
      ∀ c a b h R ε L, IsV center c → fa.Is a → fb.Is b → fh.Is h → IsM rotation R → NearOrtho ε R → ε ≤ 1 / 1000 →
        1 / 2 ^ 100 ≤ a → 1 / 2 ^ 100 ≤ b → 0 < h → |o.x - c.x| + |o.y - c.y| + |o.z - c.z| + a + b + h ≤ L → L ≤ 2 ^ 100 →
        1000 * a ^ 2 ≤ 2 ^ 53 * b ^ 2 → 1000 * b ^ 2 ≤ 2 ^ 53 * a ^ 2 →
        (∀ e, IsV (rotation.trans.mulVec (Ray.make origin direction minHit maxHit any).direction) e → Slanted (1 / 2 ^ 150) e) →
        60 / 2 ^ 53 * ((a ^ 2 + b ^ 2) * L ^ 2) ≤ |tubeE a b (R.trans.mulVec (o - c)).x (R.trans.mulVec (o - c)).y| ∨
          h / 2 + 10 / 2 ^ 53 * L < |(R.trans.mulVec (o - c)).z| →
        ∃ k, out.hitDistance.Is k ∧ 0 ≤ k ∧
          NearCylinder a b h ((700 / 2 ^ 53 + 40 * ε) * ((a ^ 2 + b ^ 2) * L ^ 2)) ((300 / 2 ^ 53 + 20 * ε) * L)
            (R.trans.mulVec (along o d k - c)) := by
  have hsc := scale_double hp1 hp2
  obtain ⟨center, fa, fb, fh, rotation, d, h1, h2, h3, h4, h5, h6, h7⟩ := C89_hit_on_cylinder _ _ _ rounds_double faithful_double
    Format.binary64_odd Format.binary64_ordered part coll opts nodes stats hbuild origin direction minHit maxHit o p ho hdir hsc rayhit out h
  obtain ⟨d', n, g1, g2, -⟩ := C68_direction _ _ _ rounds_double origin direction minHit maxHit any p hdir hsc
  obtain rfl := g1.unique h6
  refine ⟨center, fa, fb, fh, rotation, _, h1, h2, h3, h4, h5, h6, g2.trans_eq (by ring),
    fun c a b h R ε L hc ha hb hh hR hε hε' haν hbν h0 hL hL2 asp1 asp2 hsl hcl => ?_⟩
  have hν : (0 : ℚ) < 1 / 2 ^ 100 := by decide +kernel
  have hpos : 0 ≤ |o.x - c.x| + |o.y - c.y| + |o.z - c.z| := by positivity
  obtain ⟨k, k1, k2, -, k3⟩ := h7 c a b h R ε L _ _ hc ha hb hh hR hε hε' haν hbν h0 hL
    (tubeScale_double (by linarith only [hL, haν, hbν, h0, hpos, hν]) hL2)
    (by rw [one_div_mul_eq_div, mul_div_assoc', div_le_iff₀ (by positivity), mul_comm (b ^ 2)]; exact asp1)
    (by rw [one_div_mul_eq_div, mul_div_assoc', div_le_iff₀ (by positivity), mul_comm (a ^ 2)]; exact asp2) hsl
    (hcl.imp (fun hx => le_trans (le_of_eq (by ring)) hx) (fun hx => lt_of_le_of_lt (le_of_eq (by ring)) hx))
  refine ⟨k, k1, k2, ?_⟩
  rw [show (700 / 2 ^ 53 : ℚ) = 700 * (1 / 2 ^ 53) by ring, show (300 / 2 ^ 53 : ℚ) = 300 * (1 / 2 ^ 53) by ring]
  exact k3

/-- **C89** for `float`: half axes and lengths between `2^-10` and `2^10`, and no component of the computed direction (other than
zeros) below `2^-20`. -/
theorem C89_float (part : StdPartition) (coll : CylColl Single) (opts : BuildOptions) (nodes : List (Node Single (Cylinder Single)))
    (stats : Statistics) (hbuild : build part coll.toCollection opts [] = .ok (nodes, stats))
    (origin direction : Vec3 Single) (minHit maxHit : Single) {any : Bool} (o p : Vec3 ℚ)
    (ho : IsV origin o) (hdir : IsV direction p)
    (hp1 : 1 / 2 ^ 51 ≤ |p.x| + |p.y| + |p.z|) (hp2 : |p.x| + |p.y| + |p.z| ≤ 2 ^ 60) (rayhit out : RayHit Single)
    (h : traverse cylIx nodes (Ray.make origin direction minHit maxHit any) rayhit = .ok (true, out)) :
    ∃ center fa fb fh rotation d, coll.centers[out.primId]? = some center ∧ coll.as[out.primId]? = some fa ∧
      coll.bs[out.primId]? = some fb ∧ coll.heights[out.primId]? = some fh ∧ coll.rotations[out.primId]? = some rotation ∧
      IsV (Ray.make origin direction minHit maxHit any).direction d ∧ |Vec3.dot d d - 1| ≤ 11 / 2 ^ 24 ∧
      ∀ c a b h R ε L, IsV center c → fa.Is a → fb.Is b → fh.Is h → IsM rotation R → NearOrtho ε R → ε ≤ 1 / 1000 →
        1 / 2 ^ 10 ≤ a → 1 / 2 ^ 10 ≤ b → 0 < h → |o.x - c.x| + |o.y - c.y| + |o.z - c.z| + a + b + h ≤ L → L ≤ 2 ^ 10 →
        1000 * a ^ 2 ≤ 2 ^ 24 * b ^ 2 → 1000 * b ^ 2 ≤ 2 ^ 24 * a ^ 2 →
        (∀ e, IsV (rotation.trans.mulVec (Ray.make origin direction minHit maxHit any).direction) e → Slanted (1 / 2 ^ 20) e) →
        60 / 2 ^ 24 * ((a ^ 2 + b ^ 2) * L ^ 2) ≤ |tubeE a b (R.trans.mulVec (o - c)).x (R.trans.mulVec (o - c)).y| ∨
          h / 2 + 10 / 2 ^ 24 * L < |(R.trans.mulVec (o - c)).z| →
        ∃ k, out.hitDistance.Is k ∧ 0 ≤ k ∧
          NearCylinder a b h ((700 / 2 ^ 24 + 40 * ε) * ((a ^ 2 + b ^ 2) * L ^ 2)) ((300 / 2 ^ 24 + 20 * ε) * L)
            (R.trans.mulVec (along o d k - c)) := by
  have hsc := scale_float hp1 hp2
  obtain ⟨center, fa, fb, fh, rotation, d, h1, h2, h3, h4, h5, h6, h7⟩ := C89_hit_on_cylinder _ _ _ rounds_float faithful_float
    Format.binary32_odd Format.binary32_ordered part coll opts nodes stats hbuild origin direction minHit maxHit o p ho hdir hsc rayhit out h
  obtain ⟨d', n, g1, g2, -⟩ := C68_direction _ _ _ rounds_float origin direction minHit maxHit any p hdir hsc
  obtain rfl := g1.unique h6
  refine ⟨center, fa, fb, fh, rotation, _, h1, h2, h3, h4, h5, h6, g2.trans_eq (by ring),
    fun c a b h R ε L hc ha hb hh hR hε hε' haν hbν h0 hL hL2 asp1 asp2 hsl hcl => ?_⟩
  have hν : (0 : ℚ) < 1 / 2 ^ 10 := by decide +kernel
  have hpos : 0 ≤ |o.x - c.x| + |o.y - c.y| + |o.z - c.z| := by positivity
  obtain ⟨k, k1, k2, -, k3⟩ := h7 c a b h R ε L _ _ hc ha hb hh hR hε hε' haν hbν h0 hL
    (tubeScale_float (by linarith only [hL, haν, hbν, h0, hpos, hν]) hL2)
    (by rw [one_div_mul_eq_div, mul_div_assoc', div_le_iff₀ (by positivity), mul_comm (b ^ 2)]; exact asp1)
    (by rw [one_div_mul_eq_div, mul_div_assoc', div_le_iff₀ (by positivity), mul_comm (a ^ 2)]; exact asp2) hsl
    (hcl.imp (fun hx => le_trans (le_of_eq (by ring)) hx) (fun hx => lt_of_le_of_lt (le_of_eq (by ring)) hx))
  refine ⟨k, k1, k2, ?_⟩
  rw [show (700 / 2 ^ 24 : ℚ) = 700 * (1 / 2 ^ 24) by ring, show (300 / 2 ^ 24 : ℚ) = 300 * (1 / 2 ^ 24) by ring]
  exact k3

/-! ### Examples -/

instance (μ : ℚ) (d : Vec3 ℚ) : Decidable (Slanted μ d) := by unfold Slanted; infer_instance

/-- whether a computed direction is slanted -/
def slantedB (μ : ℚ) (v : Vec3 Double) : Bool :=
  match v.x, v.y, v.z with
  | .fin x _, .fin y _, .fin z _ => decide (Slanted μ ⟨x, y, z⟩)
  | _, _, _ => false

theorem slanted_of_eval {μ : ℚ} {v : Vec3 Double} (h : slantedB μ v = true) : ∀ e, IsV v e → Slanted μ e := by
  intro e he
  obtain ⟨x, y, z⟩ := v
  obtain ⟨⟨sx, hx⟩, ⟨sy, hy⟩, ⟨sz, hz⟩⟩ := he
  simp only at hx hy hz
  subst hx hy hz
  exact of_decide_eq_true h

/-- two cylinders, a tilted elliptic one, and a round one -/
def sampleTubes : CylColl Double :=
  { centers := [dvec 0 0 0, dvec 1 0 9]
    as := [dbl 1, dbl 2]
    bs := [dbl 2, dbl 2]
    heights := [dbl 3, dbl 1]
    rotations := [tilt, idMat]
    boxes := [cylBox (dvec 0 0 0) (dbl 1) (dbl 2) (dbl 3) tilt, cylBox (dvec 1 0 9) (dbl 2) (dbl 2) (dbl 1) idMat] }

/-- a slanted ray from below -/
def sampleTubeRay : Ray Double := Ray.make (dvec (1/4) (1/8) (-5)) (dvec (1/16) (1/32) 1) (dbl 0) (dbl 100) false

/-- it hits the tilted cylinder first -/
example : evalOk (do
      let (nodes, _) ← build stablePartition sampleTubes.toCollection smallOptions []
      traverse cylIx nodes sampleTubeRay RayHit.fresh)
    (fun r => r.1 && r.2.primId == 0) = true := by decide +kernel

/-- The point that this ray reports is near the surface of the cylinder. -/
example (part : StdPartition) (opts : BuildOptions) (nodes : List (Node Double (Cylinder Double))) (stats : Statistics)
    (hbuild : build part sampleTubes.toCollection opts [] = .ok (nodes, stats)) (out : RayHit Double)
    (h : traverse cylIx nodes sampleTubeRay RayHit.fresh = .ok (true, out)) (hid : out.primId = 0) :
    ∃ d k, IsV sampleTubeRay.direction d ∧ out.hitDistance.Is k ∧
      NearCylinder 1 2 3 (1 / 10 ^ 9) (1 / 10 ^ 11) (tiltQ.trans.mulVec (along ⟨1/4, 1/8, -5⟩ d k - ⟨0, 0, 0⟩)) := by
  have dv : ∀ x y z x' y' z' : ℚ, ∀ sx sy sz, dvec x y z = ⟨.fin x' sx, .fin y' sy, .fin z' sz⟩ →
      IsV (dvec x y z) ⟨x', y', z'⟩ := by
    intro x y z x' y' z' sx sy sz e
    rw [e]
    exact ⟨⟨_, rfl⟩, ⟨_, rfl⟩, ⟨_, rfl⟩⟩
  obtain ⟨c, fa, fb, fh, R, d, h1, h2, h3, h4, h5, h6, -, h7⟩ := C89_double part sampleTubes opts nodes stats hbuild _ _ (dbl 0) _
    ⟨1/4, 1/8, -5⟩ ⟨1/16, 1/32, 1⟩ (dv _ _ _ _ _ _ false false true (by decide +kernel))
    (dv _ _ _ _ _ _ false false false (by decide +kernel)) (by decide +kernel) (by decide +kernel) RayHit.fresh out h
  rw [hid] at h1 h2 h3 h4 h5
  cases h1
  cases h2
  cases h3
  cases h4
  cases h5
  obtain ⟨k, k1, -, k3⟩ := h7 ⟨0, 0, 0⟩ 1 2 3 tiltQ (1 / 2 ^ 52) 12 (dv _ _ _ _ _ _ false false false (by decide +kernel))
    ⟨false, by decide +kernel⟩ ⟨false, by decide +kernel⟩ ⟨false, by decide +kernel⟩ tilt_is tilt_near (by decide +kernel)
    (by decide +kernel) (by decide +kernel) (by decide +kernel) (by decide +kernel) (by decide +kernel) (by decide +kernel)
    (by decide +kernel) (slanted_of_eval (by decide +kernel)) (.inr (by decide +kernel))
  refine ⟨d, k, h6, k1, ?_⟩
  have e1 : (700 / 2 ^ 53 + 40 * (1 / 2 ^ 52)) * (((1 : ℚ) ^ 2 + 2 ^ 2) * 12 ^ 2) ≤ 1 / 10 ^ 9 := by decide +kernel
  have e2 : (300 / 2 ^ 53 + 20 * (1 / 2 ^ 52)) * (12 : ℚ) ≤ 1 / 10 ^ 11 := by decide +kernel
  rcases k3 with ⟨m1, m2⟩ | ⟨m1, m2⟩
  · exact .inl ⟨m1.trans e1, m2.trans (by linarith)⟩
  · exact .inr ⟨m1.trans e2, m2.trans e1⟩

end Blazert
