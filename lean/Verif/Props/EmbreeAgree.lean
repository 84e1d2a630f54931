/- C55, C56, C58 and C59 with rounding: the callbacks of spheres and planes against each other, the native tests and the limits. -/
import Verif.Proofs.EmbreeAgree
import Verif.Props.EmbreeRound
import Verif.Props.NormalRound
import Verif.Props.Embree

set_option autoImplicit false

namespace Blazert
open Scalar

/-- **C55** for spheres in `float`: if the ray is clearly outside the sphere at `tnear`, whatever `tfar` is.  Missing: rays which start
inside, see `C55_sphere_from_inside`, or within rounding of the surface. -/
theorem C55_spheres_float_partial (L : ℚ) (hL1 : 1 / 2 ^ 51 ≤ L) (hL2 : L ≤ 2 ^ 60) (s : EmbSphere Single) (instID : Nat) (inf : Single)
    (rh : RtcRayHit Single) (o d c : Vec3 ℚ) (r m : ℚ) (ho : IsV rh.ray.org o) (hd : IsV rh.ray.dir d) (hm : rh.ray.tnear.Is m)
    (hN : |Vec3.dot d d - 1| ≤ 11 / 2 ^ 24) (hc : IsV s.center c) (hr : s.radius.Is r)
    (hL : |o.x - c.x| + |o.y - c.y| + |o.z - c.z| + |r| ≤ L) (hout : 400 / 2 ^ 24 * L ^ 2 ≤ power c r (along o d m)) :
    OcclusionAgrees inf (.sphere s) instID rh :=
  EmbSphere.occluded_agree rounds_float (scale_float hL1 hL2) s instID inf ho hd hm (hN.trans_eq (by ring)) hc hr hL
    (le_trans (by apply le_of_eq; ring) hout)

/-- **C56** for spheres in `float`: if the native test accepts, the callback records a hit with the same distance up to rounding (and if it
does not, the callback records nothing, `C56_sphere_answers`).  Missing: the same distance exactly; the native test takes the smaller root, the
callback may take the greater one if they differ by rounding only. -/
theorem C56_spheres_float_partial (L : ℚ) (hL1 : 1 / 2 ^ 51 ≤ L) (hL2 : L ≤ 2 ^ 60) (s : EmbSphere Single) (instID : Nat)
    (rh : RtcRayHit Single) (ray : Ray Single) (o d c : Vec3 ℚ) (r m : ℚ) (ho : IsV rh.ray.org o) (hd : IsV rh.ray.dir d)
    (hm : rh.ray.tnear.Is m) (hm0 : 0 ≤ m) (hN : |Vec3.dot d d - 1| ≤ 11 / 2 ^ 24) (hc : IsV s.center c) (hr : s.radius.Is r)
    (hL : |o.x - c.x| + |o.y - c.y| + |o.z - c.z| + |r| ≤ L)
    (hhit : (sphereIntersect rh.ray.sphereI s.native ray).2 = true) :
    ∃ h h' x n, Records rh (s.intersect instID rh) s.geomID x n ∧ x.Is h ∧
      (sphereIntersect rh.ray.sphereI s.native ray).1.hd.Is h' ∧ |h - h'| ≤ 330 / 2 ^ 24 * L := by
  obtain ⟨h, h', x, n, h1, h2, h3, h4, -⟩ := EmbSphere.agree_near rounds_float (scale_float hL1 hL2) s instID ho hd hm hm0
    (hN.trans_eq (by ring)) hc hr hL ray hhit
  exact ⟨h, h', x, n, h1, h2, h3, h4.trans_eq (by ring)⟩

/-- **C58** for spheres in `float`: the distance is the smallest distance of the point to a point of the sphere, up to rounding. -/
theorem C58_sphere_float (L : ℚ) (hL1 : 1 / 2 ^ 51 ≤ L) (hL2 : L ≤ 2 ^ 60) (s : EmbSphere Single) (point : Vec3 Single) (c p : Vec3 ℚ)
    (r : ℚ) (hc : IsV s.center c) (hr : s.radius.Is r) (hr0 : 0 ≤ r) (hp : IsV point p)
    (hL : |c.x - p.x| + |c.y - p.y| + |c.z - p.z| + r ≤ L) :
    ∃ v y, (s.distance point).Is v ∧ IsLeast {x | ∃ q, OnSphere c.toReal r q ∧ x = dist3 p.toReal q} y ∧
      |(v : ℝ) - y| ≤ 25 / 2 ^ 24 * L :=
  C88_float L hL1 hL2 s.native point c p r hc hr hr0 hp hL

/-- **C59** for spheres in `float`: a recorded distance is between `tnear` and `tfar`, up to rounding.  Missing: exactly; the roots are compared
with the limits, the length of the root times the direction is recorded. -/
theorem C59_spheres_float_partial (L : ℚ) (hL1 : 1 / 2 ^ 51 ≤ L) (hL2 : L ≤ 2 ^ 60) (s : EmbSphere Single) (instID : Nat)
    (rh : RtcRayHit Single) (o d c : Vec3 ℚ) (r m : ℚ) (ho : IsV rh.ray.org o) (hd : IsV rh.ray.dir d)
    (hm : rh.ray.tnear.Is m) (hm0 : 0 ≤ m) (hN : |Vec3.dot d d - 1| ≤ 11 / 2 ^ 24) (hc : IsV s.center c) (hr : s.radius.Is r)
    (hL : |o.x - c.x| + |o.y - c.y| + |o.z - c.z| + |r| ≤ L) :
    s.intersect instID rh = rh ∨ ∃ h x n, Records rh (s.intersect instID rh) s.geomID x n ∧ x.Is h ∧ m - 110 / 2 ^ 24 * L < h ∧
      ∀ M, rh.ray.tfar.Is M → h < M + 220 / 2 ^ 24 * L := by
  cases hhit : (sphereIntersect rh.ray.sphereI s.native (Ray.make' rh.ray.org rh.ray.dir)).2 with
  | false => exact .inl ((C56_sphere_answers s instID rh _).1 hhit)
  | true =>
    obtain ⟨h, h', x, n, h1, h2, -, -, h3, h4⟩ := EmbSphere.agree_near rounds_float (scale_float hL1 hL2) s instID ho hd hm hm0
      (hN.trans_eq (by ring)) hc hr hL _ hhit
    refine .inr ⟨h, x, n, h1, h2, lt_of_eq_of_lt (by ring) h3, fun M hM => (h4 M hM).trans_eq (by ring)⟩

/-- **C59** for planes in `float`, with a rotation that is orthogonal up to `ε`: a recorded distance is between `tnear` and `tfar`, up to
rounding. -/
theorem C59_planes_float_partial (L ε : ℚ) (hL1 : 1 / 2 ^ 51 ≤ L) (hL2 : L ≤ 2 ^ 60) (hε : ε ≤ 1 / 1000) (p : EmbPlane Single)
    (instID : Nat) (rh : RtcRayHit Single) (o d c : Vec3 ℚ) (a b m : ℚ) (R : Mat3 ℚ) (ho : IsV rh.ray.org o) (hd : IsV rh.ray.dir d)
    (hm : rh.ray.tnear.Is m) (hm0 : 0 ≤ m) (hN : |Vec3.dot d d - 1| ≤ 11 / 2 ^ 24) (hc : IsV p.center c) (ha : p.d1.Is a)
    (hb : p.d2.Is b) (hR : IsM p.rot R) (hort : NearOrtho ε R)
    (hL : |o.x - c.x| + |o.y - c.y| + |o.z - c.z| + |a| + |b| ≤ L) :
    p.intersect instID rh = rh ∨ ∃ h x n, Records rh (p.intersect instID rh) p.geomID x n ∧ x.Is h ∧
      m - (152 / 2 ^ 24 + 10 * ε) * L < h ∧ ∀ M, rh.ray.tfar.Is M → h < M + (152 / 2 ^ 24 + 10 * ε) * L := by
  rcases EmbPlane.limits_near (L := L) rounds_float faithful_float Format.binary32_odd (scale_float hL1 hL2) (p := p) instID ho hd hm hm0
    (hN.trans_eq (by ring)) ⟨hc, ha, hb, hR, hort, hL⟩ hε with h | ⟨h, x, n, h1, h2, h3, h4⟩
  · exact .inl h
  · exact .inr ⟨h, x, n, h1, h2, lt_of_eq_of_lt (by ring) h3, fun M hM => (h4 M hM).trans_eq (by ring)⟩

/-- **C59** is false for spheres in `float`: for a direction of length `1 + 2^-22` a hit is recorded, and `tfar` grows. -/
theorem C59_sphere_false :
    let ray := embRtc32 (svec (-5) 0 0) (svec (1 + 1/2^22) 0 0) (sgl 0) (sgl (4 + 1/2^21))
    ((⟨svec 0 0 0, sgl 1, 3⟩ : EmbSphere Single).intersect 0 ray).hit.geomID = 3 ∧
    lt ray.ray.tfar ((⟨svec 0 0 0, sgl 1, 3⟩ : EmbSphere Single).intersect 0 ray).ray.tfar = true := by
  constructor <;> decide +kernel

/-! ### Examples -/

/-- the ball of radius 1/3, as `float` has it, seen from `(-5,1/8,1/16)` -/
def thirdSphere : EmbSphere Single := ⟨svec 0 0 0, sgl (1/3), 3⟩

def thirdRay : RtcRayHit Single := embRtc32 (svec (-5) (1/8) (1/16)) (svec 1 0 0) (sgl 0) (sgl 100)

theorem third_org : IsV thirdRay.ray.org ⟨-5, 1/8, 1/16⟩ :=
  ⟨⟨true, by decide +kernel⟩, ⟨false, by decide +kernel⟩, ⟨false, by decide +kernel⟩⟩

theorem third_dir : IsV thirdRay.ray.dir ⟨1, 0, 0⟩ :=
  ⟨⟨false, by decide +kernel⟩, ⟨false, by decide +kernel⟩, ⟨false, by decide +kernel⟩⟩

theorem third_near : thirdRay.ray.tnear.Is 0 := ⟨false, by decide +kernel⟩

theorem third_center : IsV thirdSphere.center ⟨0, 0, 0⟩ :=
  ⟨⟨false, by decide +kernel⟩, ⟨false, by decide +kernel⟩, ⟨false, by decide +kernel⟩⟩

theorem third_radius : thirdSphere.radius.Is (11184811 / 2 ^ 25) := ⟨false, by decide +kernel⟩

/-- the native test accepts, so both callbacks report a hit, and the distances agree up to `330 * 6 / 2^24` -/
example : (∃ h h' x n, Records thirdRay (thirdSphere.intersect 0 thirdRay) 3 x n ∧ x.Is h ∧
      (sphereIntersect thirdRay.ray.sphereI thirdSphere.native embRay0).1.hd.Is h' ∧ |h - h'| ≤ 330 / 2 ^ 24 * 6) ∧
    thirdSphere.occluded (.inf false) thirdRay.ray = thirdRay.ray.block (.inf false) ∧
    ∃ h x n, Records thirdRay (thirdSphere.intersect 0 thirdRay) 3 x n ∧ x.Is h ∧ 0 - 110 / 2 ^ 24 * 6 < h ∧ h < 100 + 220 / 2 ^ 24 * 6 := by
  have hne : thirdSphere.intersect 0 thirdRay ≠ thirdRay := by
    intro h
    have : (thirdSphere.intersect 0 thirdRay).hit.geomID = thirdRay.hit.geomID := by rw [h]
    revert this
    decide +kernel
  refine ⟨C56_spheres_float_partial 6 (by norm_num) (by norm_num) _ 0 _ embRay0 _ _ _ _ _ third_org third_dir third_near le_rfl
    (by norm_num [Vec3.dot]) third_center third_radius (by norm_num [abs_of_pos]) (by decide +kernel), ?_, ?_⟩
  · rcases C55_spheres_float_partial 6 (by norm_num) (by norm_num) thirdSphere 0 (.inf false) thirdRay _ _ _ _ _ third_org third_dir
      third_near (by norm_num [Vec3.dot]) third_center third_radius (by norm_num [abs_of_pos])
      (by norm_num [power, along, Vec3.dot]) with h | h
    · exact absurd h.1 hne
    · exact h.2
  · rcases C59_spheres_float_partial 6 (by norm_num) (by norm_num) thirdSphere 0 thirdRay _ _ _ _ _ third_org third_dir third_near le_rfl
      (by norm_num [Vec3.dot]) third_center third_radius (by norm_num [abs_of_pos]) with h | ⟨h, x, n, h1, h2, h3, h4⟩
    · exact absurd h hne
    · exact ⟨h, x, n, h1, h2, h3, h4 100 ⟨false, by decide +kernel⟩⟩

/-- the distance of `(1,2,3)` to the sphere -/
example : ∃ v y, (thirdSphere.distance (svec 1 2 3)).Is v ∧
    IsLeast {x | ∃ q, OnSphere (⟨0, 0, 0⟩ : Vec3 ℚ).toReal ((11184811 / 2 ^ 25 : ℚ) : ℝ) q ∧ x = dist3 (⟨1, 2, 3⟩ : Vec3 ℚ).toReal q} y ∧
      |(v : ℝ) - y| ≤ 25 / 2 ^ 24 * ((7 : ℚ) : ℝ) :=
  C58_sphere_float 7 (by norm_num) (by norm_num) _ _ _ _ _ third_center third_radius (by norm_num)
    ⟨⟨false, by decide +kernel⟩, ⟨false, by decide +kernel⟩, ⟨false, by decide +kernel⟩⟩ (by norm_num)

/-- a rectangle with sides 2/3 and 2, hit obliquely from `(-4,0,3)` -/
example : ∃ h x n, Records (embRtc32 (svec (-4) 0 3) (svec (4/5) 0 (-3/5)) (sgl 1) (sgl 100))
    ((⟨svec 0 0 0, sgl (2/3), sgl 2, ⟨svec 1 0 0, svec 0 1 0, svec 0 0 1⟩, 3⟩ : EmbPlane Single).intersect 0
      (embRtc32 (svec (-4) 0 3) (svec (4/5) 0 (-3/5)) (sgl 1) (sgl 100))) 3 x n ∧ x.Is h ∧
    1 - (152 / 2 ^ 24 + 10 * 0) * 10 < h ∧ h < 100 + (152 / 2 ^ 24 + 10 * 0) * 10 := by
  have hortho : NearOrtho (0 : ℚ) ⟨⟨1, 0, 0⟩, ⟨0, 1, 0⟩, ⟨0, 0, 1⟩⟩ := by constructor <;> constructor <;> decide +kernel
  have f0 : (sgl 0).Is 0 := ⟨false, by decide +kernel⟩
  have f1 : (sgl 1).Is 1 := ⟨false, by decide +kernel⟩
  rcases C59_planes_float_partial 10 0 (by norm_num) (by norm_num) (by norm_num)
    ⟨svec 0 0 0, sgl (2/3), sgl 2, ⟨svec 1 0 0, svec 0 1 0, svec 0 0 1⟩, 3⟩ 0
    (embRtc32 (svec (-4) 0 3) (svec (4/5) 0 (-3/5)) (sgl 1) (sgl 100)) ⟨-4, 0, 3⟩ ⟨13421773 / 2 ^ 24, 0, -10066330 / 2 ^ 24⟩ ⟨0, 0, 0⟩
    (11184811 / 2 ^ 24) 2 1 ⟨⟨1, 0, 0⟩, ⟨0, 1, 0⟩, ⟨0, 0, 1⟩⟩
    ⟨⟨true, by decide +kernel⟩, f0, ⟨false, by decide +kernel⟩⟩ ⟨⟨false, by decide +kernel⟩, f0, ⟨true, by decide +kernel⟩⟩ f1 (by norm_num)
    (by decide +kernel) ⟨f0, f0, f0⟩ ⟨false, by decide +kernel⟩ ⟨false, by decide +kernel⟩
    ⟨⟨f1, f0, f0⟩, ⟨f0, f1, f0⟩, ⟨f0, f0, f1⟩⟩ hortho (by decide +kernel) with h | ⟨h, x, n, h1, h2, h3, h4⟩
  · exfalso
    have := congrArg (fun y => y.hit.geomID) h
    revert this
    decide +kernel
  · exact ⟨h, x, n, h1, h2, h3, h4 100 ⟨false, by decide +kernel⟩⟩

end Blazert
