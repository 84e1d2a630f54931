/- Rays that start on a surface and leave it (C97). -/
import Verif.Proofs.SphereRound
import Verif.Proofs.PlaneRound
import Verif.Proofs.TriRound

set_option autoImplicit false
set_option linter.unusedSectionVars false

namespace Blazert
open Scalar

section
variable {K : Type} [Field K] [LinearOrder K] [IsStrictOrderedRing K] [FloorRing K] {F : Fmt K} {u η hi L ε : K}

/-- a ray that leaves a sphere does not hit it beyond its lower limit -/
theorem sphere_leaves (hF : F.Rounds u η hi) (hs : Scale u η hi L) {i : SphereI (XF F)} {s : Sphere (XF F)}
    (ray : Ray (XF F)) {o d c : Vec3 K} {r m δ κ : K} (ho : IsV i.rayOrg o) (hd : IsV i.rayDir d) (hc : IsV s.center c)
    (hr : s.radius.Is r) (hm : i.minHit.Is m) (hm0 : 0 ≤ m) (hN : |Vec3.dot d d - 1| ≤ 11 * u)
    (hL : |o.x - c.x| + |o.y - c.y| + |o.z - c.z| + |r| ≤ L) (hstart : -δ ≤ Vec3.dot (o - c) (o - c) - r * r)
    (hκ : 0 ≤ κ) (hout : κ ≤ Vec3.dot (o - c) d) (hfar : δ + 2100 * (u * L ^ 2) ≤ 2 * κ * m) :
    (sphereIntersect i s ray).2 = false := by
  by_contra hne
  obtain ⟨i', e⟩ : ∃ i', sphereIntersect i s ray = (i', true) :=
    ⟨_, Prod.ext rfl (by simpa using hne)⟩
  obtain ⟨u0, u1, η0, ηu, ηL, ηLL, ηuLL, ηuL, L0, uL0, uLL0, uL1, uLL1, hi1, hiL, hiLL⟩ := hs.sizes
  have h11 : 11 * u ≤ 1 / 4 := by linarith
  obtain ⟨n1, n2⟩ := abs_le.1 hN
  obtain ⟨A', B', C', -, -, -, -, -, -, hb, -⟩ := sphere_coeffs hF hs ho hd hc hr (by linarith) hL
  obtain ⟨h, t, -, h0, hmt, htL, -, hht, hres⟩ := sphere_hit_near hF hs ray ho hd hc hr hm hm0 hN h11 hL e
  rw [along_sq] at hres
  have hres := (abs_le.1 hres).2
  have b1 : Vec3.dot (o - c) d ≤ 9 / 8 * L := by
    have := (abs_le.1 hb).2
    linarith
  set b := Vec3.dot (o - c) d with hbdef
  have hb0 : 0 ≤ b := hκ.trans hout
  have hsq : 0 ≤ Vec3.dot d d * h ^ 2 := by
    have : 0 ≤ Vec3.dot d d := by linarith
    positivity
  have hlow : t - 106 * (u * L) ≤ h := by
    have h1 := (abs_le.1 hht).1
    have h2 : u * t ≤ 38 / 10 * (u * L) := by
      have := mul_le_mul_of_nonneg_left htL u0.le
      linarith
    have h3 : (11 * u + 13 * u) * t = 24 * (u * t) := by ring
    rw [h3] at h1
    linarith
  have h1 : 2 * b * (t - 106 * (u * L)) ≤ 2 * b * h := mul_le_mul_of_nonneg_left hlow (by linarith)
  have h2 : κ * m ≤ b * t := mul_le_mul hout hmt.le hm0 hb0
  have h3 : b * (u * L) ≤ 9 / 8 * (u * L ^ 2) := by
    have := mul_le_mul_of_nonneg_right b1 uL0.le
    have e : 9 / 8 * L * (u * L) = 9 / 8 * (u * L ^ 2) := by ring
    linarith
  have e1 : 2 * b * (t - 106 * (u * L)) = 2 * (b * t) - 212 * (b * (u * L)) := by ring
  have e2 : (1300 * u + 50 * (11 * u)) * L ^ 2 = 1850 * (u * L ^ 2) := by ring
  rw [e2] at hres
  have e3 : 2 * κ * m = 2 * (κ * m) := by ring
  rw [e3] at hfar
  linarith

/-- a ray that leaves the plane of a rectangle does not hit it beyond its lower limit -/
theorem plane_leaves (hF : F.Rounds u η hi) (hfa : F.Faithful u η) (hodd : F.Odd) (hs : Scale u η hi L)
    {i : PlaneI (XF F)} {q : Plane (XF F)} (ray : Ray (XF F)) {o d c : Vec3 K} {a b m δ κ : K} {R : Mat3 K}
    (ho : IsV i.rayOrg o) (hd : IsV i.rayDir d) (hq : PlaneWithin ε o L q c a b R) (hε : ε ≤ 1 / 1000)
    (hm : i.minHit.Is m) (hm0 : 0 ≤ m) (hN : |Vec3.dot d d - 1| ≤ 11 * u)
    (hstart : |Vec3.dot R.trans.r2 (o - c)| ≤ δ) (hκ : 0 ≤ κ) (hout : κ ≤ |Vec3.dot R.trans.r2 d|)
    (hfar : δ + 2400 * (u * L) + 160 * (ε * L) ≤ κ * m) :
    (planeIntersect i q ray).2 = false := by
  by_contra hne
  obtain ⟨i', e⟩ : ∃ i', planeIntersect i q ray = (i', true) :=
    ⟨_, Prod.ext rfl (by simpa using hne)⟩
  obtain ⟨u0, u1, η0, ηu, ηL, ηLL, ηuLL, ηuL, L0, uL0, uLL0, uL1, uLL1, hi1, hiL, hiLL⟩ := hs.sizes
  have ε0 := hq.ortho.rows.nonneg
  have εL0 : 0 ≤ ε * L := mul_nonneg ε0 L0.le
  have hsz := hq.size
  obtain ⟨h, T, -, h0, hmT, hTL, -, hhT, -, -, -, y, ⟨x', y', x1, x2, y1, y2, hy⟩, hnear⟩ :=
    plane_hit_near hF hfa hodd hs ray ho hd hq hε hm hm0 hN e
  have hcc := hq.ortho.cols.cc
  set n := R.trans.r2 with hn
  obtain ⟨n1, n2⟩ := abs_le.1 hN
  have hd1 := comp_le (d := d) (by linarith)
  -- the component of the direction
  have hnd : |Vec3.dot n d| ≤ 4 := by
    refine (unit_dot hcc hε).2.trans ?_
    unfold oneNorm
    linarith [hd1.1, hd1.2.1, hd1.2.2]
  -- the point is close to the plane
  have hdiff : |Vec3.dot n (along o d h - y)| ≤ 1001 / 1000 * (3 * (600 * (u * L) + 40 * (ε * L))) := by
    refine (unit_dot hcc hε).2.trans (mul_le_mul_of_nonneg_left ?_ (by norm_num))
    have k0 := hnear 0
    have k1 := hnear 1
    have k2 := hnear 2
    unfold oneNorm
    show |(along o d h).x - y.x| + |(along o d h).y - y.y| + |(along o d h).z - y.z| ≤ _
    simp only [Vec3.get_zero, Vec3.get_one, Vec3.get_two] at k0 k1 k2
    linarith
  have hin : |Vec3.dot n (y - c)| ≤ ε * L := by
    have e : Vec3.dot n (y - c) = (R.trans.mulVec (R.mulVec ⟨x', y', 0⟩)).z := by
      rw [hy]
      show n.x * (c.x + _ - c.x) + n.y * (c.y + _ - c.y) + n.z * (c.z + _ - c.z) = Vec3.dot n (R.mulVec ⟨x', y', 0⟩)
      simp only [add_sub_cancel_left]
      rfl
    rw [e]
    refine (hq.ortho.forth x' y').2.2.trans (mul_le_mul_of_nonneg_left ?_ ε0)
    have a1 : |x'| ≤ |a| := abs_le.2 ⟨by linarith [le_abs_self a], by linarith [le_abs_self a]⟩
    have a2 : |y'| ≤ |b| := abs_le.2 ⟨by linarith [le_abs_self b], by linarith [le_abs_self b]⟩
    have c0 : 0 ≤ |o.x - c.x| + |o.y - c.y| + |o.z - c.z| := by positivity
    linarith
  have hsum : h * Vec3.dot n d = Vec3.dot n (along o d h - y) + Vec3.dot n (y - c) - Vec3.dot n (o - c) := by
    show h * (n.x * d.x + n.y * d.y + n.z * d.z) =
      n.x * (o.x + h * d.x - y.x) + n.y * (o.y + h * d.y - y.y) + n.z * (o.z + h * d.z - y.z) +
      (n.x * (y.x - c.x) + n.y * (y.y - c.y) + n.z * (y.z - c.z)) -
      (n.x * (o.x - c.x) + n.y * (o.y - c.y) + n.z * (o.z - c.z))
    ring
  have habs : h * |Vec3.dot n d| ≤ 1001 / 1000 * (3 * (600 * (u * L) + 40 * (ε * L))) + ε * L + δ := by
    rw [← abs_of_nonneg h0, ← abs_mul, hsum]
    exact abs_sub_le' (abs_add_le' hdiff hin) hstart
  have hlow : m - (152 * (u * L) + 10 * (ε * L)) ≤ h := by linarith [(abs_le.1 hhT).1]
  have h1 := mul_le_mul_of_nonneg_right hlow (abs_nonneg (Vec3.dot n d))
  have h2 : κ * m ≤ m * |Vec3.dot n d| := by
    rw [mul_comm]; exact mul_le_mul_of_nonneg_left hout hm0
  have h3 : (152 * (u * L) + 10 * (ε * L)) * |Vec3.dot n d| ≤ (152 * (u * L) + 10 * (ε * L)) * (1001 / 1000 * (3 * (9 / 8))) := by
    refine mul_le_mul_of_nonneg_left ((unit_dot hcc hε).2.trans (mul_le_mul_of_nonneg_left ?_ (by norm_num))) (by linarith)
    unfold oneNorm
    linarith [hd1.1, hd1.2.1, hd1.2.2]
  have e1 : (m - (152 * (u * L) + 10 * (ε * L))) * |Vec3.dot n d| =
    m * |Vec3.dot n d| - (152 * (u * L) + 10 * (ε * L)) * |Vec3.dot n d| := by ring
  rw [e1] at h1
  linarith

/-- a ray that leaves the plane of a face does not hit it beyond its lower limit -/
theorem tri_leaves {lo lo' : K} (hF : F.Rounds u η hi) (hF' : F.Relative u lo' hi) (hs : Scale3 u η hi lo L) {i : TriI (XF F)}
    {tri : Triangle (XF F)} {ray : Ray (XF F)} {A B C o d : Vec3 K} {m δ κ : K} (ht : TriWithin o L tri A B C)
    (ho : IsV ray.origin o) (hd : IsV ray.direction d) (hD : Vec3.dot d d ≤ 5 / 4) (hm : i.minHit.Is m) (hm0 : 0 ≤ m)
    (hmL : 2 * L ^ 2 * m ≤ hi) (hstart : |Vec3.dot (normalOf A B C) (A - o)| ≤ δ) (hout : κ ≤ |Vec3.dot (normalOf A B C) d|)
    (hfar : δ + 10 * (u * L ^ 3) + 12 * (u * L ^ 2) * m ≤ κ * m) :
    (triIntersect i tri ray).2 = false := by
  by_contra hne
  have h : (triIntersect i tri ray).2 = true := by simpa using hne
  obtain ⟨u0, u1, η0, ηu, ηL, ηLL, ηuLL, ηuL, L0, uL0, uLL0, uL1, uLL1, hi1, hiL, hiLL⟩ := hs.toScale.sizes
  obtain ⟨uL3, ηL3, uL31, L3⟩ := hs.sizes3
  obtain ⟨D, U, V, T, n1, hn, ⟨-, h0⟩ | ⟨w, s, x, y, hr⟩⟩ := tri_run hF hF' hs ht ho hd hD hm
  · rw [h0] at h; cases h
  obtain ⟨s1, s2, s3⟩ := hr.abs_sign
  obtain ⟨-, c4, -⟩ := hr.accept.1 h
  have bD : |D| ≤ 1126 / 1000 * L ^ 2 := (abs_le_of_near hn.det hn.d0).trans (by linarith)
  have hDm : |D| * m ≤ hi := by
    have := mul_le_mul_of_nonneg_right bD hm0
    have e : 1126 / 1000 * L ^ 2 * m = 563 / 1000 * (2 * L ^ 2 * m) := by ring
    have h2 : 0 ≤ 2 * L ^ 2 * m := by positivity
    linarith
  have hDm0 : 0 ≤ |D| * m := by positivity
  obtain ⟨q, q1, q2, -, -⟩ := grad_mul hF.toGradual hr.size hm (by rw [abs_of_nonneg hDm0]; exact hDm)
  have hqT : q ≤ s * T := (hr.dist.ge q1).1 c4
  rw [abs_of_nonneg hDm0] at q2
  have hT : s * T ≤ δ + 95 / 10 * (u * L ^ 3) := by
    refine (le_abs_self _).trans ?_
    rw [abs_mul, s1, one_mul]
    exact abs_le_of_near hn.dist hstart
  have hDκ : κ - 95 / 10 * (u * L ^ 2) ≤ |D| := by
    have h1 := hn.det
    rw [abs_sub_comm] at h1
    have := (abs_sub_abs_le_abs_sub (Vec3.dot (normalOf A B C) d) D).trans h1
    linarith
  have h1 := mul_le_mul_of_nonneg_right hDκ hm0
  have h2 : u * (|D| * m) ≤ 1126 / 1000 * (u * L ^ 2 * m) := by
    have := mul_le_mul_of_nonneg_left (mul_le_mul_of_nonneg_right bD hm0) u0.le
    linarith
  have h3 := (abs_le.1 q2).1
  have h4 : 0 ≤ u * L ^ 2 * m := by positivity
  have h5 : 12 * (u * L ^ 2) * m = 12 * (u * L ^ 2 * m) := by ring
  have h6 : (κ - 95 / 10 * (u * L ^ 2)) * m = κ * m - 95 / 10 * (u * L ^ 2 * m) := by ring
  rw [h5] at hfar
  rw [h6] at h1
  have h7 : η < 1 / 2 * (u * L ^ 3) := by linarith
  linarith

end
end Blazert
