/- Rounding errors of the cylinder test: what is reported. -/
import Verif.Proofs.CylInner

set_option autoImplicit false
set_option linter.unusedSectionVars false

namespace Blazert
open Scalar

section
variable {K : Type} [Field K] [LinearOrder K] [IsStrictOrderedRing K] [FloorRing K] {F : Fmt K} {u η hi L ν μ ε : K}
variable {a' b' h' : XF F} {org dir : Vec3 (XF F)} {a b h : K} {p d : Vec3 K}

/-- the point at the parameter `T` is near the surface, in the computed coordinates -/
def CylAt (u L a b h : K) (p d : Vec3 K) (T : K) : Prop :=
  0 ≤ T ∧ |T * d.z| ≤ 16 / 10 * L ∧
    ((|tubeE a b (p.x + T * d.x) (p.y + T * d.y)| ≤ 81 * (u * ((a ^ 2 + b ^ 2) * L ^ 2)) ∧ |p.z + T * d.z| ≤ h / 2 + 3 * (u * L)) ∨
     (|(|p.z + T * d.z|) - h / 2| ≤ 4 * (u * L) ∧ tubeE a b (p.x + T * d.x) (p.y + T * d.y) ≤ 81 * (u * ((a ^ 2 + b ^ 2) * L ^ 2))))

theorem tubeH_le' {x y : K} (a0 : 0 < a) (b0 : 0 < b) (hab : a + b ≤ L) (hx : |x| ≤ 101 / 100 * L) (hy : |y| ≤ 101 / 100 * L) :
    tubeH a b x y ≤ 115 / 100 * ((a ^ 2 + b ^ 2) * L ^ 2) := by
  have hx2 := sq_le_sq_of_abs hx
  have hy2 := sq_le_sq_of_abs hy
  rw [mul_pow] at hx2 hy2
  have h1 := mul_le_mul_of_nonneg_left hx2 (pow_two_nonneg b)
  have h2 := mul_le_mul_of_nonneg_left hy2 (pow_two_nonneg a)
  have h3 : (a + b) ^ 2 ≤ L ^ 2 := pow_le_pow_left₀ (by positivity) hab 2
  have h4 : a * b ≤ L ^ 2 / 4 := by
    have := pow_two_nonneg (a - b)
    have e1 : (a + b) ^ 2 = (a - b) ^ 2 + 4 * (a * b) := by ring
    linarith
  have h5 : a * b ≤ (a ^ 2 + b ^ 2) / 2 := by
    have := pow_two_nonneg (a - b)
    have e1 : (a - b) ^ 2 = a ^ 2 + b ^ 2 - 2 * (a * b) := by ring
    linarith
  have h6 := mul_le_mul h5 h4 (by positivity) (by positivity)
  unfold tubeH
  have e1 : a * b * (a * b) = a ^ 2 * b ^ 2 := by ring
  have e2 : (a ^ 2 + b ^ 2) / 2 * (L ^ 2 / 4) = 1 / 8 * ((a ^ 2 + b ^ 2) * L ^ 2) := by ring
  rw [e1, e2] at h6
  have e3 : b ^ 2 * ((101 / 100) ^ 2 * L ^ 2) + a ^ 2 * ((101 / 100) ^ 2 * L ^ 2) = 10201 / 10000 * ((a ^ 2 + b ^ 2) * L ^ 2) := by ring
  have : 0 ≤ (a ^ 2 + b ^ 2) * L ^ 2 := by positivity
  linarith

theorem cap_level {c x1 z e : K} (hc : c = x1 ∨ c = -x1) (h0 : 0 < h) (hx : |x1 - h / 2| ≤ 6 / 10 * e) (hz : |z - c| ≤ 33 / 10 * e) :
    |(|z|) - h / 2| ≤ 4 * e := by
  have e0 : 0 ≤ e := by
    have := (abs_nonneg _).trans hx
    linarith
  have key : ∃ s, |s| = h / 2 ∧ |z - s| ≤ 4 * e := by
    rcases hc with rfl | rfl
    · refine ⟨h / 2, abs_of_pos (by linarith), (abs_near_trans hz hx).trans (by linarith)⟩
    · refine ⟨-(h / 2), by rw [abs_neg, abs_of_pos (by linarith)], ?_⟩
      have hx' : |-x1 - -(h / 2)| ≤ 6 / 10 * e := by rwa [show -x1 - -(h / 2) = -(x1 - h / 2) by ring, abs_neg]
      exact (abs_near_trans hz hx').trans (by linarith)
  obtain ⟨s, hs, hz'⟩ := key
  rw [← hs]
  exact (abs_abs_sub_abs_le z s).trans hz'

/-- every recorded hit is near the surface -/
theorem cyl_case_near (H : CylFloat u η hi L ν μ a' b' h' org dir a b h p d) (hord : F.Ordered)
    (hout : (∃ h1, (h' / nat 2).Is h1 ∧ h1 < |p.z|) ∨ 27 * (u * tubeH a b p.x p.y) ≤ |tubeE a b p.x p.y|) {t : XF F}
    (hc : CylCase a' b' h' org dir t) : ∃ T, t.Is T ∧ CylAt u L a b h p d T := by
  have u0 := H.scale.tube.u0
  have L0 := H.scale.pos
  have hsum := H.sum
  have a0 := H.a0
  have b0 := H.b0
  have h0 := H.h0
  obtain ⟨x1, e1, e2, -, -, e5, -, e7⟩ := H.half
  have uL : u * L ≤ 1 / 2 ^ 20 * L := mul_le_mul_of_nonneg_right H.scale.tube.u1 L0.le
  have hx1 : |x1| ≤ 52 / 100 * L := by
    rw [abs_of_nonneg e5]
    have := (abs_le.1 e7).2
    linarith
  have hH := mul_le_mul_of_nonneg_left (tubeH_le' a0 b0 (by linarith) H.sx H.sy) u0.le
  have D0 : 0 ≤ u * ((a ^ 2 + b ^ 2) * L ^ 2) := by positivity
  cases hc with
  | top g1 g2 g3 g4 g5 =>
    obtain ⟨T, t1, t2, t3, t4, t5⟩ := cyl_cap H e1 hx1 g2 g3 g4 g5
    exact ⟨T, t1, t2, t3, .inr ⟨cap_level (.inl rfl) h0 e7 t4, by linarith⟩⟩
  | bottom g1 g2 g3 g4 g5 =>
    obtain ⟨T, t1, t2, t3, t4, t5⟩ := cyl_cap H e2 (by rwa [abs_neg]) g2 g3 g4 g5
    exact ⟨T, t1, t2, t3, .inr ⟨cap_level (.inr rfl) h0 e7 t4, by linarith⟩⟩
  | side g1 g2 g3 g4 =>
    obtain ⟨T, t1, t2, t3, t4, t5⟩ := cyl_side H g1 g2 g3 g4
    exact ⟨T, t1, t2.le, by linarith, .inl ⟨by linarith, t5⟩⟩
  | inner g1 g2 g3 g4 g5 =>
    obtain ⟨T, x2, c, t1, t2, t3, t4, t5, t6, t7, t8⟩ := cyl_inner H hord hout g1 g2 g3 g4 g5
    exact ⟨T, t1, t5, t6, .inr ⟨cap_level t4 h0 t3 t7, by linarith⟩⟩

/-- near the tube the coordinates are bounded -/
theorem tube_bounded {x y : K} (u0 : 0 < u) (u1 : u ≤ 1 / 2 ^ 20) (a0 : 0 < a) (b0 : 0 < b) (hab : a ≤ L)
    (asp : 1000 * (u * a ^ 2) ≤ b ^ 2) (h : tubeE a b x y ≤ 81 * (u * ((a ^ 2 + b ^ 2) * L ^ 2))) : |x| ≤ 106 / 100 * L := by
  refine abs_le_of_sq_le_sq ?_ (by linarith)
  refine le_of_mul_le_mul_left ?_ (pow_pos b0 2)
  unfold tubeE at h
  have h1 : a ^ 2 ≤ L ^ 2 := pow_le_pow_left₀ a0.le hab 2
  have h2 := mul_le_mul_of_nonneg_left h1 (pow_two_nonneg b)
  have h3 := mul_le_mul_of_nonneg_right asp (pow_two_nonneg L)
  have h4 : u * (b ^ 2 * L ^ 2) ≤ 1 / 2 ^ 20 * (b ^ 2 * L ^ 2) := mul_le_mul_of_nonneg_right u1 (by positivity)
  have h5 : 0 ≤ a ^ 2 * y ^ 2 := by positivity
  have h6 : 0 ≤ b ^ 2 * L ^ 2 := by positivity
  have e1 : u * ((a ^ 2 + b ^ 2) * L ^ 2) = u * a ^ 2 * L ^ 2 + u * (b ^ 2 * L ^ 2) := by ring
  rw [show b ^ 2 * (106 / 100 * L) ^ 2 = 11236 / 10000 * (b ^ 2 * L ^ 2) by ring]
  rw [e1] at h
  linarith

theorem coord_at' (hs : Scale u η hi L) {p p' e e' T h : K} (hp : |p' - p| ≤ 6 * (u * L)) (he : |e' - e| ≤ 8 * u)
    (hT0 : 0 ≤ T) (hT : T ≤ 34 / 10 * L) (hh : |h - T| ≤ 202 * (u * L) + 14 * (ε * L)) (he1 : |e| ≤ 101 / 100)
    (ε0 : 0 ≤ ε) : |(p' + T * e') - (p + h * e)| ≤ 240 * (u * L) + 15 * (ε * L) := by
  have u0 := hs.u_pos
  have L0 := hs.pos
  have h1 : |T * (e' - e)| ≤ 34 / 10 * L * (8 * u) := abs_mul_le (by rw [abs_of_nonneg hT0]; exact hT) he
  have h2 : |(T - h) * e| ≤ (202 * (u * L) + 14 * (ε * L)) * (101 / 100) := abs_mul_le (by rw [abs_sub_comm]; exact hh) he1
  rw [show (p' + T * e') - (p + h * e) = (p' - p) + T * (e' - e) + (T - h) * e by ring]
  refine (abs_add_le' (abs_add_le' hp h1) h2).trans ?_
  have h3 : 0 ≤ u * L := by positivity
  have h4 : 0 ≤ ε * L := by positivity
  have e1 : 34 / 10 * L * (8 * u) = 272 / 10 * (u * L) := by ring
  rw [e1]
  linarith

theorem hit_T_le (L0 : 0 < L) {T : K} (T0 : 0 ≤ T) (hN : 99 / 100 ≤ Vec3.dot d d) (hx : |T * d.x| ≤ 207 / 100 * L)
    (hy : |T * d.y| ≤ 207 / 100 * L) (hz : |T * d.z| ≤ 16 / 10 * L) : T ≤ 34 / 10 * L := by
  refine (le_abs_self T).trans (abs_le_of_sq_le_sq ?_ (by linarith))
  have h1 := sq_le_sq_of_abs hx
  have h2 := sq_le_sq_of_abs hy
  have h3 := sq_le_sq_of_abs hz
  have h4 : Vec3.dot d d * T ^ 2 = (T * d.x) ^ 2 + (T * d.y) ^ 2 + (T * d.z) ^ 2 := by
    unfold Vec3.dot; ring
  have h5 := mul_le_mul_of_nonneg_right hN (pow_two_nonneg T)
  rw [mul_pow] at h1 h2 h3
  rw [mul_pow]
  have : 0 ≤ L ^ 2 := by positivity
  linarith

/-- the reported distance, and the point at it -/
theorem cyl_at_near (hF : F.Rounds u η hi) (hs : Scale u η hi L) (hε : ε ≤ 1 / 1000) (ε0 : 0 ≤ ε) {P D : Vec3 K} {t : XF F} {T : K}
    (ht : t.Is T) (hd : IsV dir d) (hl : Local u ε L P D p d) (a0 : 0 < a) (b0 : 0 < b) (hab : a + b + h ≤ L) (h0 : 0 < h)
    (asp1 : 1000 * (u * a ^ 2) ≤ b ^ 2) (asp2 : 1000 * (u * b ^ 2) ≤ a ^ 2) (hc : CylAt u L a b h p d T) :
    ∃ k, (Vec3.norm (Vec3.smul t dir)).Is k ∧ 0 ≤ k ∧ |k - T| ≤ 202 * (u * L) + 14 * (ε * L) ∧ T ≤ 34 / 10 * L ∧
      NearCylinder a b h ((700 * u + 40 * ε) * ((a ^ 2 + b ^ 2) * L ^ 2)) ((300 * u + 20 * ε) * L) (along P D k) := by
  obtain ⟨u0, u1, η0, ηu, ηL, ηLL, ηuLL, ηuL, L0, uL0, uLL0, uL1, uLL1, hi1, hiL, hiLL⟩ := hs.sizes
  obtain ⟨T0, hz, hcase⟩ := hc
  have εL0 : 0 ≤ ε * L := by positivity
  have εL1 : ε * L ≤ 1 / 1000 * L := mul_le_mul_of_nonneg_right hε L0.le
  have uL2 : u * L ≤ 1 / 2 ^ 20 * L := mul_le_mul_of_nonneg_right u1 L0.le
  have hE : tubeE a b (p.x + T * d.x) (p.y + T * d.y) ≤ 81 * (u * ((a ^ 2 + b ^ 2) * L ^ 2)) := by
    rcases hcase with ⟨h1, -⟩ | ⟨-, h1⟩
    · exact (le_abs_self _).trans h1
    · exact h1
  have hE' : tubeE b a (p.y + T * d.y) (p.x + T * d.x) ≤ 81 * (u * ((b ^ 2 + a ^ 2) * L ^ 2)) := by
    refine le_trans (le_of_eq ?_) (hE.trans (le_of_eq ?_))
    · unfold tubeE; ring
    · ring
  have hqx := tube_bounded u0 u1 a0 b0 (by linarith) asp1 hE
  have hqy := tube_bounded u0 u1 b0 a0 (by linarith) asp2 hE'
  have hTx : |T * d.x| ≤ 207 / 100 * L := by
    have := abs_sub_le' hqx hl.sx
    rw [show p.x + T * d.x - p.x = T * d.x by ring] at this
    linarith
  have hTy : |T * d.y| ≤ 207 / 100 * L := by
    have := abs_sub_le' hqy hl.sy
    rw [show p.y + T * d.y - p.y = T * d.y by ring] at this
    linarith
  obtain ⟨n1, n2⟩ := abs_le.1 hl.nd'
  have hTL := hit_T_le L0 T0 (by linarith) hTx hTy hz
  obtain ⟨r, r1, r0, r2⟩ := norm_scaled hF hs ht hd (by linarith) (by rw [abs_of_nonneg T0]; linarith)
  have r3 := dist_near hs r0 T0 hl.nd' (by linarith) r2
  have r4 : |r - T| ≤ 202 * (u * L) + 14 * (ε * L) := by
    refine r3.trans ?_
    have h1 : (42 * u + 4 * ε + 13 * u) * T ≤ (42 * u + 4 * ε + 13 * u) * (34 / 10 * L) := mul_le_mul_of_nonneg_left hTL (by positivity)
    rw [show (42 * u + 4 * ε + 13 * u) * (34 / 10 * L) = 187 * (u * L) + 136 / 10 * (ε * L) by ring] at h1
    linarith
  obtain ⟨D1, D2, D3⟩ := near_one_comp (e := D) (by linarith [hl.nd])
  have cx := coord_at' hs hl.px hl.dx T0 hTL r4 D1 ε0
  have cy := coord_at' hs hl.py hl.dy T0 hTL r4 D2 ε0
  have cz := coord_at' hs hl.pz hl.dz T0 hTL r4 D3 ε0
  refine ⟨r, r1, r0, r4, hTL, ?_⟩
  have ex : (along P D r).x = P.x + r * D.x := rfl
  have ey : (along P D r).y = P.y + r * D.y := rfl
  have ez : (along P D r).z = P.z + r * D.z := rfl
  have bx : |P.x + r * D.x| ≤ 108 / 100 * L := by
    have := abs_sub_le' hqx cx
    rw [show p.x + T * d.x - (p.x + T * d.x - (P.x + r * D.x)) = P.x + r * D.x by ring] at this
    linarith
  have bY : |P.y + r * D.y| ≤ 108 / 100 * L := by
    have := abs_sub_le' hqy cy
    rw [show p.y + T * d.y - (p.y + T * d.y - (P.y + r * D.y)) = P.y + r * D.y by ring] at this
    linarith
  have hn := tubeE_near (a := a) (b := b) cx cy (B := 108 / 100 * L) (by linarith) (by linarith) bx bY
  set S := (a ^ 2 + b ^ 2) * L ^ 2 with hS
  have S0 : 0 ≤ S := by positivity
  have uS0 : 0 ≤ u * S := by positivity
  have εS0 : 0 ≤ ε * S := by positivity
  have e1 : (a ^ 2 + b ^ 2) * (2 * (108 / 100 * L) * (240 * (u * L) + 15 * (ε * L))) = 2 * (108 / 100) * 240 * (u * S) + 2 * (108 / 100) * 15 * (ε * S) := by
    rw [hS]; ring
  rw [e1] at hn
  have e2 : (700 * u + 40 * ε) * S = 700 * (u * S) + 40 * (ε * S) := by ring
  have e3 : (300 * u + 20 * ε) * L = 300 * (u * L) + 20 * (ε * L) := by ring
  unfold NearCylinder
  rw [ex, ey, ez, e2, e3]
  rcases hcase with ⟨h1, h2⟩ | ⟨h1, h2⟩
  · left
    constructor
    · have := abs_add_le' hn h1
      rw [sub_add_cancel] at this
      linarith
    · have := abs_sub_le' h2 cz
      rw [show p.z + T * d.z - (p.z + T * d.z - (P.z + r * D.z)) = P.z + r * D.z by ring] at this
      linarith
  · right
    constructor
    · have h3 : |(|P.z + r * D.z|) - (|p.z + T * d.z|)| ≤ 240 * (u * L) + 15 * (ε * L) :=
        (abs_abs_sub_abs_le _ _).trans (by rw [abs_sub_comm]; exact cz)
      have := abs_near_trans h3 h1
      linarith
    · have := (abs_le.1 hn).2
      linarith

/-- what is assumed about a cylinder -/
structure CylWithin (u η hi ε ν μ L : K) (o : Vec3 K) (cy : Cylinder (XF F)) (dir : Vec3 (XF F)) (c : Vec3 K) (a b h : K) (R : Mat3 K) : Prop where
  center : IsV cy.center c
  isA : cy.a.Is a
  isB : cy.b.Is b
  height : cy.height.Is h
  rot : IsM cy.rotation R
  ortho : NearOrtho ε R
  aν : ν ≤ a
  bν : ν ≤ b
  h0 : 0 < h
  size : |o.x - c.x| + |o.y - c.y| + |o.z - c.z| + a + b + h ≤ L
  scale : TubeScale u η hi L ν μ
  asp1 : 1000 * (u * a ^ 2) ≤ b ^ 2
  asp2 : 1000 * (u * b ^ 2) ≤ a ^ 2
  slant : ∀ e, IsV (cy.rotation.trans.mulVec dir) e → Slanted μ e
  clear : 60 * (u * ((a ^ 2 + b ^ 2) * L ^ 2)) ≤ |tubeE a b (R.trans.mulVec (o - c)).x (R.trans.mulVec (o - c)).y| ∨
    h / 2 + 10 * (u * L) < |(R.trans.mulVec (o - c)).z|

/-- the computed coordinates -/
theorem CylWithin.float (hF : F.Rounds u η hi) (hfa : F.Faithful u η) (hodd : F.Odd) {q : Cylinder (XF F)} {o d' c : Vec3 K} {R : Mat3 K}
    (ho : IsV org o) (hd : IsV dir d') (hq : CylWithin u η hi ε ν μ L o q dir c a b h R) (hε : ε ≤ 1 / 1000)
    (hN : |Vec3.dot d' d' - 1| ≤ 11 * u) :
    ∃ p d, Local u ε L (R.trans.mulVec (o - c)) (R.trans.mulVec d') p d ∧
      CylFloat u η hi L ν μ q.a q.b q.height (q.rotation.trans.mulVec (org - q.center)) (q.rotation.trans.mulVec dir) a b h p d := by
  have hs := hq.scale.toScale
  have h0 := hq.h0
  have hsz := hq.size
  have a0 := hq.scale.ν_pos.trans_le hq.aν
  have b0 := hq.scale.ν_pos.trans_le hq.bν
  have c0 : 0 ≤ |o.x - c.x| + |o.y - c.y| + |o.z - c.z| := by positivity
  obtain ⟨u0, u1, η0, ηu, ηL, ηLL, ηuLL, ηuL, L0, uL0, uLL0, uL1, uLL1, hi1, hiL, hiLL⟩ := hs.sizes
  obtain ⟨p, d, hp, hd, hl⟩ := plane_local hF hs ho hd hq.center hq.rot hq.ortho hε hN (by linarith)
  obtain ⟨d1, d2, d3⟩ := near_one_comp (e := d) (by linarith [hl.nd'])
  exact ⟨p, d, hl, hq.scale, hF, hfa, hodd, hq.isA, hq.isB, hq.height, hp, hd, hq.aν, hq.bν, h0, by linarith, hl.sx, hl.sy, hl.sz,
    d1, d2, d3, hq.slant _ hd⟩

/-- what passed the tests is near the surface, with the distance from the parameter -/
theorem cyl_case_dist (hF : F.Rounds u η hi) (hfa : F.Faithful u η) (hodd : F.Odd) (hord : F.Ordered)
    {q : Cylinder (XF F)} {o d c : Vec3 K} {R : Mat3 K} (ho : IsV org o) (hd : IsV dir d)
    (hq : CylWithin u η hi ε ν μ L o q dir c a b h R) (hε : ε ≤ 1 / 1000) (hN : |Vec3.dot d d - 1| ≤ 11 * u) {t : XF F}
    (e2 : CylCase q.a q.b q.height (q.rotation.trans.mulVec (org - q.center)) (q.rotation.trans.mulVec dir) t) :
    ∃ k T, t.Is T ∧ |k - T| ≤ 202 * (u * L) + 14 * (ε * L) ∧ (Vec3.norm (Vec3.smul t (q.rotation.trans.mulVec dir))).Is k ∧ 0 ≤ k ∧ k ≤ 4 * L ∧
      NearCylinder a b h ((700 * u + 40 * ε) * ((a ^ 2 + b ^ 2) * L ^ 2)) ((300 * u + 20 * ε) * L) (R.trans.mulVec (along o d k - c)) := by
  have hs := hq.scale.toScale
  obtain ⟨u0, u1, η0, ηu, ηL, ηLL, ηuLL, ηuL, L0, uL0, uLL0, uL1, uLL1, hi1, hiL, hiLL⟩ := hs.sizes
  have ε0 := hq.ortho.rows.nonneg
  have a0 := hq.scale.ν_pos.trans_le hq.aν
  have b0 := hq.scale.ν_pos.trans_le hq.bν
  have h0 := hq.h0
  have hsz := hq.size
  have c0 : 0 ≤ |o.x - c.x| + |o.y - c.y| + |o.z - c.z| := by positivity
  obtain ⟨p', d', hl, H⟩ := hq.float hF hfa hodd ho hd hε hN
  have hd' := H.hd
  have hout : (∃ h1, (q.height / nat 2).Is h1 ∧ h1 < |p'.z|) ∨ 27 * (u * tubeH a b p'.x p'.y) ≤ |tubeE a b p'.x p'.y| := by
    set P := R.trans.mulVec (o - c)
    have uL0 : 0 ≤ u * L := by positivity
    rcases hq.clear with hcl | hcl
    · right
      have hH := mul_le_mul_of_nonneg_left (tubeH_le' a0 b0 (by linarith) hl.sx hl.sy) u0.le
      have uL2 : u * L ≤ 1 / 2 ^ 20 * L := mul_le_mul_of_nonneg_right u1 L0.le
      have px : |P.x| ≤ 102 / 100 * L := by
        have := abs_sub_le' hl.sx hl.px
        rw [sub_sub_cancel] at this
        linarith
      have py : |P.y| ≤ 102 / 100 * L := by
        have := abs_sub_le' hl.sy hl.py
        rw [sub_sub_cancel] at this
        linarith
      have hn := tubeE_near (a := a) (b := b) hl.px hl.py (B := 102 / 100 * L) (by linarith [hl.sx]) (by linarith [hl.sy]) px py
      have e3 : (a ^ 2 + b ^ 2) * (2 * (102 / 100 * L) * (6 * (u * L))) = 2 * (102 / 100) * 6 * (u * ((a ^ 2 + b ^ 2) * L ^ 2)) := by ring
      rw [e3] at hn
      have h1 := abs_sub_abs_le_abs_sub (tubeE a b P.x P.y) (tubeE a b p'.x p'.y)
      have : 0 ≤ u * ((a ^ 2 + b ^ 2) * L ^ 2) := by positivity
      linarith
    · left
      obtain ⟨x1, f1, -, -, -, -, -, f7⟩ := H.half
      refine ⟨x1, f1, ?_⟩
      have h1 := (abs_le.1 f7).2
      have h2 := abs_sub_abs_le_abs_sub P.z p'.z
      have h3 := hl.pz
      rw [abs_sub_comm] at h3
      linarith
  obtain ⟨T, t1, t2⟩ := cyl_case_near H hord hout e2
  obtain ⟨k, k1, k2, k3, k4, k5⟩ := cyl_at_near hF hs hε ε0 t1 hd' hl a0 b0 (by linarith) h0 hq.asp1 hq.asp2 t2
  have εL1 : ε * L ≤ 1 / 1000 * L := mul_le_mul_of_nonneg_right hε L0.le
  have uL2 : u * L ≤ 1 / 2 ^ 20 * L := mul_le_mul_of_nonneg_right u1 L0.le
  refine ⟨k, T, t1, k3, k1, k2, by linarith [(abs_le.1 k3).2], ?_⟩
  rw [trans_along']
  exact k5

/-- what passed the tests is near the surface -/
theorem cyl_case_hit (hF : F.Rounds u η hi) (hfa : F.Faithful u η) (hodd : F.Odd) (hord : F.Ordered)
    {q : Cylinder (XF F)} {o d c : Vec3 K} {R : Mat3 K} (ho : IsV org o) (hd : IsV dir d)
    (hq : CylWithin u η hi ε ν μ L o q dir c a b h R) (hε : ε ≤ 1 / 1000) (hN : |Vec3.dot d d - 1| ≤ 11 * u) {t : XF F}
    (e2 : CylCase q.a q.b q.height (q.rotation.trans.mulVec (org - q.center)) (q.rotation.trans.mulVec dir) t) :
    ∃ k, (Vec3.norm (Vec3.smul t (q.rotation.trans.mulVec dir))).Is k ∧ 0 ≤ k ∧ k ≤ 4 * L ∧
      NearCylinder a b h ((700 * u + 40 * ε) * ((a ^ 2 + b ^ 2) * L ^ 2)) ((300 * u + 20 * ε) * L) (R.trans.mulVec (along o d k - c)) := by
  obtain ⟨k, -, -, -, h1⟩ := cyl_case_dist hF hfa hodd hord ho hd hq hε hN e2
  exact ⟨k, h1⟩

/-- a recorded hit is near the surface -/
theorem cyl_hit_near (hF : F.Rounds u η hi) (hfa : F.Faithful u η) (hodd : F.Odd) (hord : F.Ordered)
    {i i' : PlaneI (XF F)} {q : Cylinder (XF F)} (ray : Ray (XF F)) {o d c : Vec3 K} {R : Mat3 K}
    (ho : IsV i.rayOrg o) (hd : IsV i.rayDir d) (hq : CylWithin u η hi ε ν μ L o q i.rayDir c a b h R) (hε : ε ≤ 1 / 1000)
    (hN : |Vec3.dot d d - 1| ≤ 11 * u) (hit : cylIntersect i q ray = (i', true)) :
    ∃ k, i'.hd.Is k ∧ 0 ≤ k ∧ k ≤ 4 * L ∧ i'.primId = q.primId ∧
      NearCylinder a b h ((700 * u + 40 * ε) * ((a ^ 2 + b ^ 2) * L ^ 2)) ((300 * u + 20 * ε) * L) (R.trans.mulVec (along o d k - c)) := by
  obtain ⟨t, n, e1, e2⟩ := cylIntersect_taken i q ray (by rw [hit])
  rw [hit] at e1
  have e4 : i' = (i.record n t (q.rotation.trans.mulVec i.rayDir) q.primId).1 := congrArg Prod.fst e1
  obtain ⟨k, k1, k2, k3, k4⟩ := cyl_case_hit hF hfa hodd hord ho hd hq hε hN e2
  exact ⟨k, by rw [e4]; exact k1, k2, k3, by rw [e4]; rfl, k4⟩

end
end Blazert
