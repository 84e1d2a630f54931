/- Rounding errors of the normals of cylinders: what is recorded. -/
import Verif.Proofs.CylNormal

set_option autoImplicit false
set_option linter.unusedSectionVars false

namespace Blazert
open Scalar

section
variable {K : Type} [Field K] [LinearOrder K] [IsStrictOrderedRing K] [FloorRing K] {F : Fmt K} {u η hi L ν μ ε m : K}
variable {a' b' h' : XF F} {org dir : Vec3 (XF F)} {a b h : K} {p d : Vec3 K}

/-- the sizes of the coordinates of a hit -/
theorem cyl_at_coords (hs : Scale u η hi L) (a0 : 0 < a) (b0 : 0 < b) (h0 : 0 < h) (hab : a + b + h ≤ L)
    (hpx : |p.x| ≤ 101 / 100 * L) (hpy : |p.y| ≤ 101 / 100 * L)
    (asp1 : 1000 * (u * a ^ 2) ≤ b ^ 2) (asp2 : 1000 * (u * b ^ 2) ≤ a ^ 2) {T : K} (hc : CylAt u L a b h p d T) :
    |p.x + T * d.x| ≤ 106 / 100 * L ∧ |p.y + T * d.y| ≤ 106 / 100 * L ∧ |T * d.x| ≤ 207 / 100 * L ∧ |T * d.y| ≤ 207 / 100 * L := by
  obtain ⟨u0, u1, η0, ηu, ηL, ηLL, ηuLL, ηuL, L0, uL0, uLL0, uL1, uLL1, hi1, hiL, hiLL⟩ := hs.sizes
  obtain ⟨T0, hz, hcase⟩ := hc
  have hE : tubeE a b (p.x + T * d.x) (p.y + T * d.y) ≤ 81 * (u * ((a ^ 2 + b ^ 2) * L ^ 2)) := by
    rcases hcase with ⟨h1, -⟩ | ⟨-, h1⟩
    · exact (le_abs_self _).trans h1
    · exact h1
  have hE' : tubeE b a (p.y + T * d.y) (p.x + T * d.x) ≤ 81 * (u * ((b ^ 2 + a ^ 2) * L ^ 2)) := by
    refine le_trans (le_of_eq ?_) (hE.trans (le_of_eq ?_))
    · unfold tubeE; ring
    · ring
  have hqx := tube_bounded u0 u1 a0 b0 (by linarith) asp1 hE
  have hqy := tube_bounded u0 u1 b0 a0 (by linarith) asp2 hE'
  refine ⟨hqx, hqy, ?_, ?_⟩
  · have := abs_sub_le' hqx hpx
    rw [show p.x + T * d.x - p.x = T * d.x by ring] at this
    linarith
  · have := abs_sub_le' hqy hpy
    rw [show p.y + T * d.y - p.y = T * d.y by ring] at this
    linarith

/-- a coordinate of the intercept, `org + dir * t` -/
theorem intercept_comp (hF : F.Rounds u η hi) (hs : Scale u η hi L) {o' e' t : XF F} {o e T : K} (ho : o'.Is o) (he : e'.Is e) (ht : t.Is T)
    (h1 : |T * e| ≤ 207 / 100 * L) (h2 : |o + T * e| ≤ 106 / 100 * L) :
    ∃ X, (o' + e' * t).Is X ∧ |X - (o + T * e)| ≤ 32 / 10 * (u * L) ∧ |X| ≤ 107 / 100 * L := by
  obtain ⟨u0, u1, η0, ηu, ηL, ηLL, ηuLL, ηuL, L0, uL0, uLL0, uL1, uLL1, hi1, hiL, hiLL⟩ := hs.sizes
  have hG := hF.toGradual
  rw [mul_comm] at h1
  obtain ⟨P, P1, P2, -⟩ := rnd_mul hG u0.le he ht h1 (by linarith)
  rw [mul_comm e T] at P2
  have h3 : |o + P| ≤ 1065 / 1000 * L := by
    rw [show o + P = (P - T * e) + (o + T * e) by ring]
    exact (abs_add_le' P2 h2).trans (by linarith)
  obtain ⟨X, X1, X2, -⟩ := rnd_add hG u0.le ho P1 h3 (by linarith)
  have h4 : |X - (o + T * e)| ≤ 32 / 10 * (u * L) := by
    rw [show X - (o + T * e) = (X - (o + P)) + (P - T * e) by ring]
    exact (abs_add_le' X2 P2).trans (by linarith)
  refine ⟨X, X1, h4, ?_⟩
  have := abs_le_of_near h4 h2
  linarith

/-- a component of the computed gradient -/
theorem tube_grad_comp (hF : F.Rounds u η hi) (hs : TubeScale u η hi L ν μ) {o' e' t c' : XF F} {o e T c : K} {x : K}
    (ho : o'.Is o) (he : e'.Is e) (ht : t.Is T) (hc : c'.Is c) (hcν : ν ≤ c) (hcL : c ≤ L) (m0 : 0 < m) (hm : m ≤ c)
    (hq : 8 * L / m ^ 2 ≤ hi) (h1 : |T * e| ≤ 207 / 100 * L) (h2 : |o + T * e| ≤ 106 / 100 * L)
    (hx : |(o + T * e) - x| ≤ 240 * (u * L) + 15 * (ε * L)) (ε0 : 0 ≤ ε) :
    ∃ g, (nat 2 * (o' + e' * t) / (c' * c')).Is g ∧ |g - 2 * (x / c ^ 2)| ≤ (500 * u + 30 * ε) * (L / m ^ 2) := by
  have hs' := hs.toScale
  obtain ⟨u0, u1, η0, ηu, ηL, ηLL, ηuLL, ηuL, L0, uL0, uLL0, uL1, uLL1, hi1, hiL, hiLL⟩ := hs'.sizes
  have c0 : 0 < c := m0.trans_le hm
  have cc : 0 < c ^ 2 := by positivity
  have mm : 0 < m ^ 2 := by positivity
  have mc : m ^ 2 ≤ c ^ 2 := pow_le_pow_left₀ m0.le hm 2
  have ccL : c ^ 2 ≤ L ^ 2 := pow_le_pow_left₀ c0.le hcL 2
  obtain ⟨X, X1, X2, X3⟩ := intercept_comp hF hs' ho he ht h1 h2
  have ν0 := hs.ν_pos
  have hν2 : ν ^ 2 ≤ c ^ 2 := pow_le_pow_left₀ ν0.le hcν 2
  have hν1 : ν ^ 2 ≤ 1 := pow_le_one₀ ν0.le hs.ν_le
  have hν4 : ν ^ 4 ≤ ν ^ 2 := by
    have := mul_le_mul_of_nonneg_left hν1 (pow_two_nonneg ν)
    rwa [mul_one, show ν ^ 2 * ν ^ 2 = ν ^ 4 by ring] at this
  have hL1 : 1 + L ≤ (1 + L) ^ 2 := by
    have : 0 ≤ L * (1 + L) := by positivity
    have e : (1 + L) ^ 2 = 1 + L + L * (1 + L) := by ring
    linarith
  have hη : 2 ^ 12 * (η * (1 + L)) ≤ u * ν ^ 2 := by
    have k1 := mul_le_mul_of_nonneg_left hL1 η0
    have k2 := mul_le_mul_of_nonneg_left hν4 u0.le
    have := hs.lost'
    linarith
  have hηL : 0 ≤ η * L := by positivity
  have hη1 : 2 ^ 12 * η ≤ u * c ^ 2 := by
    have := mul_le_mul_of_nonneg_left hν2 u0.le
    linarith
  have hη2 : 2 ^ 12 * (η * L) ≤ u := by
    have := mul_le_mul_of_nonneg_left hν1 u0.le
    linarith
  have LqL : 1 ≤ L * (L / c ^ 2) := by
    rw [mul_div_assoc', le_div_iff₀ cc, one_mul, ← pow_two]
    exact ccL
  set q := L / c ^ 2 with hq'
  have q0 : 0 < q := by positivity
  have hqm : q ≤ L / m ^ 2 := div_le_div_of_nonneg_left L0.le mm mc
  have hηq : 2 ^ 12 * η ≤ u * q := by
    have k1 := mul_le_mul_of_nonneg_right hη2 q0.le
    have k2 := mul_le_mul_of_nonneg_left LqL η0
    have e : 2 ^ 12 * (η * L) * q = 2 ^ 12 * (η * (L * q)) := by ring
    rw [e] at k1
    linarith
  have hB : 107 / 100 * L / c ^ 2 = 107 / 100 * q := by rw [hq']; ring
  have hq8 : 8 * q ≤ hi := by
    rw [mul_div_assoc] at hq
    linarith
  have uq : 0 ≤ u * q := by positivity
  have ηuL' : 2 ^ 12 * η ≤ u * (107 / 100 * L) := by
    have : 2 ^ 12 * η ≤ u * L := by linarith
    linarith
  obtain ⟨g, g1, g2⟩ := grad_comp hF u0 u1 η0 X1 hc c0 X3 hη1 (by rw [hB]; linarith) ηuL' (by linarith) (by linarith)
    (by rw [hB]; linarith)
  rw [hB] at g2
  refine ⟨g, g1, ?_⟩
  have h3 : |X - x| ≤ (2432 / 10 * u + 15 * ε) * L := (abs_near_trans X2 hx).trans (by linarith)
  have h4 : |2 * (X / c ^ 2) - 2 * (x / c ^ 2)| ≤ 2 * ((2432 / 10 * u + 15 * ε) * q) := by
    rw [← mul_sub, ← sub_div, abs_mul, abs_two, abs_div, abs_of_pos cc]
    refine mul_le_mul_of_nonneg_left ((div_le_div_of_nonneg_right h3 cc.le).trans_eq ?_) (by norm_num)
    rw [hq']; ring
  refine (abs_near_trans g2 h4).trans ?_
  have h5 : (500 * u + 30 * ε) * q ≤ (500 * u + 30 * ε) * (L / m ^ 2) := mul_le_mul_of_nonneg_left hqm (by positivity)
  refine le_trans ?_ h5
  have e1 : 65 / 10 * (u * (107 / 100 * q)) + 2 * ((2432 / 10 * u + 15 * ε) * q) = (65 / 10 * (107 / 100) + 4864 / 10) * (u * q) + 30 * (ε * q) := by ring
  have e2 : (500 * u + 30 * ε) * q = 500 * (u * q) + 30 * (ε * q) := by ring
  rw [e1, e2]
  linarith

/-- the point on the tube, and both normals there -/
theorem tube_shade (H : CylFloat u η hi L ν μ a' b' h' org dir a b h p d) {rot : Mat3 (XF F)} {R : Mat3 K} {t : XF F} {T k : K}
    {P D : Vec3 K} (hR : IsM rot R) (hortho : NearOrtho ε R) (hε : ε ≤ 1 / 1000) (hs1 : Scale u η hi (1 / 2)) (hs2 : Scale u η hi 8)
    (m0 : 0 < m) (ma : m ≤ a) (mb : m ≤ b) (hl1 : Scale u η hi (1 / L)) (hl2 : Scale u η hi (8 * L / m ^ 2))
    (hsm : (3000 * u + 200 * ε) * L ^ 2 ≤ m ^ 2) (t1 : t.Is T)
    (q1 : |p.x + T * d.x| ≤ 106 / 100 * L) (q2 : |p.y + T * d.y| ≤ 106 / 100 * L) (q3 : |T * d.x| ≤ 207 / 100 * L)
    (q4 : |T * d.y| ≤ 207 / 100 * L) (cx : |(p.x + T * d.x) - (P.x + k * D.x)| ≤ 240 * (u * L) + 15 * (ε * L))
    (cy : |(p.y + T * d.y) - (P.y + k * D.y)| ≤ 240 * (u * L) + 15 * (ε * L))
    (cz : |(p.z + T * d.z) - (P.z + k * D.z)| ≤ 240 * (u * L) + 15 * (ε * L)) (hst : SideTests a' b' h' org dir t) :
    NearSide a b h ((700 * u + 40 * ε) * ((a ^ 2 + b ^ 2) * L ^ 2)) ((300 * u + 20 * ε) * L) (along P D k) ∧
      (∃ n', IsV (Vec3.normalize (cylNg rot (cylNormal a' b' (org + Vec3.muls dir t)))) n' ∧ |Vec3.dot n' n' - 1| ≤ 11 * u ∧
        NearDir ((4300 * u + 260 * ε) * (L / m) ^ 2) n' (R.mulVec (tubeGrad a b (along P D k)))) ∧
      (∃ n', IsV (cylNg rot (cylNormal a' b' (org + Vec3.muls dir t))) n' ∧ |Vec3.dot n' n' - 1| ≤ 120 * u + 4 * ε ∧
        NearDir ((4300 * u + 260 * ε) * (L / m) ^ 2) n' (R.mulVec (tubeGrad a b (along P D k)))) ∧
      (∃ n', IsV (Vec3.normalize (cylNormal a' b' (org + Vec3.muls dir t))) n' ∧ |Vec3.dot n' n' - 1| ≤ 11 * u ∧
        NearDir ((4300 * u + 260 * ε) * (L / m) ^ 2) n' (tubeGrad a b (along P D k))) := by
  obtain ⟨u0, u1, η0, ηu, ηL, ηLL, ηuLL, ηuL, L0, uL0, uLL0, uL1, uLL1, hi1, hiL, hiLL⟩ := H.scale.toScale.sizes
  have ε0 := hortho.rows.nonneg
  have hF := H.rounds
  have a0 := H.a0
  have b0 := H.b0
  have h0 := H.h0
  have hsum := H.sum
  have aL : a ≤ L := by linarith
  have bL : b ≤ L := by linarith
  have uL2 : u * L ≤ 1 / 2 ^ 20 * L := mul_le_mul_of_nonneg_right u1 L0.le
  have εL1 : ε * L ≤ 1 / 1000 * L := mul_le_mul_of_nonneg_right hε L0.le
  have εL0 : 0 ≤ ε * L := by positivity
  have bx : |P.x + k * D.x| ≤ 108 / 100 * L := by
    have := abs_sub_le' q1 cx
    rw [sub_sub_cancel] at this
    linarith
  have bY : |P.y + k * D.y| ≤ 108 / 100 * L := by
    have := abs_sub_le' q2 cy
    rw [sub_sub_cancel] at this
    linarith
  obtain ⟨T', g1, g2, g3, g4, g5⟩ := cyl_side H hst.h1 hst.h2 hst.h3 hst.h4
  obtain rfl := g1.unique t1
  have hH := mul_le_mul_of_nonneg_left (tubeH_le' a0 b0 (by linarith) H.sx H.sy) u0.le
  have hside : |tubeE a b (P.x + k * D.x) (P.y + k * D.y)| ≤ (700 * u + 40 * ε) * ((a ^ 2 + b ^ 2) * L ^ 2) := by
    have hn2 := tubeE_near (a := a) (b := b) cx cy (B := 108 / 100 * L) (by linarith) (by linarith) bx bY
    set S := (a ^ 2 + b ^ 2) * L ^ 2 with hS
    have e7 : (a ^ 2 + b ^ 2) * (2 * (108 / 100 * L) * (240 * (u * L) + 15 * (ε * L))) =
        2 * (108 / 100) * 240 * (u * S) + 2 * (108 / 100) * 15 * (ε * S) := by rw [hS]; ring
    rw [e7] at hn2
    have εS0 : 0 ≤ ε * S := by positivity
    have uS0 : 0 ≤ u * S := by positivity
    have e8 : (700 * u + 40 * ε) * S = 700 * (u * S) + 40 * (ε * S) := by ring
    have := abs_add_le' hn2 g3
    rw [sub_add_cancel] at this
    rw [e8]
    linarith
  refine ⟨⟨hside, ?_⟩, ?_⟩
  · have e6 : (300 * u + 20 * ε) * L = 300 * (u * L) + 20 * (ε * L) := by ring
    have ez : (along P D k).z = P.z + k * D.z := rfl
    rw [ez, e6]
    have := abs_sub_le' g5 cz
    rw [sub_sub_cancel] at this
    linarith
  · have hq8 : 8 * L / m ^ 2 ≤ hi := by
      have h1 := hl2.sizes.hiL
      have h2 := hl2.pos
      linarith
    obtain ⟨wx, wx1, wx2⟩ := tube_grad_comp hF H.scale H.ho.1 H.hd.1 t1 H.ha H.aν aL m0 ma hq8 q3 q1 cx ε0
    obtain ⟨wy, wy1, wy2⟩ := tube_grad_comp hF H.scale H.ho.2.1 H.hd.2.1 t1 H.hb H.bν bL m0 mb hq8 q4 q2 cy ε0
    have hw : IsV (cylNormal a' b' (org + Vec3.muls dir t)) (⟨wx, wy, 0⟩ : Vec3 K) := ⟨wx1, wy1, hF.nat0⟩
    have hsm' : (700 * u + 40 * ε) * L ^ 2 ≤ 24 / 100 * m ^ 2 := by
      have h1 : (700 * u + 40 * ε) * L ^ 2 ≤ 24 / 100 * (3000 * u + 200 * ε) * L ^ 2 := mul_le_mul_of_nonneg_right (by linarith) (by positivity)
      linarith
    have hlow := grad_large a0 b0 aL bL ma mb m0 hside hsm'
    have mm : 0 < m ^ 2 := by positivity
    have hup1 : |(P.x + k * D.x) / a ^ 2| ≤ 108 / 100 * (L / m ^ 2) := by
      rw [abs_div, abs_of_pos (by positivity : 0 < a ^ 2), mul_div_assoc']
      exact div_le_div₀ (by positivity) bx mm (pow_le_pow_left₀ m0.le ma 2)
    have hup2 : |(P.y + k * D.y) / b ^ 2| ≤ 108 / 100 * (L / m ^ 2) := by
      rw [abs_div, abs_of_pos (by positivity : 0 < b ^ 2), mul_div_assoc']
      exact div_le_div₀ (by positivity) bY mm (pow_le_pow_left₀ m0.le mb 2)
    have hLm : 0 ≤ L / m ^ 2 := by positivity
    exact side_normal_near hF (g := tubeGrad a b (along P D k)) hR hortho hε hs1 hs2 m0 (by linarith) hl1 hl2 hw rfl rfl
      wx2 wy2 hlow ((add_le_add hup1 hup2).trans (by linarith)) hsm

/-- what passed the tests, seen from each branch -/
theorem cyl_case_shade (hF : F.Rounds u η hi) (hfa : F.Faithful u η) (hodd : F.Odd) (hord : F.Ordered)
    {q : Cylinder (XF F)} {o d c : Vec3 K} {R : Mat3 K} (ho : IsV org o) (hd : IsV dir d)
    (hq : CylWithin u η hi ε ν μ L o q dir c a b h R) (hε : ε ≤ 1 / 1000) (hN : |Vec3.dot d d - 1| ≤ 11 * u)
    (hs1 : Scale u η hi (1 / 2)) (hs2 : Scale u η hi 8)
    (m0 : 0 < m) (ma : m ≤ a) (mb : m ≤ b) (hl1 : Scale u η hi (1 / L)) (hl2 : Scale u η hi (8 * L / m ^ 2))
    (hsm : (3000 * u + 200 * ε) * L ^ 2 ≤ m ^ 2) {t : XF F} {org' dir' : Vec3 (XF F)}
    (horg : org' = q.rotation.trans.mulVec (org - q.center)) (hdir : dir' = q.rotation.trans.mulVec dir)
    (e2 : CylCase q.a q.b q.height org' dir' t) :
    ∃ k v, (Vec3.norm (Vec3.smul t dir')).Is k ∧ 0 ≤ k ∧ k ≤ 4 * L ∧ v = R.trans.mulVec (along o d k - c) ∧
      (t = (q.height / nat 2 - org'.z) / dir'.z → (eq dir'.z (nat 0) = false ∨ gt dir'.z (nat 0) = true) →
        NearCap a b h ((700 * u + 40 * ε) * ((a ^ 2 + b ^ 2) * L ^ 2)) ((300 * u + 20 * ε) * L) 1 v) ∧
      (t = (-q.height / nat 2 - org'.z) / dir'.z → (eq dir'.z (nat 0) = false ∨ lt dir'.z (nat 0) = true) →
        NearCap a b h ((700 * u + 40 * ε) * ((a ^ 2 + b ^ 2) * L ^ 2)) ((300 * u + 20 * ε) * L) (-1) v) ∧
      (SideTests q.a q.b q.height org' dir' t →
        NearSide a b h ((700 * u + 40 * ε) * ((a ^ 2 + b ^ 2) * L ^ 2)) ((300 * u + 20 * ε) * L) v ∧
        (∃ n', IsV (Vec3.normalize (cylNg q.rotation (cylNormal q.a q.b (org' + Vec3.muls dir' t)))) n' ∧
          |Vec3.dot n' n' - 1| ≤ 11 * u ∧ NearDir ((4300 * u + 260 * ε) * (L / m) ^ 2) n' (R.mulVec (tubeGrad a b v))) ∧
        (∃ n', IsV (cylNg q.rotation (cylNormal q.a q.b (org' + Vec3.muls dir' t))) n' ∧
          |Vec3.dot n' n' - 1| ≤ 120 * u + 4 * ε ∧ NearDir ((4300 * u + 260 * ε) * (L / m) ^ 2) n' (R.mulVec (tubeGrad a b v))) ∧
        (∃ n', IsV (Vec3.normalize (cylNormal q.a q.b (org' + Vec3.muls dir' t))) n' ∧
          |Vec3.dot n' n' - 1| ≤ 11 * u ∧ NearDir ((4300 * u + 260 * ε) * (L / m) ^ 2) n' (tubeGrad a b v))) ∧
      (InnerTests q.a q.b q.height org' →
        NearSolid a b h (-(60 * (u * ((a ^ 2 + b ^ 2) * L ^ 2)))) (10 * (u * L)) (R.trans.mulVec (o - c))) := by
  subst horg hdir
  have hs := hq.scale.toScale
  obtain ⟨u0, u1, η0, ηu, ηL, ηLL, ηuLL, ηuL, L0, uL0, uLL0, uL1, uLL1, hi1, hiL, hiLL⟩ := hs.sizes
  have ε0 := hq.ortho.rows.nonneg
  have a0 := hq.scale.ν_pos.trans_le hq.aν
  have b0 := hq.scale.ν_pos.trans_le hq.bν
  have h0 := hq.h0
  have hsz := hq.size
  have c0 : 0 ≤ |o.x - c.x| + |o.y - c.y| + |o.z - c.z| := by positivity
  obtain ⟨p', d', hl, H⟩ := hq.float hF hfa hodd ho hd hε hN
  have hp' := H.ho
  have hd' := H.hd
  have uL2 : u * L ≤ 1 / 2 ^ 20 * L := mul_le_mul_of_nonneg_right u1 L0.le
  have εL1 : ε * L ≤ 1 / 1000 * L := mul_le_mul_of_nonneg_right hε L0.le
  set P := R.trans.mulVec (o - c) with hP
  set D := R.trans.mulVec d with hD
  have px : |P.x| ≤ 102 / 100 * L := by
    have := abs_sub_le' hl.sx hl.px
    rw [sub_sub_cancel] at this
    linarith
  have py : |P.y| ≤ 102 / 100 * L := by
    have := abs_sub_le' hl.sy hl.py
    rw [sub_sub_cancel] at this
    linarith
  set S := (a ^ 2 + b ^ 2) * L ^ 2 with hS
  have uS0 : 0 ≤ u * S := by positivity
  have hH := mul_le_mul_of_nonneg_left (tubeH_le' a0 b0 (by linarith) hl.sx hl.sy) u0.le
  have hn := tubeE_near (a := a) (b := b) hl.px hl.py (B := 102 / 100 * L) (by linarith [hl.sx]) (by linarith [hl.sy]) px py
  have e4 : (a ^ 2 + b ^ 2) * (2 * (102 / 100 * L) * (6 * (u * L))) = 2 * (102 / 100) * 6 * (u * S) := by rw [hS]; ring
  rw [e4] at hn
  obtain ⟨x1, f1, f2, -, -, f5, -, f7⟩ := H.half
  have hx1 : |x1| ≤ 52 / 100 * L := by
    rw [abs_of_nonneg f5]
    have := (abs_le.1 f7).2
    linarith
  have hout : (∃ h1, (q.height / nat 2).Is h1 ∧ h1 < |p'.z|) ∨ 27 * (u * tubeH a b p'.x p'.y) ≤ |tubeE a b p'.x p'.y| := by
    rcases hq.clear with hcl | hcl
    · right
      have h1 := abs_sub_abs_le_abs_sub (tubeE a b P.x P.y) (tubeE a b p'.x p'.y)
      linarith
    · left
      refine ⟨x1, f1, ?_⟩
      have h1 := (abs_le.1 f7).2
      have h2 := abs_sub_abs_le_abs_sub P.z p'.z
      have h3 := hl.pz
      rw [abs_sub_comm] at h3
      linarith
  obtain ⟨T, t1, t2⟩ := cyl_case_near H hord hout e2
  obtain ⟨k, k1, k2, k3, k4, k5⟩ := cyl_at_near hF hs hε ε0 t1 hd' hl a0 b0 (by linarith) h0 hq.asp1 hq.asp2 t2
  obtain ⟨q1, q2, q3, q4⟩ := cyl_at_coords hs a0 b0 h0 (by linarith) hl.sx hl.sy hq.asp1 hq.asp2 t2
  obtain ⟨D1, D2, D3⟩ := near_one_comp (e := D) (by linarith [hl.nd])
  have cx := coord_at' hs hl.px hl.dx t2.1 k4 k3 D1 ε0
  have cy := coord_at' hs hl.py hl.dy t2.1 k4 k3 D2 ε0
  have cz := coord_at' hs hl.pz hl.dz t2.1 k4 k3 D3 ε0
  have ez : (along P D k).z = P.z + k * D.z := rfl
  have hE : tubeE a b (along P D k).x (along P D k).y ≤ (700 * u + 40 * ε) * S := by
    rcases k5 with ⟨g1, -⟩ | ⟨-, g1⟩
    · exact (le_abs_self _).trans g1
    · exact g1
  have e6 : (300 * u + 20 * ε) * L = 300 * (u * L) + 20 * (ε * L) := by ring
  have εL0 : 0 ≤ ε * L := by positivity
  have tube := fun hst => tube_shade (P := P) (D := D) (k := k) H hq.rot hq.ortho hε hs1 hs2 m0 ma mb hl1 hl2 hsm t1 q1 q2 q3 q4 cx cy cz hst
  -- the caps
  have cap : ∀ {c' : XF F} {c σ : K}, c'.Is c → |c| ≤ 52 / 100 * L → |c - σ * (h / 2)| ≤ 6 / 10 * (u * L) → d'.z ≠ 0 →
      t = (c' - (q.rotation.trans.mulVec (org - q.center)).z) / (q.rotation.trans.mulVec dir).z →
      NearCap a b h ((700 * u + 40 * ε) * S) ((300 * u + 20 * ε) * L) σ (along P D k) := by
    intro c' c σ g1 g2 g3 g4 g5
    obtain ⟨G, T', -, G2, -, -, G5, -⟩ := cap_param H g4 g1 g2
    rw [← g5] at G2
    obtain rfl := G2.unique t1
    refine ⟨?_, hE⟩
    rw [ez, e6]
    rw [abs_sub_comm] at cz
    refine (abs_near_trans (abs_near_trans cz G5) g3).trans ?_
    linarith
  have hdz : ∀ {Q : Prop}, (eq (q.rotation.trans.mulVec dir).z (nat 0) = false ∨ Q) → (Q → d'.z ≠ 0) → d'.z ≠ 0 := by
    rintro Q (g | g) hQ
    · intro hz
      rw [(hd'.2.2.eq hF.nat0).2 hz] at g
      cases g
    · exact hQ g
  refine ⟨k, along P D k, k1, k2, by linarith [(abs_le.1 k3).2], by rw [trans_along'], fun g1 g2 => ?_, fun g1 g2 => ?_, tube, fun g2 => ?_⟩
  · exact cap f1 hx1 (by rw [one_mul]; exact f7) (hdz g2 fun hQ => ((hd'.2.2.gt hF.nat0).1 hQ).ne') g1
  · exact cap f2 (by rw [abs_neg]; exact hx1)
      (by rw [show -x1 - -1 * (h / 2) = -(x1 - h / 2) by ring, abs_neg]; exact f7) (hdz g2 fun hQ => ((hd'.2.2.lt hF.nat0).1 hQ).ne) g1
  · have i1 := (hp'.2.2.ge f2).1 g2.h1
    have i2 := (hp'.2.2.le f1).1 g2.h2
    have i3 := inner_test H g2.h3
    have hz : |P.z| ≤ h / 2 + 10 * (u * L) := by
      have i4 : |p'.z| ≤ x1 := abs_le.2 ⟨i1, i2⟩
      have i5 := abs_sub_le' i4 hl.pz
      rw [sub_sub_cancel] at i5
      have := (abs_le.1 f7).2
      linarith
    refine ⟨?_, hz⟩
    have hcl := hq.clear.resolve_right (not_lt.2 hz)
    rcases abs_cases (tubeE a b P.x P.y) with ⟨ea, _⟩ | ⟨ea, _⟩
    · rw [ea] at hcl
      have i6 := (abs_le.1 hn).2
      have hSpos : 0 < u * S := by positivity
      linarith
    · rw [ea] at hcl
      linarith

/-- a recorded hit, with its normal -/
theorem cyl_hit_shade (hF : F.Rounds u η hi) (hfa : F.Faithful u η) (hodd : F.Odd) (hord : F.Ordered)
    {i i' : PlaneI (XF F)} {q : Cylinder (XF F)} (ray : Ray (XF F)) {o d c : Vec3 K} {R : Mat3 K}
    (ho : IsV i.rayOrg o) (hd : IsV i.rayDir d) (hq : CylWithin u η hi ε ν μ L o q i.rayDir c a b h R) (hε : ε ≤ 1 / 1000)
    (hN : |Vec3.dot d d - 1| ≤ 11 * u) (hs1 : Scale u η hi (1 / 2)) (hs2 : Scale u η hi 8)
    (m0 : 0 < m) (ma : m ≤ a) (mb : m ≤ b) (hl1 : Scale u η hi (1 / L)) (hl2 : Scale u η hi (8 * L / m ^ 2))
    (hsm : (3000 * u + 200 * ε) * L ^ 2 ≤ m ^ 2) (hit : cylIntersect i q ray = (i', true)) :
    ∃ k n, i'.hd.Is k ∧ 0 ≤ k ∧ k ≤ 4 * L ∧ i'.primId = q.primId ∧ IsV (Vec3.normalize i'.normal) n ∧ |Vec3.dot n n - 1| ≤ 11 * u ∧
      NearShade a b h ((700 * u + 40 * ε) * ((a ^ 2 + b ^ 2) * L ^ 2)) ((300 * u + 20 * ε) * L) (160 * u + ε)
        ((4300 * u + 260 * ε) * (L / m) ^ 2) (-(60 * (u * ((a ^ 2 + b ^ 2) * L ^ 2)))) (10 * (u * L)) R (R.trans.mulVec (o - c))
        (R.trans.mulVec (along o d k - c)) n := by
  obtain ⟨t, n, e1, e2, e3⟩ := cylIntersect_faced i q ray (by rw [hit])
  rw [hit] at e1
  have e5 : i' = (i.record n t (q.rotation.trans.mulVec i.rayDir) q.primId).1 := congrArg Prod.fst e1
  obtain ⟨k, v, k1, k2, k3, rfl, ktop, kbot, kside, kin⟩ :=
    cyl_case_shade hF hfa hodd hord ho hd hq hε hN hs1 hs2 m0 ma mb hl1 hl2 hsm rfl rfl e2
  suffices hsuf : ∃ n', IsV (Vec3.normalize n) n' ∧ |Vec3.dot n' n' - 1| ≤ 11 * u ∧
      NearShade a b h ((700 * u + 40 * ε) * ((a ^ 2 + b ^ 2) * L ^ 2)) ((300 * u + 20 * ε) * L) (160 * u + ε)
        ((4300 * u + 260 * ε) * (L / m) ^ 2) (-(60 * (u * ((a ^ 2 + b ^ 2) * L ^ 2)))) (10 * (u * L)) R (R.trans.mulVec (o - c))
        (R.trans.mulVec (along o d k - c)) n' by
    obtain ⟨n', s1, s2, s3⟩ := hsuf
    exact ⟨k, n', by rw [e5]; exact k1, k2, k3, by rw [e5]; rfl, by rw [e5]; exact s1, s2, s3⟩
  cases e3 with
  | top g1 g2 g3 =>
    obtain ⟨n', s1, s2, s3⟩ := cap_normal_near hF hq.rot hq.ortho hε hF.nat1 (.inl rfl) hs1 hs2
    exact ⟨n', by rw [g3]; exact s1, s2, .inl ⟨1, .inl rfl, ktop g1 g2, s3⟩⟩
  | bottom g1 g2 g3 =>
    obtain ⟨n', s1, s2, s3⟩ := cap_normal_near hF hq.rot hq.ortho hε hF.nat1.neg (.inr rfl) hs1 hs2
    exact ⟨n', by rw [g3]; exact s1, s2, .inl ⟨-1, .inr rfl, kbot g1 g2, s3⟩⟩
  | side g1 g2 =>
    obtain ⟨r1, ⟨n', s1, s2, s3⟩, -⟩ := kside g1
    exact ⟨n', by rw [g2]; exact s1, s2, .inr ⟨r1, .inl s3⟩⟩
  | bare g1 g2 g3 =>
    obtain ⟨r1, -, -, ⟨n', s1, s2, s3⟩⟩ := kside g1
    exact ⟨n', by rw [g3]; exact s1, s2, .inr ⟨r1, .inr ⟨kin g2, s3⟩⟩⟩

end
end Blazert
