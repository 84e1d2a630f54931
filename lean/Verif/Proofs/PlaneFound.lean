/- Rectangles that are met clearly are found, with rounding. -/
import Verif.Proofs.PlaneRound
import Verif.Proofs.SphereScan
import Verif.Proofs.Source
import Verif.Proofs.Plane

set_option autoImplicit false
set_option linter.unusedSectionVars false

namespace Blazert
open Scalar

section
variable {K : Type} [Field K] [LinearOrder K] [IsStrictOrderedRing K] [FloorRing K] {F : Fmt K} {u η hi L ε M κ : K}

/-! ### the test -/

/-- what the margin is good for -/
structure Margin (u ε L M κ : K) : Prop where
  pos : 0 < M
  half : M ≤ L / 2
  steep : 400 * (u + ε) ≤ κ
  large : 198 * ((u + ε) * L) ≤ M

theorem Margin.of {e : K} (hs : Scale u η hi L) (ε0 : 0 ≤ ε) (hκ : 0 < κ) (hM : 200 * (u + ε) * L ≤ M * κ) (hML : M ≤ L / 2)
    (h1 : κ ≤ |e|) (h2 : |e| ≤ 101 / 100) : Margin u ε L M κ := by
  obtain ⟨u0, u1, η0, ηu, ηL, ηLL, ηuLL, ηuL, L0, uL0, uLL0, uL1, uLL1, hi1, hiL, hiLL⟩ := hs.sizes
  have hW : 0 < (u + ε) * L := mul_pos (by linarith) L0
  have hM0 : 0 < M := by
    by_contra hneg
    have : M * κ ≤ 0 := mul_nonpos_of_nonpos_of_nonneg (not_lt.1 hneg) hκ.le
    linarith
  refine ⟨hM0, hML, ?_, ?_⟩
  · have h3 : M * κ ≤ L / 2 * κ := mul_le_mul_of_nonneg_right hML hκ.le
    have h4 : 400 * (u + ε) * L ≤ κ * L := by linarith
    exact le_of_mul_le_mul_right h4 L0
  · have h3 : M * κ ≤ M * (101 / 100) := mul_le_mul_of_nonneg_left (h1.trans h2) hM0.le
    linarith

/-- where the plane is met: the parameter computed, against the true one -/
theorem found_param (hs : Scale u η hi L) (ε0 : 0 ≤ ε) (hκ : 0 < κ) (hM : 200 * (u + ε) * L ≤ M * κ) (hm : Margin u ε L M κ)
    {p e p' e' τ Q : K} (hp : |p' - p| ≤ 6 * (u * L)) (he : |e' - e| ≤ 8 * u) (hQ : |p + τ * e| ≤ 1 / 2 * (ε * L))
    (hτ0 : 0 ≤ τ) (hτ : τ ≤ 5 / 2 * L) (hκe : κ ≤ |e|) : e' ≠ 0 ∧ |-p' / e' - τ| ≤ 14 / 100 * M := by
  obtain ⟨u0, u1, η0, ηu, ηL, ηLL, ηuLL, ηuL, L0, uL0, uLL0, uL1, uLL1, hi1, hiL, hiLL⟩ := hs.sizes
  obtain ⟨M0, -, m1, m2⟩ := hm
  have he1 : 98 / 100 * κ ≤ |e'| := by
    have := abs_le_of_near (b := e') (a := e) (e := 8 * u) (by rw [abs_sub_comm]; exact he) le_rfl
    linarith
  have he0 : 0 < |e'| := by linarith
  have hne : e' ≠ 0 := abs_pos.1 he0
  refine ⟨hne, ?_⟩
  have hτ' : |τ| ≤ 5 / 2 * L := by rw [abs_of_nonneg hτ0]; exact hτ
  have h1 := abs_mul_le hτ' he
  have h2 : |p' + τ * e'| ≤ 26 * (u * L) + 1 / 2 * (ε * L) := by
    have e1 : p' + τ * e' = (p + τ * e) + (p' - p) + τ * (e' - e) := by ring
    rw [e1]
    refine (abs_add_le' (abs_add_le' hQ hp) h1).trans ?_
    linarith
  have e2 : -p' / e' - τ = -(p' + τ * e') / e' := by field_simp; ring
  rw [e2, abs_div, abs_neg, div_le_iff₀ he0]
  have h3 : 14 / 100 * M * (98 / 100 * κ) ≤ 14 / 100 * M * |e'| := mul_le_mul_of_nonneg_left he1 (by linarith)
  have h4 : 0 ≤ ε * L := mul_nonneg ε0 L0.le
  have h5 : 200 * (u + ε) * L = 200 * (u * L) + 200 * (ε * L) := by ring
  linarith

/-- the position computed, against the true one -/
theorem found_pos (hF : F.Rounds u η hi) (hs : Scale u η hi L) (ε0 : 0 ≤ ε) (hm : Margin u ε L M κ) {x1 t v : XF F}
    {p e p' e' τ T x : K} (hx : x1.Is p') (ht : t.Is T) (hv : v.Is e') (hsx : |p'| ≤ 101 / 100 * L)
    (hp : |p' - p| ≤ 6 * (u * L)) (he : |e' - e| ≤ 8 * u) (he1 : |e| ≤ 101 / 100) (hQ : |(p + τ * e) - x| ≤ 1 / 2 * (ε * L))
    (hT : |T| ≤ 26 / 10 * L) (hTτ : |T - τ| ≤ 16 / 100 * M) : ∃ X, (x1 + t * v).Is X ∧ |X - x| ≤ 34 / 100 * M := by
  obtain ⟨u0, u1, η0, ηu, ηL, ηLL, ηuLL, ηuL, L0, uL0, uLL0, uL1, uLL1, hi1, hiL, hiLL⟩ := hs.sizes
  obtain ⟨M0, -, m1, m2⟩ := hm
  have he2 : |e'| ≤ 1011 / 1000 := by have := abs_le_of_near he he1; linarith
  have h1 : |T * e'| ≤ 263 / 100 * L := (abs_mul_le hT he2).trans (by linarith)
  obtain ⟨P, P1, P2, -⟩ := rnd_mul hF.toGradual u0.le ht hv h1 (by linarith)
  have P3 := abs_le_of_near P2 h1
  have h2 : |p' + P| ≤ 37 / 10 * L := (abs_add_le' hsx P3).trans (by linarith)
  obtain ⟨X, X1, X2, -⟩ := rnd_add hF.toGradual u0.le hx P1 h2 (by linarith)
  refine ⟨X, X1, ?_⟩
  have h3 := abs_mul_le hT he
  have h4 := abs_mul_le hTτ he1
  have e1 : X - x = (X - (p' + P)) + (P - T * e') + (p' - p) + T * (e' - e) + (T - τ) * e + ((p + τ * e) - x) := by ring
  rw [e1]
  refine (abs_add_le' (abs_add_le' (abs_add_le' (abs_add_le' (abs_add_le' X2 P2) hp) h3) h4) hQ).trans ?_
  have h5 : 0 ≤ ε * L := mul_nonneg ε0 L0.le
  have h6 : (u + ε) * L = u * L + ε * L := by ring
  rw [h6] at m2
  linarith

theorem found_side (hF : F.Rounds u η hi) (hodd : F.Odd) (hs : Scale u η hi L) (ε0 : 0 ≤ ε) (hm : Margin u ε L M κ)
    {w v : XF F} {a x X : K} (hw : w.Is a) (ha : |a| ≤ L) (hv : v.Is X) (hx : |x| ≤ a / 2 - M) (hX : |X - x| ≤ 34 / 100 * M) :
    gt v (-w / nat 2) = true ∧ lt v (w / nat 2) = true := by
  obtain ⟨u0, u1, η0, ηu, ηL, ηLL, ηuLL, ηuL, L0, uL0, uLL0, uL1, uLL1, hi1, hiL, hiLL⟩ := hs.sizes
  obtain ⟨M0, -, m1, m2⟩ := hm
  obtain ⟨x1, h1, h2, -⟩ := half_is hF hs hw ha
  have h3 := (abs_le.1 (near_half hs ha h2).1).1
  obtain ⟨h4, h5⟩ := abs_le.1 (abs_le_of_near hX hx)
  have h6 : 0 ≤ ε * L := mul_nonneg ε0 L0.le
  have h7 : (u + ε) * L = u * L + ε * L := by ring
  rw [h7] at m2
  exact ⟨(XF.Is.gt hv (neg_half_is hodd hF.nat2 hw h1)).2 (by linarith), (XF.Is.lt hv h1).2 (by linarith)⟩

/-- the first branch of the test -/
theorem planeIntersect_first (i : PlaneI (XF F)) (pl : Plane (XF F)) (ray : Ray (XF F))
    (h1 : gt (-(pl.rotation.trans.mulVec (i.rayOrg - pl.center)).z / (pl.rotation.trans.mulVec i.rayDir).z) i.minHit = true)
    (h2 : lt (-(pl.rotation.trans.mulVec (i.rayOrg - pl.center)).z / (pl.rotation.trans.mulVec i.rayDir).z) i.hd = true)
    (h3 : gt ((pl.rotation.trans.mulVec (i.rayOrg - pl.center)).x +
        (-(pl.rotation.trans.mulVec (i.rayOrg - pl.center)).z / (pl.rotation.trans.mulVec i.rayDir).z) *
          (pl.rotation.trans.mulVec i.rayDir).x) (-pl.dx / nat 2) = true)
    (h4 : lt ((pl.rotation.trans.mulVec (i.rayOrg - pl.center)).x +
        (-(pl.rotation.trans.mulVec (i.rayOrg - pl.center)).z / (pl.rotation.trans.mulVec i.rayDir).z) *
          (pl.rotation.trans.mulVec i.rayDir).x) (pl.dx / nat 2) = true)
    (h5 : gt ((pl.rotation.trans.mulVec (i.rayOrg - pl.center)).y +
        (-(pl.rotation.trans.mulVec (i.rayOrg - pl.center)).z / (pl.rotation.trans.mulVec i.rayDir).z) *
          (pl.rotation.trans.mulVec i.rayDir).y) (-pl.dy / nat 2) = true)
    (h6 : lt ((pl.rotation.trans.mulVec (i.rayOrg - pl.center)).y +
        (-(pl.rotation.trans.mulVec (i.rayOrg - pl.center)).z / (pl.rotation.trans.mulVec i.rayDir).z) *
          (pl.rotation.trans.mulVec i.rayDir).y) (pl.dy / nat 2) = true) :
    ∃ n, planeIntersect i pl ray =
      i.record n (-(pl.rotation.trans.mulVec (i.rayOrg - pl.center)).z / (pl.rotation.trans.mulVec i.rayDir).z)
        (pl.rotation.trans.mulVec i.rayDir) pl.primId := by
  unfold planeIntersect
  dsimp only
  rw [if_pos]
  · exact ⟨_, rfl⟩
  · simp only [Bool.and_eq_true]
    exact ⟨⟨⟨⟨⟨h1, h2⟩, h3⟩, h4⟩, h5⟩, h6⟩

theorem found_le (L0 : 0 < L) {p D : Vec3 K} {τ x y a b : K} (hε : ε * L ≤ 1 / 1000 * L) (hτ0 : 0 ≤ τ)
    (hN : 99 / 100 ≤ Vec3.dot D D) (px : |p.x| ≤ 102 / 100 * L) (py : |p.y| ≤ 102 / 100 * L) (pz : |p.z| ≤ 1015 / 1000 * L)
    (hx : |x| ≤ L / 2) (hy : |y| ≤ L / 2) (qx : |(p.x + τ * D.x) - x| ≤ 1 / 2 * (ε * L))
    (qy : |(p.y + τ * D.y) - y| ≤ 1 / 2 * (ε * L)) (qz : |p.z + τ * D.z| ≤ 1 / 2 * (ε * L)) : τ ≤ 5 / 2 * L := by
  refine plane_T_le L0 hτ0 hN ?_ ?_ ?_
  · have := abs_sub_le' (abs_le_of_near qx hx) px
    rw [show p.x + τ * D.x - p.x = τ * D.x by ring] at this
    linarith
  · have := abs_sub_le' (abs_le_of_near qy hy) py
    rw [show p.y + τ * D.y - p.y = τ * D.y by ring] at this
    linarith
  · have := abs_sub_le' qz pz
    rw [show p.z + τ * D.z - p.z = τ * D.z by ring] at this
    linarith

/-- the local coordinates of the point that is met -/
theorem met_local {R : Mat3 K} {o d c : Vec3 K} {τ x y a b : K} (hortho : NearOrtho ε R)
    (hpt : along o d τ = c + R.mulVec ⟨x, y, 0⟩) (hxy : |x| + |y| ≤ L / 2) :
    |((R.trans.mulVec (o - c)).x + τ * (R.trans.mulVec d).x) - x| ≤ 1 / 2 * (ε * L) ∧
    |((R.trans.mulVec (o - c)).y + τ * (R.trans.mulVec d).y) - y| ≤ 1 / 2 * (ε * L) ∧
    |(R.trans.mulVec (o - c)).z + τ * (R.trans.mulVec d).z| ≤ 1 / 2 * (ε * L) := by
  have ε0 := hortho.rows.nonneg
  obtain ⟨h1, h2, h3⟩ := hortho.forth x y
  have h4 : ε * (|x| + |y|) ≤ 1 / 2 * (ε * L) := by
    have := mul_le_mul_of_nonneg_left hxy ε0
    linarith
  have e := trans_along' R o d c τ
  have e1 : c + R.mulVec ⟨x, y, 0⟩ - c = R.mulVec ⟨x, y, 0⟩ := by ext <;> simp
  rw [hpt, e1] at e
  rw [e] at h1 h2 h3
  exact ⟨h1.trans h4, h2.trans h4, h3.trans h4⟩

theorem plane_hit_found (hF : F.Rounds u η hi) (hodd : F.Odd) (hs : Scale u η hi L)
    {i : PlaneI (XF F)} {q : Plane (XF F)} (ray : Ray (XF F)) {o d c : Vec3 K} {a b m τ : K} {R : Mat3 K}
    (ho : IsV i.rayOrg o) (hd : IsV i.rayDir d) (hq : PlaneWithin ε o L q c a b R) (hε : ε ≤ 1 / 1000)
    (hm : i.minHit.Is m) (hm0 : 0 ≤ m) (hN : |Vec3.dot d d - 1| ≤ 11 * u) (hmeet : MeetsRect c a b R o d m τ M κ)
    (hM : 200 * (u + ε) * L ≤ M * κ) (hhd : i.hd = .inf false ∨ ∃ k, i.hd.Is k) :
    Margin u ε L M κ ∧ τ ≤ 5 / 2 * L ∧ ∃ k, (planeIntersect i q ray).1.hd.Is k ∧ k ≤ τ + M := by
  obtain ⟨u0, u1, η0, ηu, ηL, ηLL, ηuLL, ηuL, L0, uL0, uLL0, uL1, uLL1, hi1, hiL, hiLL⟩ := hs.sizes
  have ε0 := hq.ortho.rows.nonneg
  have εL0 : 0 ≤ ε * L := mul_nonneg ε0 L0.le
  have εL1 : ε * L ≤ 1 / 1000 * L := mul_le_mul_of_nonneg_right hε L0.le
  have hsz := hq.size
  have a0 := abs_nonneg a
  have b0 := abs_nonneg b
  have c0 : 0 ≤ |o.x - c.x| + |o.y - c.y| + |o.z - c.z| := by positivity
  obtain ⟨p', d', hp', hd', hl⟩ := plane_local hF hs ho hd hq.center hq.rot hq.ortho hε hN (by linarith)
  obtain ⟨⟨x, y, hpt, hx, hy⟩, hlate, hκ, hsteep⟩ := hmeet
  have x0 := abs_nonneg x
  have y0 := abs_nonneg y
  have a1 := le_abs_self a
  have b1 := le_abs_self b
  have hsteep' : κ ≤ |(R.trans.mulVec d).z| := hsteep
  have hnd : 11 * u + 4 * ε ≤ 5 / 1000 := by linarith
  obtain ⟨D1, D2, D3⟩ := near_one_comp (e := R.trans.mulVec d) (by linarith [hl.nd])
  have hmar : Margin u ε L M κ := Margin.of hs ε0 hκ hM (by linarith) hsteep' D3
  have M0 := hmar.pos
  obtain ⟨qx, qy, qz⟩ := met_local (L := L) (a := a) (b := b) hq.ortho hpt (by linarith)
  set p := R.trans.mulVec (o - c) with hp
  set D := R.trans.mulVec d with hD
  have hτ0 : 0 ≤ τ := by linarith
  have near' : ∀ {s t : K}, |s - t| ≤ 6 * (u * L) → |s| ≤ 101 / 100 * L → |t| ≤ 1011 / 1000 * L := by
    intro s t h1 h2
    have := abs_le_of_near (a := t) (b := s) (e := 6 * (u * L)) (by rw [abs_sub_comm]; exact h1) h2
    linarith
  have hτ : τ ≤ 5 / 2 * L := by
    refine found_le (p := p) (D := D) (a := a) (b := b) (x := x) (y := y) L0 εL1 hτ0 ?_ ?_ ?_ ?_ (by linarith) (by linarith) qx qy qz
    · have := (abs_le.1 hl.nd).1; linarith
    · have := near' hl.px hl.sx; linarith
    · have := near' hl.py hl.sy; linarith
    · have := near' hl.pz hl.sz; linarith
  refine ⟨hmar, hτ, ?_⟩
  -- the parameter
  obtain ⟨hz0, hT0⟩ := found_param (Q := 0) hs ε0 hκ hM hmar hl.pz hl.dz qz hτ0 hτ hsteep'
  have hML := hmar.half
  have hlarge := hmar.large
  have hW : (u + ε) * L = u * L + ε * L := by ring
  rw [hW] at hlarge
  have hT1 : |-p'.z / d'.z| ≤ 258 / 100 * L := by
    have := abs_le_of_near hT0 (by rw [abs_of_nonneg hτ0]; exact hτ : |τ| ≤ 5 / 2 * L)
    linarith
  obtain ⟨T, hT, hT2, -⟩ := rnd_div hF.toGradual u0.le hp'.2.2.neg hd'.2.2 hz0 hT1 (by linarith)
  have hT3 : |T| ≤ 26 / 10 * L := by have := abs_le_of_near hT2 hT1; linarith
  have hTτ : |T - τ| ≤ 16 / 100 * M := by have := abs_near_trans hT2 hT0; linarith
  obtain ⟨t1, t2⟩ := abs_le.1 hTτ
  have hgt : gt (-(q.rotation.trans.mulVec (i.rayOrg - q.center)).z / (q.rotation.trans.mulVec i.rayDir).z) i.minHit = true :=
    (XF.Is.gt hT hm).2 (by linarith)
  by_cases hlt : lt (-(q.rotation.trans.mulVec (i.rayOrg - q.center)).z / (q.rotation.trans.mulVec i.rayDir).z) i.hd = true
  · -- closer than what is known
    obtain ⟨X, hX, hX1⟩ := found_pos hF hs ε0 hmar hp'.1 hT hd'.1 hl.sx hl.px hl.dx D1 qx hT3 hTτ
    obtain ⟨Y, hY, hY1⟩ := found_pos hF hs ε0 hmar hp'.2.1 hT hd'.2.1 hl.sy hl.py hl.dy D2 qy hT3 hTτ
    obtain ⟨g1, g2⟩ := found_side hF hodd hs ε0 hmar hq.dx (by linarith) hX hx hX1
    obtain ⟨g3, g4⟩ := found_side hF hodd hs ε0 hmar hq.dy (by linarith) hY hy hY1
    obtain ⟨n, e⟩ := planeIntersect_first i q ray hgt hlt g1 g2 g3 g4
    rw [e]
    obtain ⟨n1, n2⟩ := abs_le.1 hl.nd'
    have hT4 : 0 ≤ T := by linarith
    obtain ⟨r, r1, r0, r2⟩ := norm_scaled hF hs hT hd' (by linarith) (hT3.trans (by linarith))
    have r3 := dist_near hs r0 hT4 hl.nd' (by linarith) r2
    refine ⟨r, r1, ?_⟩
    have h1 := mul_le_mul_of_nonneg_left ((le_abs_self T).trans hT3) (by linarith : 0 ≤ 42 * u + 4 * ε + 13 * u)
    have h2 := (abs_le.1 r3).2
    linarith
  · -- the known hit is closer
    have hsame : planeIntersect i q ray = (i, false) := by
      rcases planeIntersect_taken i q ray with e | ⟨-, g, -⟩
      · exact e
      · exact absurd g hlt
    rw [hsame]
    rcases hhd with h | ⟨k, hk⟩
    · exact absurd ((XF.Is.lt_iff hT).2 (.inl h)) hlt
    · refine ⟨k, hk, ?_⟩
      have : ¬ T < k := fun h => hlt ((XF.Is.lt hT hk).2 h)
      linarith

/-! ### later tests -/

theorem plane_drift (hF : F.Rounds u η hi) (hfa : F.Faithful u η) (hodd : F.Odd) (hs : Scale u η hi L) {ray : Ray (XF F)}
    {o d : Vec3 K} {m : K} (hr : RayNear ray o d m u) {s s' : PlaneI (XF F)} {q : Plane (XF F)} {c : Vec3 K} {a b : K}
    {R : Mat3 K} (hk : PlaneStart ray s) (hε : ε ≤ 1 / 1000) (hq : PlaneWithin ε o L q c a b R)
    (h : planeIntersect s q ray = (s', true)) :
    ∃ k, s'.hd.Is k ∧ ∀ k', s.hd.Is k' → k ≤ k' + 152 * ((u + ε) * L) := by
  obtain ⟨h1, h2, h3⟩ := hk
  obtain ⟨k, t, e1, e2, e3, e4, e5, e6, -⟩ := plane_hit_near hF hfa hodd hs ray (h1 ▸ hr.org) (h2 ▸ hr.dir) hq hε
    (h3 ▸ hr.min) hr.min0 hr.unit h
  refine ⟨k, e1, fun k' hk' => ?_⟩
  have h4 := e5 k' hk'
  have h5 := (abs_le.1 e6).2
  have ε0 := hq.ortho.rows.nonneg
  have : 0 ≤ ε * L := mul_nonneg ε0 hs.pos.le
  have e : (u + ε) * L = u * L + ε * L := by ring
  rw [e]
  linarith

theorem plane_testAll_drift (hF : F.Rounds u η hi) (hfa : F.Faithful u η) (hodd : F.Odd) (hs : Scale u η hi L)
    {ray : Ray (XF F)} {o d : Vec3 K} {m : K} (hr : RayNear ray o d m u) (ε0 : 0 ≤ ε) (hε : ε ≤ 1 / 1000)
    (vs : List (Plane (XF F))) (hvs : ∀ q ∈ vs, ∃ c a b R, PlaneWithin ε o L q c a b R) (s : PlaneI (XF F))
    (hk : PlaneStart ray s) :
    (s.hd = .inf false ∨ (∃ k, s.hd.Is k) → (testAll planeIx ray s vs).hd = .inf false ∨
      ∃ k, (testAll planeIx ray s vs).hd.Is k) ∧
    ∀ k, s.hd.Is k → ∃ k', (testAll planeIx ray s vs).hd.Is k' ∧ k' ≤ k + vs.length * (152 * ((u + ε) * L)) := by
  induction vs generalizing s with
  | nil => exact ⟨id, fun k hk => ⟨k, hk, by simp⟩⟩
  | cons q vs ih =>
    have e : testAll planeIx ray s (q :: vs) = testAll planeIx ray (planeIntersect s q ray).1 vs := rfl
    rw [e]
    have hk' : PlaneStart ray (planeIntersect s q ray).1 := Frame.start (planeIntersect_frame s q ray) hk
    obtain ⟨i1, i2⟩ := ih (fun q' hq' => hvs q' (by simp [hq'])) _ hk'
    obtain ⟨c, a, b, R, hq⟩ := hvs q (by simp)
    have hE : 0 ≤ (u + ε) * L := mul_nonneg (by linarith [hs.u_pos]) hs.pos.le
    cases hb : (planeIntersect s q ray).2 with
    | false =>
      have hsame : (planeIntersect s q ray).1 = s := (planeIntersect_frame s q ray).miss hb
      rw [hsame] at i1 i2 ⊢
      refine ⟨i1, fun k hk => ?_⟩
      obtain ⟨k', h1, h2⟩ := i2 k hk
      refine ⟨k', h1, ?_⟩
      push_cast [List.length_cons]
      linarith
    | true =>
      obtain ⟨k', h1, h2⟩ := plane_drift hF hfa hodd hs hr hk hε hq (s' := (planeIntersect s q ray).1) (by rw [← hb])
      refine ⟨fun _ => i1 (.inr ⟨k', h1⟩), fun k hk => ?_⟩
      obtain ⟨k'', h3, h4⟩ := i2 k' h1
      refine ⟨k'', h3, ?_⟩
      have := h2 k hk
      push_cast [List.length_cons]
      linarith

end
end Blazert
