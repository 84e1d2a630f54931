/- Helper lemmas: rays that clearly enter or leave a cylinder, from the exact to the computed coordinates and to the tests. -/
import Verif.Proofs.CylFound

set_option autoImplicit false
set_option linter.unusedSectionVars false

namespace Blazert
open Scalar

section
variable {K : Type} [Field K] [LinearOrder K] [IsStrictOrderedRing K] [FloorRing K] {F : Fmt K} {u η hi L ν μ ε : K}
variable {a' b' h' : XF F} {org dir : Vec3 (XF F)} {a b h : K} {p d P D : Vec3 K}

/-! ### the computed coordinates -/

theorem inside_coords {x y e : K} (a0 : 0 < a) (b0 : 0 < b) (e0 : 0 ≤ e) (h : tubeE a b x y ≤ -e) : |x| ≤ a ∧ |y| ≤ b := by
  unfold tubeE at h
  constructor
  · refine abs_le_of_sq_le_sq (le_of_mul_le_mul_left ?_ (pow_pos b0 2)) a0.le
    have : 0 ≤ a ^ 2 * y ^ 2 := by positivity
    linarith
  · refine abs_le_of_sq_le_sq (le_of_mul_le_mul_left ?_ (pow_pos a0 2)) b0.le
    have : 0 ≤ b ^ 2 * x ^ 2 := by positivity
    linarith

theorem coord_moved {x j X J w : K} (u0 : 0 ≤ u) (L0 : 0 ≤ L) (hp : |x - X| ≤ 6 * (u * L)) (hd : |j - J| ≤ 8 * u) (w0 : 0 ≤ w) (hw : w ≤ 34 / 10 * L) :
    |(x + w * j) - (X + w * J)| ≤ 332 / 10 * (u * L) := by
  have h1 : |w * (j - J)| ≤ 34 / 10 * L * (8 * u) := abs_mul_le (by rw [abs_of_nonneg w0]; exact hw) hd
  rw [show (x + w * j) - (X + w * J) = (x - X) + w * (j - J) by ring]
  refine (abs_add_le' hp h1).trans (le_of_eq ?_)
  ring

/-- a point of the ray in the computed coordinates -/
theorem point_moved (hs : Scale u η hi L) (hl : Local u ε L P D p d) {w : K} (w0 : 0 ≤ w) (hw : w ≤ 34 / 10 * L)
    (hx : |P.x + w * D.x| ≤ 102 / 100 * L) (hy : |P.y + w * D.y| ≤ 102 / 100 * L) :
    |tubeE a b (p.x + w * d.x) (p.y + w * d.y) - tubeE a b (P.x + w * D.x) (P.y + w * D.y)| ≤ 69 * (u * ((a ^ 2 + b ^ 2) * L ^ 2)) ∧
      |(p.z + w * d.z) - (P.z + w * D.z)| ≤ 332 / 10 * (u * L) := by
  obtain ⟨u0, u1, η0, ηu, ηL, ηLL, ηuLL, ηuL, L0, uL0, uLL0, uL1, uLL1, hi1, hiL, hiLL⟩ := hs.sizes
  have uL2 : u * L ≤ 1 / 2 ^ 20 * L := mul_le_mul_of_nonneg_right u1 L0.le
  have cx := coord_moved u0.le L0.le hl.px hl.dx w0 hw
  have cy := coord_moved u0.le L0.le hl.py hl.dy w0 hw
  refine ⟨?_, coord_moved u0.le L0.le hl.pz hl.dz w0 hw⟩
  have x3 := abs_le_of_near cx hx
  have y3 := abs_le_of_near cy hy
  have hn := tubeE_near (a := a) (b := b) cx cy (B := 103 / 100 * L) (by linarith) (by linarith) (by linarith) (by linarith)
  rw [abs_sub_comm]
  refine hn.trans ?_
  have e1 : (a ^ 2 + b ^ 2) * (2 * (103 / 100 * L) * (332 / 10 * (u * L))) = 2 * (103 / 100) * (332 / 10) * (u * ((a ^ 2 + b ^ 2) * L ^ 2)) := by ring
  have : 0 ≤ u * ((a ^ 2 + b ^ 2) * L ^ 2) := by positivity
  rw [e1]
  linarith

/-- points of the ray up to one that is inside -/
theorem points_moved (hs : Scale u η hi L) (hl : Local u ε L P D p d) (hε : ε ≤ 1 / 1000) (a0 : 0 < a) (b0 : 0 < b) (h0 : 0 < h) (hsum : a + b + h ≤ L)
    {t e δ : K} (t0 : 0 ≤ t) (e0 : 0 ≤ e) (δ0 : 0 ≤ δ) (hin : InsideCylinder a b h e δ (along P D t)) {w : K} (w0 : 0 ≤ w) (wt : w ≤ t) :
    |tubeE a b (p.x + w * d.x) (p.y + w * d.y) - tubeE a b (P.x + w * D.x) (P.y + w * D.y)| ≤ 69 * (u * ((a ^ 2 + b ^ 2) * L ^ 2)) ∧
      |(p.z + w * d.z) - (P.z + w * D.z)| ≤ 332 / 10 * (u * L) := by
  obtain ⟨u0, u1, η0, ηu, ηL, ηLL, ηuLL, ηuL, L0, uL0, uLL0, uL1, uLL1, hi1, hiL, hiLL⟩ := hs.sizes
  have uL2 : u * L ≤ 1 / 2 ^ 20 * L := mul_le_mul_of_nonneg_right u1 L0.le
  obtain ⟨hE, hz⟩ := hin
  obtain ⟨hx, hy⟩ := inside_coords a0 b0 e0 hE
  have ex : (along P D t).x = P.x + t * D.x := rfl
  have ey : (along P D t).y = P.y + t * D.y := rfl
  have ez : (along P D t).z = P.z + t * D.z := rfl
  rw [ex] at hx
  rw [ey] at hy
  rw [ez] at hz
  have px : |P.x| ≤ 102 / 100 * L := by
    have := abs_sub_le' hl.sx hl.px
    rw [sub_sub_cancel] at this
    linarith
  have py : |P.y| ≤ 102 / 100 * L := by
    have := abs_sub_le' hl.sy hl.py
    rw [sub_sub_cancel] at this
    linarith
  have pz : |P.z| ≤ 102 / 100 * L := by
    have := abs_sub_le' hl.sz hl.pz
    rw [sub_sub_cancel] at this
    linarith
  have tx : |t * D.x| ≤ 207 / 100 * L := by
    have := abs_sub_le' hx px
    rw [add_sub_cancel_left] at this
    linarith
  have ty : |t * D.y| ≤ 207 / 100 * L := by
    have := abs_sub_le' hy py
    rw [add_sub_cancel_left] at this
    linarith
  have tz : |t * D.z| ≤ 16 / 10 * L := by
    have := abs_sub_le' hz pz
    rw [add_sub_cancel_left] at this
    linarith
  obtain ⟨n1, n2⟩ := abs_le.1 hl.nd
  have hT := hit_T_le L0 t0 (by linarith) tx ty tz
  refine point_moved hs hl w0 (wt.trans hT) ?_ ?_
  · exact between_abs w0 wt (by rw [zero_mul, add_zero]; exact px) (by linarith)
  · exact between_abs w0 wt (by rw [zero_mul, add_zero]; exact py) (by linarith)

theorem inside_moved (hs : Scale u η hi L) (hl : Local u ε L P D p d) (hε : ε ≤ 1 / 1000) (a0 : 0 < a) (b0 : 0 < b) (h0 : 0 < h) (hsum : a + b + h ≤ L)
    {t : K} (t0 : 0 ≤ t) (hin : InsideCylinder a b h (300 * (u * ((a ^ 2 + b ^ 2) * L ^ 2))) (50 * (u * L)) (along P D t)) :
    InsideCylinder a b h (230 * (u * ((a ^ 2 + b ^ 2) * L ^ 2))) (16 * (u * L)) (along p d t) := by
  have u0 := hs.u_pos
  have L0 := hs.pos
  have uS : 0 ≤ u * ((a ^ 2 + b ^ 2) * L ^ 2) := by positivity
  have uL : 0 ≤ u * L := by positivity
  obtain ⟨h1, h2⟩ := points_moved hs hl hε a0 b0 h0 hsum t0 (by linarith) (by linarith) hin t0 le_rfl
  obtain ⟨h3, h4⟩ := hin
  have ex : (along P D t).x = P.x + t * D.x := rfl
  have ey : (along P D t).y = P.y + t * D.y := rfl
  have ez : (along P D t).z = P.z + t * D.z := rfl
  rw [ex, ey] at h3
  rw [ez] at h4
  constructor
  · show tubeE a b (p.x + t * d.x) (p.y + t * d.y) ≤ _
    have := (abs_le.1 h1).2
    linarith
  · show |p.z + t * d.z| ≤ _
    have := abs_le_of_near h2 h4
    linarith

theorem enters_moved (hs : Scale u η hi L) (hl : Local u ε L P D p d) (hε : ε ≤ 1 / 1000) (a0 : 0 < a) (b0 : 0 < b) (h0 : 0 < h) (hsum : a + b + h ≤ L)
    {s t : K} (he : EntersCylinder a b h (300 * (u * ((a ^ 2 + b ^ 2) * L ^ 2))) (50 * (u * L)) P D s t) :
    EntersCylinder a b h (230 * (u * ((a ^ 2 + b ^ 2) * L ^ 2))) (16 * (u * L)) p d s t := by
  have u0 := hs.u_pos
  have L0 := hs.pos
  have uS : 0 ≤ u * ((a ^ 2 + b ^ 2) * L ^ 2) := by positivity
  have uL : 0 ≤ u * L := by positivity
  cases he with
  | cap s0 st out tube inside =>
    obtain ⟨h1, h2⟩ := points_moved hs hl hε a0 b0 h0 hsum (s0.trans st) (by linarith) (by linarith) inside s0 st
    refine .cap s0 st ?_ ?_ (inside_moved hs hl hε a0 b0 h0 hsum (s0.trans st) inside)
    · show _ ≤ |p.z + s * d.z|
      have out' : h / 2 + 50 * (u * L) ≤ |P.z + s * D.z| := out
      have := abs_sub_abs_le_abs_sub (P.z + s * D.z) (p.z + s * d.z)
      rw [abs_sub_comm] at h2
      linarith
    · show tubeE a b (p.x + s * d.x) (p.y + s * d.y) ≤ _
      have tube' : tubeE a b (P.x + s * D.x) (P.y + s * D.y) ≤ _ := tube
      have := (abs_le.1 h1).2
      linarith
  | tube s0 st out level inside off =>
    obtain ⟨h1, h2⟩ := points_moved hs hl hε a0 b0 h0 hsum (s0.trans st) (by linarith) (by linarith) inside s0 st
    refine .tube s0 st ?_ ?_ (inside_moved hs hl hε a0 b0 h0 hsum (s0.trans st) inside) ?_
    · show _ ≤ tubeE a b (p.x + s * d.x) (p.y + s * d.y)
      have out' : 300 * (u * ((a ^ 2 + b ^ 2) * L ^ 2)) ≤ tubeE a b (P.x + s * D.x) (P.y + s * D.y) := out
      have := (abs_le.1 h1).1
      linarith
    · show |p.z + s * d.z| ≤ _
      have level' : |P.z + s * D.z| ≤ h / 2 - 50 * (u * L) := level
      have := abs_le_of_near h2 level'
      linarith
    · have h3 := (abs_abs_sub_abs_le p.z P.z).trans hl.pz
      have h4 : |(|P.z|) - h / 2| ≤ 6 * (u * L) + |(|p.z|) - h / 2| := by
        rw [abs_sub_comm] at h3
        refine le_trans (le_of_eq ?_) ((abs_add_le (|P.z| - |p.z|) (|p.z| - h / 2)).trans (by linarith))
        congr 1; ring
      linarith

/-! ### the tests -/

/-- the ray, in the computed coordinates, enters through a cap or reaches the tube beyond the plane of a cap -/
theorem cap_seen (H : CylFloat u η hi L ν μ a' b' h' org dir a b h p d) {c' : XF F} {c σ : K} (hc : c'.Is c) (hcL : |c| ≤ 52 / 100 * L)
    (hσ : σ = 1 ∨ σ = -1) {s t : K} (s0 : 0 ≤ s) (st : s ≤ t) (zs : 4 * (u * L) ≤ σ * (p.z + s * d.z - c))
    (zt : σ * (p.z + t * d.z - c) ≤ -(4 * (u * L))) {r : K} (tr : t ≤ r)
    (hseen : (tubeE a b (p.x + s * d.x) (p.y + s * d.y) ≤ -(20 * (u * ((a ^ 2 + b ^ 2) * L ^ 2))) ∧
        tubeE a b (p.x + t * d.x) (p.y + t * d.y) ≤ -(20 * (u * ((a ^ 2 + b ^ 2) * L ^ 2)))) ∨
      RootSeen (fun x => ∃ T, x.Is T ∧ T ≤ r) a' b' h' org dir) :
    CapSeen (fun x => ∃ T, x.Is T ∧ T ≤ r) a' b' h' c' org dir := by
  obtain ⟨k1, k2, T, k3, k4, k5⟩ := cap_reached H hc hcL hσ s0 st zs zt
  refine ⟨k1, k2, ⟨T, k3, k5.trans tr⟩, ?_⟩
  refine hseen.imp (fun ⟨h1, h2⟩ => ?_) id
  refine cap_passes H k3 ?_
  have uL0 : 0 < u * L := mul_pos H.scale.tube.u0 H.scale.pos
  rw [tubeE_poly] at h1 h2 ⊢
  rcases st.lt_or_eq with hlt | rfl
  · exact quad_between tubeA_nonneg hlt k4 k5 h1 h2
  · linarith

/-- the scale of the errors -/
theorem CylFloat.scales (H : CylFloat u η hi L ν μ a' b' h' org dir a b h p d) :
    0 < u * L ∧ 0 < u * ((a ^ 2 + b ^ 2) * L ^ 2) ∧ u * tubeH a b p.x p.y ≤ 115 / 100 * (u * ((a ^ 2 + b ^ 2) * L ^ 2)) ∧
      u * (a ^ 2 * b ^ 2) ≤ u * ((a ^ 2 + b ^ 2) * L ^ 2) := by
  have u0 := H.scale.tube.u0
  have L0 := H.scale.pos
  have a0 := H.a0
  have b0 := H.b0
  have h0 := H.h0
  have hsum := H.sum
  have hH := mul_le_mul_of_nonneg_left (tubeH_le' a0 b0 (by linarith) H.sx H.sy) u0.le
  refine ⟨by positivity, by positivity, by linarith, mul_le_mul_of_nonneg_left ?_ u0.le⟩
  have k1 : b ^ 2 ≤ L ^ 2 := pow_le_pow_left₀ b0.le (by linarith) 2
  have k2 := mul_le_mul_of_nonneg_left k1 (pow_two_nonneg a)
  have k3 : 0 ≤ b ^ 2 * L ^ 2 := by positivity
  linarith

theorem CylFloat.caps (H : CylFloat u η hi L ν μ a' b' h' org dir a b h p d) :
    ∃ x1, (h' / nat 2).Is x1 ∧ (-h' / nat 2).Is (-x1) ∧ |x1| ≤ 52 / 100 * L ∧ -(6 / 10 * (u * L)) ≤ x1 - h / 2 ∧ x1 - h / 2 ≤ 6 / 10 * (u * L) := by
  have L0 := H.scale.pos
  have uL : u * L ≤ 1 / 2 ^ 20 * L := mul_le_mul_of_nonneg_right H.scale.tube.u1 L0.le
  obtain ⟨x1, e1, e2, -, -, e5, -, e7⟩ := H.half
  obtain ⟨k1, k2⟩ := abs_le.1 e7
  refine ⟨x1, e1, e2, ?_, k1, k2⟩
  rw [abs_of_nonneg e5]
  linarith [H.a0, H.b0, H.sum]

theorem before {x l s t B : K} (s0 : 0 ≤ s) (st : s ≤ t) (hs : B ≤ x + s * l) (ht : x + t * l < B) : B ≤ x := by
  by_contra hlt
  have hlt := not_le.1 hlt
  have hl : 0 < l := by
    by_contra hle
    have := mul_nonpos_of_nonneg_of_nonpos s0 (not_lt.1 hle)
    linarith
  have := mul_le_mul_of_nonneg_right st hl.le
  linarith

/-- before a ray enters the tube it is outside -/
theorem outside_before {s t e : K} (s0 : 0 ≤ s) (st : s ≤ t) (e0 : 0 < e)
    (hs : e ≤ tubeE a b (p.x + s * d.x) (p.y + s * d.y)) (ht : tubeE a b (p.x + t * d.x) (p.y + t * d.y) ≤ -e) : e ≤ tubeE a b p.x p.y := by
  rw [tubeE_poly] at hs ht
  by_contra hlt
  have hlt := not_le.1 hlt
  rcases (s0.trans st).lt_or_eq with t0 | rfl
  · have := quad_between (E := max (tubeE a b p.x p.y) (-e)) tubeA_nonneg t0 s0 st
      (by simp) (ht.trans (le_max_right _ _))
    have : max (tubeE a b p.x p.y) (-e) < e := max_lt hlt (by linarith)
    linarith
  · obtain rfl := le_antisymm st s0
    linarith

/-- rays that clearly enter the cylinder pass the tests -/
theorem enters_seen (H : CylFloat u η hi L ν μ a' b' h' org dir a b h p d) {s t : K}
    (he : EntersCylinder a b h (230 * (u * ((a ^ 2 + b ^ 2) * L ^ 2))) (16 * (u * L)) p d s t) :
    EntrySeen (fun x => ∃ T, x.Is T ∧ T ≤ t) a' b' h' org dir := by
  obtain ⟨uL, uS, uH, uD⟩ := H.scales
  obtain ⟨x1, e1, e2, e3, e4, e5⟩ := H.caps
  have h0 := H.h0
  have e3' : |-x1| ≤ 52 / 100 * L := by rwa [abs_neg]
  cases he with
  | cap s0 st out tube inside =>
    obtain ⟨i1, i2⟩ := inside
    have out : h / 2 + 16 * (u * L) ≤ |p.z + s * d.z| := out
    have tube : tubeE a b (p.x + s * d.x) (p.y + s * d.y) ≤ -(230 * (u * ((a ^ 2 + b ^ 2) * L ^ 2))) := tube
    have i1 : tubeE a b (p.x + t * d.x) (p.y + t * d.y) ≤ -(230 * (u * ((a ^ 2 + b ^ 2) * L ^ 2))) := i1
    have i2 : |p.z + t * d.z| ≤ h / 2 - 16 * (u * L) := i2
    obtain ⟨i3, i4⟩ := abs_le.1 i2
    rcases le_abs.1 out with out | out
    · have hb := before s0 st out (by linarith)
      refine .top ((H.ho.2.2.gt e1).2 (by linarith)) ?_
      exact cap_seen H e1 e3 (.inl rfl) s0 st (by linarith) (by linarith) le_rfl (.inl ⟨by linarith, by linarith⟩)
    · have hb := before (x := -p.z) (l := -d.z) s0 st (B := h / 2 + 16 * (u * L)) (by linarith) (by linarith)
      refine .bottom ?_ ((H.ho.2.2.lt e2).2 (by linarith)) ?_
      · rw [Bool.eq_false_iff]
        exact fun h1 => absurd ((H.ho.2.2.gt e1).1 h1) (by linarith)
      · exact cap_seen H e2 e3' (.inr rfl) s0 st (by linarith) (by linarith) le_rfl (.inl ⟨by linarith, by linarith⟩)
  | tube s0 st out level inside off =>
    obtain ⟨i1, i2⟩ := inside
    have out : 230 * (u * ((a ^ 2 + b ^ 2) * L ^ 2)) ≤ tubeE a b (p.x + s * d.x) (p.y + s * d.y) := out
    have level : |p.z + s * d.z| ≤ h / 2 - 16 * (u * L) := level
    have i1 : tubeE a b (p.x + t * d.x) (p.y + t * d.y) ≤ -(230 * (u * ((a ^ 2 + b ^ 2) * L ^ 2))) := i1
    have i2 : |p.z + t * d.z| ≤ h / 2 - 16 * (u * L) := i2
    obtain ⟨l1, l2⟩ := abs_le.1 level
    have hroot := tube_seen H s0 st (by linarith) out i1 (by linarith) (by linarith)
    rcases le_abs.1 off with off | off
    · rcases le_abs.1 (show h / 2 + 16 * (u * L) ≤ |p.z| by linarith) with hz | hz
      · refine .top ((H.ho.2.2.gt e1).2 (by linarith)) ?_
        exact cap_seen H e1 e3 (.inl rfl) le_rfl s0 (by linarith) (by linarith) st (.inr hroot)
      · refine .bottom ?_ ((H.ho.2.2.lt e2).2 (by linarith)) ?_
        · rw [Bool.eq_false_iff]
          exact fun h1 => absurd ((H.ho.2.2.gt e1).1 h1) (by linarith)
        · exact cap_seen H e2 e3' (.inr rfl) le_rfl s0 (by linarith) (by linarith) st (.inr hroot)
    · obtain ⟨z1, z2⟩ := abs_le.1 (show |p.z| ≤ h / 2 - 16 * (u * L) by linarith)
      have hq := outside_before s0 st (by linarith) out i1
      obtain ⟨V, W, v1, w1, hVW⟩ := inner_sides H
      have hVW := (abs_le.1 hVW).1
      refine .side ?_ ?_ ((H.ho.2.2.gt e2).2 (by linarith)) ((H.ho.2.2.lt e1).2 (by linarith)) ((v1.gt w1).2 (by linarith)) ?_ hroot
      · rw [Bool.eq_false_iff]
        exact fun h1 => absurd ((H.ho.2.2.gt e1).1 h1) (by linarith)
      · rw [Bool.eq_false_iff]
        exact fun h1 => absurd ((H.ho.2.2.lt e2).1 h1) (by linarith)
      · rw [Bool.eq_false_iff]
        exact fun h1 => absurd ((v1.le w1).1 h1) (by linarith)

/-- rays that begin clearly inside the cylinder pass the tests -/
theorem leaves_seen (H : CylFloat u η hi L ν μ a' b' h' org dir a b h p d) (hd : 0 < Vec3.dot d d)
    (hin : InsideCylinder a b h (230 * (u * ((a ^ 2 + b ^ 2) * L ^ 2))) (16 * (u * L)) p) : InnerSeen a' b' h' org dir := by
  obtain ⟨uL, uS, uH, uD⟩ := H.scales
  obtain ⟨x1, e1, e2, e3, e4, e5⟩ := H.caps
  obtain ⟨hE, hz⟩ := hin
  obtain ⟨z1, z2⟩ := abs_le.1 hz
  have hE0 : tubeE a b (p.x + 0 * d.x) (p.y + 0 * d.y) ≤ -(230 * (u * ((a ^ 2 + b ^ 2) * L ^ 2))) := by
    simp only [zero_mul, add_zero]; exact hE
  obtain ⟨V, W, v1, w1, hVW⟩ := inner_sides H
  have hVW := (abs_le.1 hVW).2
  refine ⟨?_, ?_, (H.ho.2.2.ge e2).2 (by linarith), (H.ho.2.2.le e1).2 (by linarith), ?_, (v1.le w1).2 (by linarith), ?_⟩
  · rw [Bool.eq_false_iff]
    exact fun h1 => absurd ((H.ho.2.2.gt e1).1 h1) (by linarith)
  · rw [Bool.eq_false_iff]
    exact fun h1 => absurd ((H.ho.2.2.lt e2).1 h1) (by linarith)
  · rw [Bool.eq_false_iff]
    exact fun h1 => absurd ((v1.gt w1).1 h1) (by linarith)
  by_cases hl : d.z = 0
  · left
    have hjk : μ ≤ |d.x| ∨ μ ≤ |d.y| := by
      refine H.sl.2.resolve_left fun ⟨hx, hy⟩ => ?_
      unfold Vec3.dot at hd
      simp only [hx, hy, hl, mul_zero, add_zero] at hd
      exact lt_irrefl _ hd
    obtain ⟨hC, hD⟩ := tube_disc H hjk (by linarith) hE0
    have A0 : 0 < tubeA a b d.x d.y := (H.scale.fine (x := p.x) (y := p.y) H.aν H.bν hjk).1.Apos
    obtain ⟨T0, T1, f0, f1, -, -, r0, -, w0, -⟩ := tube_roots H hjk hC
      (le_trans (mul_le_mul_of_nonneg_left (by linarith) A0.le) hD)
    refine ⟨(H.hd.2.2.eq H.rounds.nat0).2 hl, ?_, ?_, hC, (f0.gt H.rounds.nat0).2 ?_, height_passes H f0 (by rw [hl, mul_zero, add_zero]; linarith)⟩
    · rw [Bool.eq_false_iff]
      exact fun h1 => absurd ((H.ho.2.2.eq e2).1 h1) (by intro h2; linarith)
    · rw [Bool.eq_false_iff]
      exact fun h1 => absurd ((H.ho.2.2.eq e1).1 h1) (by intro h2; linarith)
    · by_contra hle
      have hle := not_lt.1 hle
      rw [tubeE_poly] at r0
      have r0 := (abs_le.1 r0).1
      have k1 : T0 * (tubeA a b d.x d.y * T0) = tubeA a b d.x d.y * T0 ^ 2 := by ring
      have k2 : 0 ≤ -T0 * (tubeA a b d.x d.y * T0 + tubeB a b p.x p.y d.x d.y) := mul_nonneg (by linarith) w0.le
      have k3 : 0 ≤ -T0 * tubeB a b p.x p.y d.x d.y := by
        refine mul_nonneg (by linarith) ?_
        have := mul_nonpos_of_nonneg_of_nonpos A0.le hle
        linarith
      have e : tubeA a b d.x d.y * T0 ^ 2 + 2 * tubeB a b p.x p.y d.x d.y * T0 =
        -(-T0 * (tubeA a b d.x d.y * T0 + tubeB a b p.x p.y d.x d.y)) - -T0 * tubeB a b p.x p.y d.x d.y := by ring
      linarith
  · right
    refine ⟨?_, ?_, ?_⟩
    · rw [Bool.eq_false_iff]
      exact fun h1 => hl ((H.hd.2.2.eq H.rounds.nat0).1 h1)
    · rcases lt_or_gt_of_ne hl with h1 | h1
      · exact .inl ((H.hd.2.2.lt H.rounds.nat0).2 h1)
      · exact .inr ((H.hd.2.2.gt H.rounds.nat0).2 h1)
    · by_cases hxy : d.x = 0 ∧ d.y = 0
      · left
        refine ⟨and2 ((H.hd.1.eq H.rounds.nat0).2 hxy.1) ((H.hd.2.1.eq H.rounds.nat0).2 hxy.2), ?_⟩
        obtain ⟨V, W, v1, w1, hVW⟩ := ellipse_seen H H.ho.1 H.ho.2.1 (by linarith)
        rw [Bool.eq_false_iff]
        exact fun h1 => absurd ((v1.eq w1).1 h1) hVW.ne
      · right
        have hjk := H.sl.2.resolve_left hxy
        refine ⟨?_, (tube_disc H hjk (by linarith) hE0).1⟩
        rw [Bool.eq_false_iff, Ne, Bool.and_eq_true]
        exact fun h1 => hxy ⟨(H.hd.1.eq H.rounds.nat0).1 h1.1, (H.hd.2.1.eq H.rounds.nat0).1 h1.2⟩

/-! ### what is recorded -/

theorem trans_of_zero : along P D 0 = P := by
  have e : ∀ x y : K, x + 0 * y = x := fun x y => by rw [zero_mul, add_zero]
  cases P
  have hext : ∀ x y : Vec3 K, x.x = y.x → x.y = y.y → x.z = y.z → x = y := fun x y h1 h2 h3 => by cases x; cases y; simp_all
  exact hext _ _ (e _ _) (e _ _) (e _ _)

/-- a ray that clearly enters does not begin on the surface -/
theorem enters_clear (hs : Scale u η hi L) (a0 : 0 < a) (b0 : 0 < b) {s t : K}
    (he : EntersCylinder a b h (300 * (u * ((a ^ 2 + b ^ 2) * L ^ 2))) (50 * (u * L)) P D s t) :
    60 * (u * ((a ^ 2 + b ^ 2) * L ^ 2)) ≤ |tubeE a b P.x P.y| ∨ h / 2 + 10 * (u * L) < |P.z| := by
  have u0 := hs.u_pos
  have L0 := hs.pos
  have uS : 0 < u * ((a ^ 2 + b ^ 2) * L ^ 2) := by positivity
  have uL : 0 < u * L := by positivity
  cases he with
  | cap s0 st out tube inside =>
    right
    have out : h / 2 + 50 * (u * L) ≤ |P.z + s * D.z| := out
    have i2 : |P.z + t * D.z| ≤ h / 2 - 50 * (u * L) := inside.2
    obtain ⟨i3, i4⟩ := abs_le.1 i2
    rcases le_abs.1 out with out | out
    · have hb := before s0 st out (by linarith)
      linarith [le_abs_self P.z]
    · have hb := before (x := -P.z) (l := -D.z) s0 st (B := h / 2 + 50 * (u * L)) (by linarith) (by linarith)
      linarith [neg_le_abs P.z]
  | tube s0 st out level inside off =>
    left
    have := outside_before s0 st (by linarith) out inside.1
    linarith [le_abs_self (tubeE a b P.x P.y)]

theorem TubeWithin.cyl {q : Cylinder (XF F)} {o c : Vec3 K} {R : Mat3 K}
    (hq : TubeWithin u η hi ν μ ε L o q.center q.a q.b q.height q.rotation dir c a b h R)
    (hc : 60 * (u * ((a ^ 2 + b ^ 2) * L ^ 2)) ≤ |tubeE a b (R.trans.mulVec (o - c)).x (R.trans.mulVec (o - c)).y| ∨
      h / 2 + 10 * (u * L) < |(R.trans.mulVec (o - c)).z|) : CylWithin u η hi ε ν μ L o q dir c a b h R :=
  ⟨hq.center, hq.isA, hq.isB, hq.height, hq.rot, hq.ortho, hq.aν, hq.bν, hq.h0, hq.size, hq.scale, hq.asp1, hq.asp2, hq.slant, hc⟩

section
variable {q : Cylinder (XF F)} {o c d' : Vec3 K} {R : Mat3 K} (hF : F.Rounds u η hi) (hfa : F.Faithful u η) (hodd : F.Odd)
  (ho : IsV org o) (hd : IsV dir d') (hε : ε ≤ 1 / 1000) (hN : |Vec3.dot d' d' - 1| ≤ 11 * u)
  (hq : TubeWithin u η hi ν μ ε L o q.center q.a q.b q.height q.rotation dir c a b h R)
include hF hfa hodd ho hd hε hN hq

theorem tube_sum : 0 < a ∧ 0 < b ∧ a + b + h ≤ L := by
  have c0 : 0 ≤ |o.x - c.x| + |o.y - c.y| + |o.z - c.z| := by positivity
  have := hq.size
  exact ⟨hq.scale.ν_pos.trans_le hq.aν, hq.scale.ν_pos.trans_le hq.bν, by linarith⟩

theorem tube_entry {s t : K} (he : EntersCylinder a b h (300 * (u * ((a ^ 2 + b ^ 2) * L ^ 2))) (50 * (u * L)) (R.trans.mulVec (o - c)) (R.trans.mulVec d') s t) :
    CylWithin u η hi ε ν μ L o q dir c a b h R ∧
      EntrySeen (fun x => ∃ T, x.Is T ∧ T ≤ t) q.a q.b q.height (q.rotation.trans.mulVec (org - q.center)) (q.rotation.trans.mulVec dir) := by
  obtain ⟨a0, b0, hsum⟩ := tube_sum hF hfa hodd ho hd hε hN hq
  have hs := hq.scale.toScale
  have hcyl := hq.cyl (enters_clear hs a0 b0 he)
  obtain ⟨p, d, hl, H⟩ := hcyl.float hF hfa hodd ho hd hε hN
  exact ⟨hcyl, enters_seen H (enters_moved hs hl hε a0 b0 hq.h0 hsum he)⟩

theorem tube_leave (hin : InsideCylinder a b h (300 * (u * ((a ^ 2 + b ^ 2) * L ^ 2))) (50 * (u * L)) (R.trans.mulVec (o - c))) :
    CylWithin u η hi ε ν μ L o q dir c a b h R ∧
      InnerSeen q.a q.b q.height (q.rotation.trans.mulVec (org - q.center)) (q.rotation.trans.mulVec dir) := by
  obtain ⟨a0, b0, hsum⟩ := tube_sum hF hfa hodd ho hd hε hN hq
  have hs := hq.scale.toScale
  have u0 := hs.u_pos
  have uS : 0 ≤ u * ((a ^ 2 + b ^ 2) * L ^ 2) := by positivity
  have hcyl := hq.cyl (.inl (by
    have := hin.1
    rw [abs_of_nonpos (by linarith)]
    linarith))
  obtain ⟨p, d, hl, H⟩ := hcyl.float hF hfa hodd ho hd hε hN
  have h1 := inside_moved hs hl hε a0 b0 hq.h0 hsum le_rfl (by rw [trans_of_zero]; exact hin)
  rw [trans_of_zero] at h1
  refine ⟨hcyl, leaves_seen H ?_ h1⟩
  have u1 := hq.scale.tube.u1
  have := (abs_le.1 hl.nd').1
  linarith

end

end
end Blazert
