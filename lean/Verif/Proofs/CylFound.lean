/- Helper lemmas: rays that enter a cylinder clearly pass the tests, with rounding. -/
import Verif.Proofs.CylHit
import Verif.Proofs.CylSeen
import Verif.Spec.CylFound

set_option autoImplicit false
set_option linter.unusedSectionVars false

namespace Blazert
open Scalar

section
variable {K : Type} [Field K] [LinearOrder K] [IsStrictOrderedRing K]

/-! ### convexity of the tube -/

theorem mix_le {s t w E : K} (st : s < t) (h1 : s ≤ w) (h2 : w ≤ t) {x y : K} (hx : x ≤ E) (hy : y ≤ E) :
    (t - w) * x + (w - s) * y ≤ (t - s) * E := by
  have h3 := mul_le_mul_of_nonneg_left hx (sub_nonneg.2 h2)
  have h4 := mul_le_mul_of_nonneg_left hy (sub_nonneg.2 h1)
  linarith

variable {A B q : K}

/-- between two points of the tube -/
theorem quad_between (A0 : 0 ≤ A) {s t w E : K} (st : s < t) (h1 : s ≤ w) (h2 : w ≤ t) (hs : A * s ^ 2 + 2 * B * s + q ≤ E)
    (ht : A * t ^ 2 + 2 * B * t + q ≤ E) : A * w ^ 2 + 2 * B * w + q ≤ E := by
  have h3 := mix_le st h1 h2 hs ht
  have h4 : 0 ≤ A * ((w - s) * (t - w) * (t - s)) :=
    mul_nonneg A0 (mul_nonneg (mul_nonneg (sub_nonneg.2 h1) (sub_nonneg.2 h2)) (sub_nonneg.2 st.le))
  refine le_of_mul_le_mul_left ?_ (sub_pos.2 st)
  have e : (t - s) * (A * w ^ 2 + 2 * B * w + q) = (t - w) * (A * s ^ 2 + 2 * B * s + q) + (w - s) * (A * t ^ 2 + 2 * B * t + q) -
      A * ((w - s) * (t - w) * (t - s)) := by ring
  rw [e]
  linarith

/-- where the tube is entered -/
theorem quad_entry (A0 : 0 < A) {s t T e f : K} (st : s ≤ t) (e0 : 0 ≤ e) (hfe : f < e) (hs : e ≤ A * s ^ 2 + 2 * B * s + q)
    (ht : A * t ^ 2 + 2 * B * t + q ≤ -e) (hT : |A * T ^ 2 + 2 * B * T + q| ≤ f) (hW : A * T + B < 0) : s < T ∧ T < t := by
  obtain ⟨h1, h2⟩ := abs_le.1 hT
  constructor
  · by_contra hle
    have hle := not_lt.1 hle
    have f0 : 0 ≤ f := (abs_nonneg _).trans hT
    rcases (hle.trans st).lt_or_eq with hlt | heq
    · have := quad_between A0.le hlt hle st h2 (ht.trans (by linarith : -e ≤ f))
      linarith
    · obtain rfl : s = t := le_antisymm st (heq ▸ hle)
      linarith
  · by_contra hle
    have hle := not_lt.1 hle
    -- decreasing up to `T`
    have e1 : (A * t ^ 2 + 2 * B * t + q) - (A * T ^ 2 + 2 * B * T + q) = -(T - t) * (A * T + B + (A * t + B)) := by ring
    have k2 : A * t + B ≤ A * T + B := by
      have := mul_le_mul_of_nonneg_left hle A0.le
      linarith
    have k3 : 0 ≤ (T - t) * -(A * T + B + (A * t + B)) := mul_nonneg (by linarith) (by linarith)
    linarith

end

section
variable {K : Type} [Field K] [LinearOrder K] [IsStrictOrderedRing K] [FloorRing K] {F : Fmt K} {u η hi L ν μ ε : K}
variable {a' b' h' : XF F} {org dir : Vec3 (XF F)} {a b h : K} {p d : Vec3 K}

/-! ### the two roots -/

/-- the discriminant is not negative, as computed -/
theorem tube_disc (H : CylFloat u η hi L ν μ a' b' h' org dir a b h p d) (hjk : μ ≤ |d.x| ∨ μ ≤ |d.y|) {e : K}
    (he : 9 * (u * tubeH a b p.x p.y) ≤ e) {t : K} (ht : tubeE a b (p.x + t * d.x) (p.y + t * d.y) ≤ -e) :
    lt (cylABC a' b' org dir).2.2 (nat 0) = false ∧
      tubeA a b d.x d.y * e ≤ a ^ 2 * b ^ 2 * tubeC a b p.x p.y d.x d.y := by
  have ht' := H.scale.tube
  have hin := H.tubeIn
  have a0 := H.a0
  have b0 := H.b0
  obtain ⟨hf, -⟩ := H.scale.fine (x := p.x) (y := p.y) H.aν H.bν hjk
  have A0 := hf.Apos
  have hD : tubeA a b d.x d.y * e ≤ a ^ 2 * b ^ 2 * tubeC a b p.x p.y d.x d.y := by
    have h1 := tube_along (a := a) (b := b) (x := p.x) (y := p.y) (j := d.x) (k := d.y) t
    have h2 := mul_le_mul_of_nonneg_left ht A0.le
    have h3 := pow_two_nonneg (tubeA a b d.x d.y * t + tubeB a b p.x p.y d.x d.y)
    linarith
  refine ⟨?_, hD⟩
  obtain ⟨A', B', C', A1, B1, C1, A2, B2, C2⟩ := cyl_coeffs H.rounds ht' H.ha H.hb H.ho H.hd hin
  generalize cylABC a' b' org dir = abc at A1 B1 C1 ⊢
  rw [Bool.eq_false_iff]
  intro hlt
  have hneg := (C1.lt H.rounds.nat0).1 hlt
  have hV := tubeV_le (a := a) (b := b) (x := p.x) (y := p.y) (j := d.x) (k := d.y)
  have hH := ab_le_tubeH (a := a) (b := b) (x := p.x) (y := p.y)
  obtain ⟨u0, u1, η0, Q1, ηθ, ηQ, θ0, QQ, Q2, Q3, hi2, hi3, hi4, θu⟩ := ht'
  have k1 := (abs_le.1 C2).1
  set θ := η * (1 + L) ^ 2
  set A := tubeA a b d.x d.y
  set HH := tubeH a b p.x p.y
  have D0 : 0 < a ^ 2 * b ^ 2 := by positivity
  have k2 := mul_le_mul_of_nonneg_left hV u0.le
  have k3 : a ^ 2 * b ^ 2 * (2 ^ 12 * θ) ≤ HH * (u * A) := mul_le_mul hH hf.θA (by positivity) tubeH_nonneg
  have k4 : a ^ 2 * b ^ 2 * tubeC a b p.x p.y d.x d.y < a ^ 2 * b ^ 2 * (8 * (u * tubeV a b p.x p.y d.x d.y) + 40 * θ) :=
    mul_lt_mul_of_pos_left (by linarith) D0
  have k5 := mul_le_mul_of_nonneg_left he A0.le
  have k6 : 0 < u * (A * HH) := mul_pos u0 hf.Zpos
  have e1 : a ^ 2 * b ^ 2 * (8 * (u * tubeV a b p.x p.y d.x d.y) + 40 * θ) =
      8 * (u * (a ^ 2 * b ^ 2 * tubeV a b p.x p.y d.x d.y)) + 40 / 2 ^ 12 * (a ^ 2 * b ^ 2 * (2 ^ 12 * θ)) := by ring
  rw [e1] at k4
  linarith

/-- the two roots as computed: on either side of the vertex -/
theorem tube_roots (H : CylFloat u η hi L ν μ a' b' h' org dir a b h p d) (hjk : μ ≤ |d.x| ∨ μ ≤ |d.y|)
    (hC : lt (cylABC a' b' org dir).2.2 (nat 0) = false)
    (hD : tubeA a b d.x d.y * (18 * (u * tubeH a b p.x p.y)) ≤ a ^ 2 * b ^ 2 * tubeC a b p.x p.y d.x d.y) :
    ∃ T0 T1, (cylT0 a' b' (cylABC a' b' org dir).1 (cylABC a' b' org dir).2.1 (cylABC a' b' org dir).2.2).Is T0 ∧
      (cylT1 a' b' (cylABC a' b' org dir).1 (cylABC a' b' org dir).2.1 (cylABC a' b' org dir).2.2).Is T1 ∧
      16 * |T0| + 16 * (1 + L) ≤ hi ∧ 16 * |T1| + 16 * (1 + L) ≤ hi ∧
      |tubeE a b (p.x + T0 * d.x) (p.y + T0 * d.y)| ≤ 56 * (u * tubeH a b p.x p.y) ∧
      |tubeE a b (p.x + T1 * d.x) (p.y + T1 * d.y)| ≤ 56 * (u * tubeH a b p.x p.y) ∧
      0 < tubeA a b d.x d.y * T0 + tubeB a b p.x p.y d.x d.y ∧
      tubeA a b d.x d.y * T1 + tubeB a b p.x p.y d.x d.y < 0 := by
  obtain ⟨⟨T0, f0, s0⟩, ⟨T1, f1, s1⟩, -⟩ := cyl_roots_finite H hjk hC
  obtain ⟨-, r0, -⟩ := cyl_root_near H.rounds H.faith H.scale H.ha H.hb H.ho H.hd H.tubeIn H.aν H.bν H.sl.2 hC (.inl f0)
  obtain ⟨-, r1, -⟩ := cyl_root_near H.rounds H.faith H.scale H.ha H.hb H.ho H.hd H.tubeIn H.aν H.bν H.sl.2 hC (.inr f1)
  refine ⟨T0, T1, f0, f1, s0, s1, r0, r1, ?_⟩
  have ht := H.scale.tube
  have hin := H.tubeIn
  have hu0 := ht.u0
  have hu1 := ht.u1
  have hAQ := hin.A_le
  obtain ⟨A', B', C', A1, B1, C1, A2, B2, C2⟩ := cyl_coeffs H.rounds ht H.ha H.hb H.ho H.hd hin
  generalize cylABC a' b' org dir = abc at hC f0 f1 A1 B1 C1
  have hC0 : 0 ≤ C' := by
    by_contra hlt
    rw [(C1.lt H.rounds.nat0).2 (not_le.1 hlt)] at hC
    exact absurd hC (by simp)
  obtain ⟨s, r, z1, z0, r0, z2, r2⟩ := tube_sqrt H.rounds ht H.ha H.hb C1 hin hC0 C2
  obtain ⟨hf, -⟩ := H.scale.fine (x := p.x) (y := p.y) H.aν H.bν hjk
  obtain ⟨ss, ms⟩ := tube_sqrt_sq hu0 hu1 hin.a0 hin.b0 ht.θ0 hf r0 z2 r2
  have hP1 : |tubeB a b p.x p.y d.x d.y| ≤ tubeP a b p.x p.y d.x d.y := abs_tubeB_le
  have hP2 : Mag (tubeA a b d.x d.y * tubeH a b p.x p.y) 1 (tubeP a b p.x p.y d.x d.y) :=
    ⟨zero_le_one, by rw [one_pow, one_mul]; exact tubeP_sq⟩
  have core : ∀ σ q N T : K, |σ| = 1 → σ * σ = 1 → F.post (σ / A') = some q → F.post (-σ * B' + s) = some N →
      F.post (q * N) = some T → |tubeA a b d.x d.y * T + tubeB a b p.x p.y d.x d.y - σ * s| < s := by
    intro σ q N T hσ hσ2 hq hN hT'
    obtain ⟨t1, -⟩ := tube_root ht hf hAQ hσ hσ2 A2 B2 hP1 hP2 ms (H.faith _ _ hq) (H.faith _ _ hN) (H.faith _ _ hT')
    have h1 := t1.sq
    set Z := tubeA a b d.x d.y * tubeH a b p.x p.y with hZ
    have Z0 : 0 < Z := hf.Zpos
    have h2 := (abs_le.1 ss).1
    have uZ : 0 < u * Z := mul_pos hu0 Z0
    have h3 : u * (u * Z) ≤ 1 / 2 ^ 20 * (u * Z) := mul_le_mul_of_nonneg_right hu1 uZ.le
    have e1 : tubeA a b d.x d.y * (18 * (u * tubeH a b p.x p.y)) = 18 * (u * Z) := by rw [hZ]; ring
    have e2 : (u * (192 / 10)) ^ 2 * Z = (192 / 10) ^ 2 * (u * (u * Z)) := by ring
    rw [e1] at hD
    rw [e2] at h1
    have h4 : (tubeA a b d.x d.y * T + tubeB a b p.x p.y d.x d.y - σ * s) ^ 2 < s ^ 2 := by linarith
    have := sq_lt_sq.1 h4
    rwa [abs_of_nonneg z0] at this
  constructor
  · obtain ⟨-, q, N, hq, hN, hT'⟩ := cyl_root_inv f0 H.rounds.nat1 A1 B1.neg z1
    have := (abs_lt.1 (core 1 q N T0 abs_one (one_mul 1) hq (by rw [neg_one_mul]; exact hN) hT')).1
    linarith
  · obtain ⟨-, q, N, hq, hN, hT'⟩ := cyl_root_inv f1 H.rounds.nat1.neg A1 B1 z1
    have := (abs_lt.1 (core (-1) q N T1 (by rw [abs_neg, abs_one]) (by norm_num) hq (by rw [neg_neg, one_mul]; exact hN) hT')).2
    linarith

/-- the height of a point on the ray, as computed -/
theorem height_is (H : CylFloat u η hi L ν μ a' b' h' org dir a b h p d) {t : XF F} {T : K} (ht : t.Is T) (hz : |p.z + T * d.z| ≤ 6 / 10 * L) :
    ∃ Z, (org + Vec3.muls dir t).z.Is Z ∧ |Z - (p.z + T * d.z)| ≤ 32 / 10 * (u * L) := by
  obtain ⟨u0, u1, η0, ηu, ηL, ηLL, ηuLL, ηuL, L0, uL0, uLL0, uL1, uLL1, hi1, hiL, hiLL⟩ := H.scale.toScale.sizes
  have hF := H.rounds.toGradual
  have h1 : |T * d.z| ≤ 161 / 100 * L := by
    have := abs_sub_le' hz H.sz
    rw [add_sub_cancel_left] at this
    linarith
  have h1' : |d.z * T| ≤ 161 / 100 * L := by rwa [mul_comm]
  obtain ⟨P, P1, P2, -⟩ := rnd_mul hF u0.le H.hd.2.2 ht (le_refl |d.z * T|) (by linarith)
  have h2 := mul_le_mul_of_nonneg_left h1' u0.le
  have h3 : |P - d.z * T| ≤ 17 / 10 * (u * L) := by linarith
  have h4 : |p.z + P - (p.z + T * d.z)| ≤ 17 / 10 * (u * L) := by rwa [show p.z + P - (p.z + T * d.z) = P - d.z * T by ring]
  have h5 := abs_le_of_near h4 hz
  have uL2 : u * L ≤ 1 / 2 ^ 20 * L := mul_le_mul_of_nonneg_right u1 L0.le
  obtain ⟨Z, Z1, Z2, -⟩ := rnd_add hF u0.le H.ho.2.2 P1 (le_refl |p.z + P|) (by linarith)
  refine ⟨Z, Z1, (abs_near_trans Z2 h4).trans ?_⟩
  have h6 : |p.z + P| ≤ 7 / 10 * L := by linarith
  have h7 := mul_le_mul_of_nonneg_left h6 u0.le
  linarith

/-- the test of the height -/
theorem height_passes (H : CylFloat u η hi L ν μ a' b' h' org dir a b h p d) {t : XF F} {T : K} (ht : t.Is T)
    (hz : |p.z + T * d.z| ≤ h / 2 - 4 * (u * L)) : cylInZ h' (org + Vec3.muls dir t).z = true := by
  have hL : h ≤ L := by linarith [H.a0, H.b0, H.sum]
  have uL0 : 0 ≤ u * L := mul_nonneg H.scale.tube.u0.le H.scale.pos.le
  obtain ⟨Z, Z1, Z2⟩ := height_is H ht (by linarith [H.scale.pos])
  obtain ⟨x1, e1, e2, -, -, -, -, e7⟩ := H.half
  obtain ⟨k1, k2⟩ := abs_le.1 hz
  obtain ⟨k3, k4⟩ := abs_le.1 Z2
  obtain ⟨k5, k6⟩ := abs_le.1 e7
  unfold cylInZ
  rw [(Z1.le e1).2 (by linarith), (Z1.ge e2).2 (by linarith)]
  rfl

theorem between_abs {s t w x l B : K} (h1 : s ≤ w) (h2 : w ≤ t) (hs : |x + s * l| ≤ B) (ht : |x + t * l| ≤ B) : |x + w * l| ≤ B := by
  obtain ⟨a1, a2⟩ := abs_le.1 hs
  obtain ⟨b1, b2⟩ := abs_le.1 ht
  rcases le_total 0 l with hl | hl
  · have := mul_le_mul_of_nonneg_right h1 hl
    have := mul_le_mul_of_nonneg_right h2 hl
    exact abs_le.2 ⟨by linarith, by linarith⟩
  · have := mul_le_mul_of_nonpos_right h1 hl
    have := mul_le_mul_of_nonpos_right h2 hl
    exact abs_le.2 ⟨by linarith, by linarith⟩

/-- a ray that enters the tube clearly -/
theorem tube_seen (H : CylFloat u η hi L ν μ a' b' h' org dir a b h p d) {s t e : K} (s0 : 0 ≤ s) (st : s ≤ t)
    (he : 57 * (u * tubeH a b p.x p.y) ≤ e) (hs : e ≤ tubeE a b (p.x + s * d.x) (p.y + s * d.y))
    (ht : tubeE a b (p.x + t * d.x) (p.y + t * d.y) ≤ -e) (zs : |p.z + s * d.z| ≤ h / 2 - 4 * (u * L)) (zt : |p.z + t * d.z| ≤ h / 2 - 4 * (u * L)) :
    RootSeen (fun x => ∃ T, x.Is T ∧ T ≤ t) a' b' h' org dir := by
  have u0 := H.scale.tube.u0
  have hpos : 0 < tubeH a b p.x p.y := by
    have := ab_le_tubeH (a := a) (b := b) (x := p.x) (y := p.y)
    have := H.a0
    have := H.b0
    have : 0 < a ^ 2 * b ^ 2 := by positivity
    linarith
  have uH := mul_pos u0 hpos
  have hjk : μ ≤ |d.x| ∨ μ ≤ |d.y| := by
    refine H.sl.2.resolve_left fun ⟨hx, hy⟩ => ?_
    simp only [hx, hy, mul_zero] at hs ht
    linarith
  obtain ⟨hC, hD⟩ := tube_disc H hjk (by linarith) ht
  have A0 : 0 < tubeA a b d.x d.y := (H.scale.fine (x := p.x) (y := p.y) H.aν H.bν hjk).1.Apos
  obtain ⟨T0, T1, f0, f1, -, -, -, r1, w0, w1⟩ := tube_roots H hjk hC
    (le_trans (mul_le_mul_of_nonneg_left (by linarith) A0.le) hD)
  rw [tubeE_poly] at hs ht r1
  obtain ⟨k1, k2⟩ := quad_entry A0 st (by linarith) (by linarith : 56 * (u * tubeH a b p.x p.y) < e) hs ht r1 w1
  have hlt : T1 < T0 := by
    by_contra hle
    have := mul_le_mul_of_nonneg_left (not_lt.1 hle) A0.le
    linarith
  refine ⟨hC, (f1.gt H.rounds.nat0).2 (by linarith), (f1.lt f0).2 hlt, ?_, height_passes H f1 (between_abs k1.le k2.le zs zt), T1, f1, k2.le⟩
  rw [Bool.eq_false_iff]
  exact fun h0 => absurd ((f0.lt f1).1 h0) (not_lt.2 hlt.le)

/-- a ray that crosses the plane of a cap clearly -/
theorem cap_reached (H : CylFloat u η hi L ν μ a' b' h' org dir a b h p d) {c' : XF F} {c σ : K} (hc : c'.Is c) (hcL : |c| ≤ 52 / 100 * L)
    (hσ : σ = 1 ∨ σ = -1) {s t : K} (s0 : 0 ≤ s) (st : s ≤ t) (zs : 4 * (u * L) ≤ σ * (p.z + s * d.z - c))
    (zt : σ * (p.z + t * d.z - c) ≤ -(4 * (u * L))) :
    eq dir.z (nat 0) = false ∧ lt ((c' - org.z) / dir.z) (nat 0) = false ∧
      ∃ T, ((c' - org.z) / dir.z).Is T ∧ s ≤ T ∧ T ≤ t := by
  have uL0 : 0 < u * L := mul_pos H.scale.tube.u0 H.scale.pos
  have hneg : σ * d.z < 0 := by
    by_contra hle
    have := mul_nonneg (sub_nonneg.2 st) (not_lt.1 hle)
    have e : σ * (p.z + t * d.z - c) - σ * (p.z + s * d.z - c) = (t - s) * (σ * d.z) := by ring
    linarith
  have hl : d.z ≠ 0 := fun h0 => by rw [h0, mul_zero] at hneg; exact lt_irrefl _ hneg
  obtain ⟨G, T, G1, T1, G2, T2, k1, k2, k3, -, -⟩ := cap_param H hl hc hcL
  have k4 : |σ * (p.z + T * d.z - c)| ≤ 33 / 10 * (u * L) := by
    rw [abs_mul]
    rcases hσ with rfl | rfl
    · rwa [abs_one, one_mul]
    · rwa [abs_neg, abs_one, one_mul]
  obtain ⟨k5, k6⟩ := abs_le.1 k4
  have m1 : s ≤ T := by
    by_contra hlt
    have := mul_le_mul_of_nonpos_right (not_le.1 hlt).le hneg.le
    have e : σ * (p.z + T * d.z - c) - σ * (p.z + s * d.z - c) = T * (σ * d.z) - s * (σ * d.z) := by ring
    linarith
  have m2 : T ≤ t := by
    by_contra hlt
    have := mul_le_mul_of_nonpos_right (not_le.1 hlt).le hneg.le
    have e : σ * (p.z + T * d.z - c) - σ * (p.z + t * d.z - c) = T * (σ * d.z) - t * (σ * d.z) := by ring
    linarith
  refine ⟨?_, ?_, T, T1, m1, m2⟩
  · rw [Bool.eq_false_iff]
    exact fun h0 => hl ((H.hd.2.2.eq H.rounds.nat0).1 h0)
  · rw [Bool.eq_false_iff]
    intro h0
    have := (T1.lt H.rounds.nat0).1 h0
    linarith

/-! ### within the ellipse -/

/-- a coordinate of a point on the ray, as computed -/
theorem coord_is (H : CylFloat u η hi L ν μ a' b' h' org dir a b h p d) {x j t : XF F} {X J T : K} (hx : x.Is X) (hj : j.Is J) (ht : t.Is T)
    (hX : |X| ≤ 101 / 100 * L) (hq : |X + T * J| ≤ L) : ∃ Y, (x + t * j).Is Y ∧ |Y - (X + T * J)| ≤ 32 / 10 * (u * L) := by
  obtain ⟨u0, u1, η0, ηu, ηL, ηLL, ηuLL, ηuL, L0, uL0, uLL0, uL1, uLL1, hi1, hiL, hiLL⟩ := H.scale.toScale.sizes
  have hF := H.rounds.toGradual
  have h1 : |T * J| ≤ 201 / 100 * L := by
    have := abs_sub_le' hq hX
    rw [add_sub_cancel_left] at this
    linarith
  obtain ⟨P, P1, P2, -⟩ := rnd_mul hF u0.le ht hj (le_refl |T * J|) (by linarith)
  have h2 := mul_le_mul_of_nonneg_left h1 u0.le
  have h3 : |P - T * J| ≤ 21 / 10 * (u * L) := by linarith
  have h4 : |X + P - (X + T * J)| ≤ 21 / 10 * (u * L) := by rwa [add_sub_add_left_eq_sub]
  have h5 := abs_le_of_near h4 hq
  have uL2 : u * L ≤ 1 / 2 ^ 20 * L := mul_le_mul_of_nonneg_right u1 L0.le
  obtain ⟨Z, Z1, Z2, -⟩ := rnd_add hF u0.le hx P1 (le_refl |X + P|) (by linarith)
  refine ⟨Z, Z1, (abs_near_trans Z2 h4).trans ?_⟩
  have h6 : |X + P| ≤ 101 / 100 * L := by linarith
  have h7 := mul_le_mul_of_nonneg_left h6 u0.le
  linarith

/-- the test whether a point is within the ellipse, for points that clearly are -/
theorem cap_test_below (u0 : 0 < u) (u1 : u ≤ 1 / 2 ^ 20) (η0 : 0 ≤ η) {a b X Y t1 t2 V W : K} (D0 : 0 < a ^ 2 * b ^ 2)
    (hη : 2 ^ 12 * η ≤ u * (a ^ 2 * b ^ 2))
    (h1 : |t1 - b ^ 2 * X ^ 2| ≤ 31 / 10 * (u * (b ^ 2 * X ^ 2)) + 22 / 10 * η)
    (h2 : |t2 - a ^ 2 * Y ^ 2| ≤ 31 / 10 * (u * (a ^ 2 * Y ^ 2)) + 22 / 10 * η)
    (hV : |V - (t1 + t2)| ≤ u * |t1 + t2| + η) (hW : |W - a ^ 2 * b ^ 2| ≤ 31 / 10 * (u * (a ^ 2 * b ^ 2)) + 22 / 10 * η)
    (h : tubeE a b X Y ≤ -(8 * (u * (a ^ 2 * b ^ 2)))) : V < W := by
  unfold tubeE at h
  set M := b ^ 2 * X ^ 2
  set N := a ^ 2 * Y ^ 2
  set D := a ^ 2 * b ^ 2
  have M0 : 0 ≤ M := by positivity
  have N0 : 0 ≤ N := by positivity
  have uM : 0 ≤ u * M := by positivity
  have uN : 0 ≤ u * N := by positivity
  have uD : 0 < u * D := by positivity
  have h12 : |t1 + t2 - (M + N)| ≤ 31 / 10 * (u * (M + N)) + 44 / 10 * η := by
    rw [show t1 + t2 - (M + N) = (t1 - M) + (t2 - N) by ring]
    refine (abs_add_le' h1 h2).trans (le_of_eq ?_)
    ring
  have h3 := abs_le_of_near h12 (abs_of_nonneg (add_nonneg M0 N0)).le
  have h4 := mul_le_mul_of_nonneg_left h3 u0.le
  have h5 := abs_near_trans hV h12
  have uη : u * η ≤ 1 / 2 ^ 20 * η := mul_le_mul_of_nonneg_right u1 η0
  have uuS : u * (u * (M + N)) ≤ 1 / 2 ^ 20 * (u * (M + N)) := mul_le_mul_of_nonneg_right u1 (by positivity)
  have h6 := (abs_le.1 h5).2
  have h7 := (abs_le.1 hW).1
  have h9 : M + N ≤ D := by linarith
  have h10 := mul_le_mul_of_nonneg_left h9 u0.le
  linarith

/-- the sums that are compared with `a² b²` -/
theorem ellipse_seen (H : CylFloat u η hi L ν μ a' b' h' org dir a b h p d) {x y : XF F} {X Y : K} (hx : x.Is X) (hy : y.Is Y)
    (hE : tubeE a b X Y ≤ -(8 * (u * (a ^ 2 * b ^ 2)))) :
    ∃ V W, (b' * b' * x * x + a' * a' * y * y).Is V ∧ (a' * a' * b' * b').Is W ∧ V < W := by
  obtain ⟨m1, m2, m3, m4⟩ := H.scale.more
  obtain ⟨-, -, -, Q1, ηθ, ηQ, θ0, QQ, Q2, Q3, hi2, hi3, hi4, θu⟩ := H.scale.tube
  obtain ⟨u0, u1, η0, ηu, ηL, ηLL, ηuLL, ηuL, L0, uL0, uLL0, uL1, uLL1, hi1, hiL, hiLL⟩ := H.scale.toScale.sizes
  have hF := H.rounds.toGradual
  have ν0 := H.scale.ν_pos
  have a0 := H.a0
  have b0 := H.b0
  have h0 := H.h0
  have hsum := H.sum
  have η1 : η ≤ 1 / 2 ^ 12 := by linarith
  have νa : ν ^ 2 ≤ a ^ 2 := pow_le_pow_left₀ ν0.le H.aν 2
  have νb : ν ^ 2 ≤ b ^ 2 := pow_le_pow_left₀ ν0.le H.bν 2
  have ηa : 2 ^ 12 * η ≤ u * a ^ 2 := m1.trans (mul_le_mul_of_nonneg_left νa u0.le)
  have ηb : 2 ^ 12 * η ≤ u * b ^ 2 := m1.trans (mul_le_mul_of_nonneg_left νb u0.le)
  have ηab : 2 ^ 12 * η ≤ u * (a ^ 2 * b ^ 2) := by
    refine m2.trans (mul_le_mul_of_nonneg_left ?_ u0.le)
    have := mul_le_mul νa νb (by positivity) (by positivity)
    rwa [show ν ^ 2 * ν ^ 2 = ν ^ 4 by ring] at this
  have aQ : |a| ≤ 1 + L := by rw [abs_of_pos a0]; linarith
  have bQ : |b| ≤ 1 + L := by rw [abs_of_pos b0]; linarith
  have uD : 0 ≤ u * (a ^ 2 * b ^ 2) := by positivity
  have hX : |X| ≤ a := by
    refine abs_le_of_sq_le_sq ?_ a0.le
    refine le_of_mul_le_mul_left ?_ (pow_pos b0 2)
    have : 0 ≤ a ^ 2 * Y ^ 2 := by positivity
    unfold tubeE at hE
    linarith
  have hY : |Y| ≤ b := by
    refine abs_le_of_sq_le_sq ?_ b0.le
    refine le_of_mul_le_mul_left ?_ (pow_pos a0 2)
    have : 0 ≤ b ^ 2 * X ^ 2 := by positivity
    unfold tubeE at hE
    linarith
  have hQR : 2 ^ 10 * ((1 + L) ^ 2 * (1 + L) ^ 2) ≤ hi := by rwa [show (1 + L) ^ 2 * (1 + L) ^ 2 = (1 + L) ^ 4 by ring]
  obtain ⟨t1, p1, p2, p3⟩ := sq_chain_is hF H.faith u0 u1 η0 η1 H.hb hx ηb bQ Q1 Q1 (by linarith) hQR
  obtain ⟨t2, q1, q2, q3⟩ := sq_chain_is hF H.faith u0 u1 η0 η1 H.ha hy ηa aQ Q1 Q1 (by linarith) hQR
  obtain ⟨W, w1, w2, -⟩ := sq_chain_is hF H.faith u0 u1 η0 η1 H.ha H.hb ηa aQ Q1 Q1 (by linarith) hQR
  have hQR0 : 0 ≤ (1 + L) ^ 2 * (1 + L) ^ 2 := by positivity
  obtain ⟨V, v1, v2, -⟩ := rnd_add hF u0.le p1 q1 (le_refl |t1 + t2|) ((abs_add_le' p3 q3).trans (by linarith))
  exact ⟨V, W, v1, w1, cap_test_below u0 u1 η0 (by positivity) ηab p2 q2 v2 w2 hE⟩

/-- the test on a cap -/
theorem cap_passes (H : CylFloat u η hi L ν μ a' b' h' org dir a b h p d) {t : XF F} {T : K} (ht : t.Is T)
    (hE : tubeE a b (p.x + T * d.x) (p.y + T * d.y) ≤ -(20 * (u * ((a ^ 2 + b ^ 2) * L ^ 2)))) :
    le (b' * b' * (org + Vec3.smul t dir).x * (org + Vec3.smul t dir).x + a' * a' * (org + Vec3.smul t dir).y * (org + Vec3.smul t dir).y)
        (a' * a' * b' * b') = true := by
  have u0 := H.scale.tube.u0
  have u1 := H.scale.tube.u1
  have L0 := H.scale.pos
  have a0 := H.a0
  have b0 := H.b0
  have h0 := H.h0
  have hsum := H.sum
  have uS : 0 ≤ u * ((a ^ 2 + b ^ 2) * L ^ 2) := by positivity
  have uL0 : 0 ≤ u * L := by positivity
  have uL2 : u * L ≤ 1 / 2 ^ 20 * L := mul_le_mul_of_nonneg_right u1 L0.le
  have hX : |p.x + T * d.x| ≤ L := by
    refine (abs_le_of_sq_le_sq (le_of_mul_le_mul_left ?_ (pow_pos b0 2)) a0.le).trans (by linarith)
    have : 0 ≤ a ^ 2 * (p.y + T * d.y) ^ 2 := by positivity
    unfold tubeE at hE
    linarith
  have hY : |p.y + T * d.y| ≤ L := by
    refine (abs_le_of_sq_le_sq (le_of_mul_le_mul_left ?_ (pow_pos a0 2)) b0.le).trans (by linarith)
    have : 0 ≤ b ^ 2 * (p.x + T * d.x) ^ 2 := by positivity
    unfold tubeE at hE
    linarith
  obtain ⟨X, x1, x2⟩ := coord_is H H.ho.1 H.hd.1 ht H.sx hX
  obtain ⟨Y, y1, y2⟩ := coord_is H H.ho.2.1 H.hd.2.1 ht H.sy hY
  have x3 := abs_le_of_near x2 hX
  have y3 := abs_le_of_near y2 hY
  have hn := tubeE_near (a := a) (b := b) x2 y2 (B := 101 / 100 * L) (by linarith) (by linarith) (by linarith) (by linarith)
  have e1 : (a ^ 2 + b ^ 2) * (2 * (101 / 100 * L) * (32 / 10 * (u * L))) = 2 * (101 / 100) * (32 / 10) * (u * ((a ^ 2 + b ^ 2) * L ^ 2)) := by ring
  rw [e1] at hn
  have hn1 := (abs_le.1 hn).1
  have hab : a ^ 2 * b ^ 2 ≤ (a ^ 2 + b ^ 2) * L ^ 2 := by
    have k1 : b ^ 2 ≤ L ^ 2 := pow_le_pow_left₀ b0.le (by linarith) 2
    have k2 := mul_le_mul_of_nonneg_left k1 (pow_two_nonneg a)
    have k3 : 0 ≤ b ^ 2 * L ^ 2 := by positivity
    linarith
  have huab := mul_le_mul_of_nonneg_left hab u0.le
  obtain ⟨V, W, v1, w1, hVW⟩ := ellipse_seen H x1 y1 (by linarith)
  exact (v1.le w1).2 hVW.le

/-- the test whether the origin is inside the tube -/
theorem inner_sides (H : CylFloat u η hi L ν μ a' b' h' org dir a b h p d) :
    ∃ V W, (org.x * org.x * b' * b' + org.y * org.y * a' * a').Is V ∧ (a' * a' * b' * b').Is W ∧
      |V - W - tubeE a b p.x p.y| ≤ 6 * (u * tubeH a b p.x p.y) := by
  have m2 := H.scale.lost'
  have ν0 := H.scale.ν_pos
  have ht := H.scale.tube
  have hin := H.tubeIn
  have hF := H.rounds.toGradual
  have aQ : |a| ≤ 101 / 100 * (1 + L) := by rw [abs_of_pos hin.a0]; linarith [hin.aQ, ht.Q1]
  have bQ : |b| ≤ 101 / 100 * (1 + L) := by rw [abs_of_pos hin.b0]; linarith [hin.bQ, ht.Q1]
  have hx := hin.xQ
  have hy := hin.yQ
  have hHQ := tubeH_le hin ht.Q1
  obtain ⟨t1, p1, p2⟩ := mono4 hF ht H.ho.1 H.ho.1 H.hb H.hb hx hx bQ bQ
  obtain ⟨t2, q1, q2⟩ := mono4 hF ht H.ho.2.1 H.ho.2.1 H.ha H.ha hy hy aQ aQ
  obtain ⟨W, w1, w2⟩ := mono4 hF ht H.ha H.ha H.hb H.hb aQ aQ bQ bQ
  have hD : ν ^ 4 ≤ a ^ 2 * b ^ 2 := by
    have := mul_le_mul (pow_le_pow_left₀ ν0.le H.aν 2) (pow_le_pow_left₀ ν0.le H.bν 2) (by positivity) (by positivity)
    rwa [show ν ^ 2 * ν ^ 2 = ν ^ 4 by ring] at this
  have hθ : 2 ^ 12 * (η * (1 + L) ^ 2) ≤ u * (a ^ 2 * b ^ 2) := m2.trans (mul_le_mul_of_nonneg_left hD ht.u0.le)
  rw [show p.x * p.x * b * b = b ^ 2 * p.x ^ 2 by ring] at p2
  rw [show p.y * p.y * a * a = a ^ 2 * p.y ^ 2 by ring] at q2
  rw [show a * a * b * b = a ^ 2 * b ^ 2 by ring] at w2
  unfold tubeH at hHQ ⊢
  unfold tubeE
  have M0 : 0 ≤ b ^ 2 * p.x ^ 2 := by positivity
  have N0 : 0 ≤ a ^ 2 * p.y ^ 2 := by positivity
  have D0 : 0 ≤ a ^ 2 * b ^ 2 := by positivity
  have Q40 : 0 ≤ (1 + L) ^ 4 := by positivity
  obtain ⟨V, v1, v2⟩ := quad_sum hF ht p1 q1 p2 q2 (by rw [abs_of_nonneg M0, abs_of_nonneg N0]; linarith)
  refine ⟨V, W, v1, w1, ?_⟩
  rw [abs_of_nonneg M0, abs_of_nonneg N0] at v2
  rw [abs_of_nonneg D0] at w2
  have uD := mul_nonneg ht.u0.le D0
  have uM := mul_nonneg ht.u0.le M0
  have uN := mul_nonneg ht.u0.le N0
  have e1 : u * (a ^ 2 * b ^ 2 + b ^ 2 * p.x ^ 2 + a ^ 2 * p.y ^ 2) = u * (a ^ 2 * b ^ 2) + u * (b ^ 2 * p.x ^ 2) + u * (a ^ 2 * p.y ^ 2) := by ring
  have e2 : u * (b ^ 2 * p.x ^ 2 + a ^ 2 * p.y ^ 2) = u * (b ^ 2 * p.x ^ 2) + u * (a ^ 2 * p.y ^ 2) := by ring
  rw [e2] at v2
  rw [e1, show V - W - (b ^ 2 * p.x ^ 2 + a ^ 2 * p.y ^ 2 - a ^ 2 * b ^ 2) = (V - (b ^ 2 * p.x ^ 2 + a ^ 2 * p.y ^ 2)) - (W - a ^ 2 * b ^ 2) by ring]
  refine (abs_sub_le' v2 w2).trans ?_
  linarith

end
end Blazert
