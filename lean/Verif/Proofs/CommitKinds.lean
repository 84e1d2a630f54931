/- The bounding boxes of spheres, planes and cylinders with rounding, kind by kind. -/
import Verif.Proofs.CommitBoxes
import Verif.Proofs.RoundOps

set_option autoImplicit false
set_option linter.unusedSectionVars false

namespace Blazert
open Scalar

section
variable {K : Type} [Field K] [LinearOrder K] [IsStrictOrderedRing K] [FloorRing K] {F : Fmt K} {u η hi lo q M : K}

theorem GridOk.nat0 (G : GridOk F u η hi lo q M) : (nat 0 : XF F).Is 0 := by
  obtain ⟨z0, hz0, -, -, hz1⟩ := grad_nat G.rounds.toGradual 0 (by
    have := G.M_ge; have := G.M_hi
    simp only [Nat.cast_zero]; linarith)
  rwa [hz1 rfl] at hz0

/-! ### spheres -/

theorem sphere_axis (G : GridOk F u η hi lo q M) {x y : XF F} (hx : x.Moderate lo M) (hy : y.Moderate lo M) (hr : ∀ r, y.Is r → 0 ≤ r) :
    ∃ a b v, (x - y).Is a ∧ (x + y).Is b ∧ x.Is v ∧ a ≤ v ∧ v ≤ b ∧ Tame (q * q / 2) (100 * M) a ∧ Tame (q * q / 2) (100 * M) b := by
  have M2 := G.M_ge
  have Mh := G.M_hi
  obtain ⟨c, hc, ⟨c0, hc0⟩, tc, -⟩ := G.moderate hx (by linarith)
  obtain ⟨r, hr', -, tr, -⟩ := G.moderate hy (by linarith)
  have r0 := hr r hr'
  obtain ⟨a, a1, a2⟩ := G.post (G.refine (tc.add tr.neg)) (by linarith)
  obtain ⟨b, b1, b2⟩ := G.post (G.refine (tc.add tr)) (by linarith)
  refine ⟨a, b, c, is_sub_post hc hr' (by rw [sub_eq_add_neg]; exact a1), is_add_post hc hr' b1, hc, ?_, ?_, a2.mono (by linarith),
    b2.mono (by linarith)⟩
  · exact (G.ordered _ _ _ _ hc0 a1).2 (by linarith)
  · exact (G.ordered _ _ _ _ hc0 b1).1 (by linarith)

theorem nice_sphere (G : GridOk F u η hi lo q M) {t : K} {c : Vec3 (XF F)} {r : XF F} (hc : ∀ k, (c.get k).Moderate lo M)
    (hr : r.Moderate lo M) (hr0 : ∀ v, r.Is v → 0 ≤ v) : NiceBox t (q * q / 2) (100 * M) (sphereBox c r) c := by
  intro k
  obtain ⟨a, b, v, h1, h2, h3, h4, h5, h6, h7⟩ := sphere_axis G (hc k) hr hr0
  refine ⟨a, b, v, ?_, ?_, h3, h4, h5, h6.1, h7.1, .inl h6.2, .inl h7.2⟩
  · match k with
    | 0 => exact h1
    | 1 => exact h1
    | 2 => exact h1
  · match k with
    | 0 => exact h2
    | 1 => exact h2
    | 2 => exact h2

/-! ### rows of a matrix times a vector -/

/-- the value of a row of a matrix times a vector, with the roundings -/
def RowIs (F : Fmt K) (ρ a : Vec3 K) (s : K) : Prop := ∃ p0 p1 p2 s1, F.post (ρ.x * a.x) = some p0 ∧ F.post (ρ.y * a.y) = some p1 ∧
  F.post (ρ.z * a.z) = some p2 ∧ F.post (p0 + p1) = some s1 ∧ F.post (s1 + p2) = some s

theorem RowIs.is {ρ a : Vec3 K} {s : K} (h : RowIs F ρ a s) {r v : Vec3 (XF F)} (hr : IsV r ρ) (hv : IsV v a) : (Vec3.dot r v).Is s := by
  obtain ⟨p0, p1, p2, s1, h1, h2, h3, h4, h5⟩ := h
  exact is_add_post (is_add_post (is_mul_post hr.1 hv.1 h1) (is_mul_post hr.2.1 hv.2.1 h2) h4) (is_mul_post hr.2.2 hv.2.2 h3) h5

theorem Fmt.Odd.neg (h : F.Odd) {r v : K} (hv : F.post r = some v) : F.post (-r) = some (-v) := by rw [h, hv]; rfl

theorem RowIs.neg (ho : F.Odd) {ρ a : Vec3 K} {s : K} (h : RowIs F ρ a s) : RowIs F ρ ⟨-a.x, -a.y, -a.z⟩ (-s) := by
  obtain ⟨p0, p1, p2, s1, h1, h2, h3, h4, h5⟩ := h
  refine ⟨-p0, -p1, -p2, -s1, ?_, ?_, ?_, ?_, ?_⟩
  · have := ho.neg h1; rwa [← mul_neg] at this
  · have := ho.neg h2; rwa [← mul_neg] at this
  · have := ho.neg h3; rwa [← mul_neg] at this
  · have := ho.neg h4; rwa [neg_add] at this
  · have := ho.neg h5; rwa [neg_add] at this

theorem GridOk.prod (G : GridOk F u η hi lo q M) {x y : K} (hx : Tame q 2 x) (hy : Tame (q / 2) M y) :
    ∃ p, F.post (x * y) = some p ∧ Tame (q * q / 2) (4 * M) p := by
  have M2 := G.M_ge
  have Mh := G.M_hi
  have h := hx.mul hy
  rw [← mul_div_assoc] at h
  obtain ⟨p, h1, h2⟩ := G.post h (by linarith)
  exact ⟨p, h1, h2.mono (by linarith)⟩

theorem row_exists (G : GridOk F u η hi lo q M) {ρ a : Vec3 K} (hρ : ∀ k, Tame q 2 (ρ.get k)) (ha : ∀ k, Tame (q / 2) M (a.get k)) :
    ∃ s, RowIs F ρ a s ∧ Tame (q * q / 2) (40 * M) s := by
  have M2 := G.M_ge
  have Mh := G.M_hi
  obtain ⟨p0, a0, b0⟩ := G.prod (hρ 0) (ha 0)
  obtain ⟨p1, a1, b1⟩ := G.prod (hρ 1) (ha 1)
  obtain ⟨p2, a2, b2⟩ := G.prod (hρ 2) (ha 2)
  obtain ⟨s1, a3, b3⟩ := G.post (b0.add b1) (by linarith)
  obtain ⟨s, a4, b4⟩ := G.post (b3.add b2) (by linarith)
  exact ⟨s, ⟨p0, p1, p2, s1, a0, a1, a2, a3, a4⟩, b4.mono (by linarith)⟩

/-- adding it to the center -/
theorem corner_exists (G : GridOk F u η hi lo q M) {c s : K} (hc : Tame q M c) (hs : Tame (q * q / 2) (40 * M) s) :
    ∃ w, F.post (c + s) = some w ∧ Tame (q * q / 2) (100 * M) w := by
  have M2 := G.M_ge
  have Mh := G.M_hi
  obtain ⟨w, h1, h2⟩ := G.post ((G.refine hc).add hs) (by linarith)
  exact ⟨w, h1, h2.mono (by linarith)⟩

/-- the row times a tiny vector -/
theorem row_tiny (G : GridOk F u η hi lo q M) {ρ : Vec3 K} (hρ : ∀ k, Tame q 2 (ρ.get k)) :
    ∃ p, RowIs F ρ ⟨0, 0, F.tiny⟩ p ∧ |p| ≤ 4 * F.tiny ∧ (99 / 100 ≤ |ρ.z| → 9 / 10 * F.tiny ≤ |p|) ∧ F.post p = some p := by
  have M2 := G.M_ge
  have Mh := G.M_hi
  have t0 := G.tiny_pos
  have ηt := G.η_tiny
  have u100 := G.u_le
  have hQ1 : q * q / 2 ≤ 1 := by
    have := mul_le_mul G.q_le G.q_le G.q_pos.le (by norm_num)
    linarith
  have tQ := G.tiny_Q
  have h1 : |ρ.z * F.tiny| ≤ 2 * F.tiny := abs_mul_le (hρ 2).1 (by rw [abs_of_pos t0])
  obtain ⟨p, a1, a2, -⟩ := G.rounds.post (ρ.z * F.tiny) (by linarith)
  have h2 := near_abs_le h1 G.u_nonneg a2
  have h3 : u * (2 * F.tiny) ≤ 1 / 100 * (2 * F.tiny) := mul_le_mul_of_nonneg_right (by linarith) (by linarith)
  have hp : |p| ≤ 4 * F.tiny := by linarith
  obtain ⟨p', a3, -⟩ := G.rounds.post p (by linarith)
  obtain rfl := G.idem a1 a3
  have z0 := G.rounds.zero
  refine ⟨p', ⟨0, 0, p', 0, ?_, ?_, a1, ?_, ?_⟩, hp, fun hz => ?_, a3⟩
  · simpa using z0
  · simpa using z0
  · simpa using z0
  · simpa using a3
  · have e : |ρ.z * F.tiny| = |ρ.z| * F.tiny := by rw [abs_mul, abs_of_pos t0]
    have h4 : 99 / 100 * F.tiny ≤ |ρ.z * F.tiny| := by rw [e]; exact mul_le_mul_of_nonneg_right hz t0.le
    have h5 : u * |ρ.z * F.tiny| ≤ 1 / 100 * (2 * F.tiny) := mul_le_mul (by linarith) h1 (abs_nonneg _) (by norm_num)
    have h6 := abs_sub_abs_le_abs_sub (ρ.z * F.tiny) p'
    rw [abs_sub_comm] at h6
    linarith

/-! ### planes -/

/-- the points above and below the center, whose distance is tiny -/
theorem tiny_corner (G : GridOk F u η hi lo q M) {c p w : K} (hc : Tame q M c) (hlo : c = 0 ∨ lo ≤ |c|) (hp : |p| ≤ 4 * F.tiny)
    (hpp : F.post p = some p) (hw : F.post (c + p) = some w) : Tame (q * q / 2) (100 * M) w ∨ (c = 0 ∧ w = p) := by
  have M2 := G.M_ge
  have Mh := G.M_hi
  have tlo := G.tiny_lo
  have tQ := G.tiny_Q
  have hQ1 : q * q / 2 ≤ 1 := by
    have := mul_le_mul G.q_le G.q_le G.q_pos.le (by norm_num)
    linarith
  rcases hlo with rfl | hlo
  · right
    rw [zero_add] at hw
    exact ⟨rfl, G.idem hpp hw⟩
  · left
    have h1 : |c + p| ≤ 2 * M := (abs_add_le _ _).trans (by linarith [hc.1])
    obtain ⟨w', a1, a2, -⟩ := G.rounds.post (c + p) (by linarith)
    rw [hw, Option.some.injEq] at a1
    subst a1
    have h2 : 3 / 4 * lo ≤ |c + p| := by
      have := abs_sub_abs_le_abs_sub c (-p)
      rw [abs_neg, sub_neg_eq_add] at this
      linarith
    have h3 : u * |c + p| ≤ 1 / 100 * |c + p| := mul_le_mul_of_nonneg_right (by linarith [G.u_le]) (abs_nonneg _)
    have h4 := abs_sub_abs_le_abs_sub (c + p) w
    rw [abs_sub_comm] at h4
    have h5 := G.η_lo
    have h6 := G.lo_pos
    have h7 : lo / 2 ≤ |w| := by linarith
    have h8 := near_abs_le h1 G.u_nonneg a2
    have h9 : u * (2 * M) ≤ 1 / 100 * (2 * M) := mul_le_mul_of_nonneg_right (by linarith [G.u_le]) (by linarith)
    have h10 := G.η_le
    exact (G.refine ⟨by linarith, G.coarse _ _ hw h7⟩)

/-- if a rectangle has no extent along an axis, then the tiny vector is not too short along this axis -/
theorem no_extent (G : GridOk F u η hi lo q M) {ρ : Vec3 K} {a b W V : K} (hρ : ∀ k, Tame q 2 (ρ.get k)) (ha : Tame (q / 2) M a)
    (hb : Tame (q / 2) M b) (a0 : a ≠ 0) (b0 : b ≠ 0) (hW : RowIs F ρ ⟨a, b, 0⟩ W) (hV : RowIs F ρ ⟨a, -b, 0⟩ V) (hW0 : W = 0) (hV0 : V = 0)
    (hrow : 99 / 100 ≤ Vec3.dot ρ ρ) : 99 / 100 ≤ |ρ.z| := by
  have M2 := G.M_ge
  have Mh := G.M_hi
  subst hW0 hV0
  have z0 := G.rounds.zero
  obtain ⟨p0, p1, p2, s1, h1, h2, h3, h4, h5⟩ := hW
  obtain ⟨q0, q1, q2, t1, k1, k2, k3, k4, k5⟩ := hV
  simp only at h1 h2 h3 k1 k2 k3
  rw [mul_zero, z0, Option.some.injEq] at h3 k3
  subst h3 k3
  rw [add_zero] at h5 k5
  obtain rfl := G.idem h4 h5
  obtain rfl := G.idem k4 k5
  rw [h1, Option.some.injEq] at k1
  subst k1
  have e2 : q1 = -p1 := by
    have := G.odd.neg h2
    rw [← mul_neg, k2, Option.some.injEq] at this
    exact this
  subst e2
  obtain ⟨p0', c0, d0⟩ := G.prod (hρ 0) ha
  obtain ⟨p1', c1, d1⟩ := G.prod (hρ 1) hb
  simp only [Vec3.get_zero, Vec3.get_one] at c0 c1
  rw [h1, Option.some.injEq] at c0
  rw [h2, Option.some.injEq] at c1
  subst c0 c1
  have e3 := G.post_zero (d0.add d1) (by linarith) h4
  have e4 := G.post_zero (d0.add d1.neg) (by linarith) k4
  have p00 : p0 = 0 := by linarith
  have p10 : p1 = 0 := by linarith
  subst p00 p10
  have f0 := (hρ 0).mul ha
  have f1 := (hρ 1).mul hb
  rw [← mul_div_assoc] at f0 f1
  have g0 := G.post_zero f0 (by linarith) h1
  have g1 := G.post_zero f1 (by linarith) h2
  simp only [Vec3.get_zero, Vec3.get_one] at g0 g1
  have x0 : ρ.x = 0 := (mul_eq_zero.1 g0).resolve_right a0
  have y0 : ρ.y = 0 := (mul_eq_zero.1 g1).resolve_right b0
  unfold Vec3.dot at hrow
  rw [x0, y0] at hrow
  by_contra hlt
  have hlt := not_le.1 hlt
  have h6 : |ρ.z| * |ρ.z| ≤ 99 / 100 * (99 / 100) := mul_le_mul hlt.le hlt.le (abs_nonneg _) (by norm_num)
  rw [abs_mul_abs_self] at h6
  linarith

/-- the values along one axis -/
structure PlaneAxis (F : Fmt K) (q M c : K) (W V p w1 w2 w3 w4 w5 w6 : K) : Prop where
  h1 : F.post (c + -W) = some w1
  h2 : F.post (c + V) = some w2
  h3 : F.post (c + -V) = some w3
  h4 : F.post (c + W) = some w4
  t1 : Tame (q * q / 2) (100 * M) w1
  t2 : Tame (q * q / 2) (100 * M) w2
  t3 : Tame (q * q / 2) (100 * M) w3
  t4 : Tame (q * q / 2) (100 * M) w4
  t5 : Tame (q * q / 2) (100 * M) w5 ∨ (c = 0 ∧ w5 = -p)
  t6 : Tame (q * q / 2) (100 * M) w6 ∨ (c = 0 ∧ w6 = p)
  z : c = 0 → w5 = -p ∧ w6 = p ∧ w1 = -W ∧ w2 = V ∧ w3 = -V ∧ w4 = W
  hp : |p| ≤ 4 * F.tiny
  hW : Tame (q * q / 2) (40 * M) W
  hV : Tame (q * q / 2) (40 * M) V
  ext : W = 0 → V = 0 → 9 / 10 * F.tiny ≤ |p|

theorem tame_small {Q N v : K} (hv : Tame Q N v) (hQ : 0 < Q) (h : |v| < Q) : v = 0 := by
  obtain ⟨-, k, rfl⟩ := hv
  by_contra hne
  have hk : k ≠ 0 := by rintro rfl; simp at hne
  have hk1 : (1 : K) ≤ |(k : K)| := by exact_mod_cast Int.one_le_abs hk
  rw [abs_mul, abs_of_pos hQ] at h
  have := mul_le_mul_of_nonneg_right hk1 hQ.le
  linarith

/-- each value is on the grid, or tiny; in the latter case it is not too tiny unless one of the others is beyond it -/
theorem PlaneAxis.tiny (G : GridOk F u η hi lo q M) {c W V p w1 w2 w3 w4 w5 w6 : K} (H : PlaneAxis F q M c W V p w1 w2 w3 w4 w5 w6) {μ : K}
    (hμ : μ ∈ [w1, w2, w3, w4, w5, w6]) :
    Tame (q * q / 2) (100 * M) μ ∨ (c = 0 ∧ |μ| = |p| ∧ (|W| ≤ |p| → |V| ≤ |p| → 9 / 10 * F.tiny ≤ |p|)) := by
  have tQ := G.tiny_Q
  have t0 := G.tiny_pos
  have key : |W| ≤ |p| → |V| ≤ |p| → 9 / 10 * F.tiny ≤ |p| := fun k1 k2 =>
    H.ext (tame_small H.hW G.Q_pos (by linarith [H.hp])) (tame_small H.hV G.Q_pos (by linarith [H.hp]))
  simp only [List.mem_cons, List.not_mem_nil, or_false] at hμ
  rcases hμ with rfl | rfl | rfl | rfl | rfl | rfl
  · exact .inl H.t1
  · exact .inl H.t2
  · exact .inl H.t3
  · exact .inl H.t4
  · rcases H.t5 with h | ⟨h, rfl⟩
    · exact .inl h
    · exact .inr ⟨h, abs_neg _, key⟩
  · rcases H.t6 with h | ⟨h, rfl⟩
    · exact .inl h
    · exact .inr ⟨h, rfl, key⟩

theorem PlaneAxis.min (G : GridOk F u η hi lo q M) {c W V p w1 w2 w3 w4 w5 w6 : K} (H : PlaneAxis F q M c W V p w1 w2 w3 w4 w5 w6) {μ : K}
    (hμ : μ ∈ [w1, w2, w3, w4, w5, w6]) (hmin : ∀ y ∈ [w1, w2, w3, w4, w5, w6], μ ≤ y) :
    |μ| ≤ 100 * M ∧ ((∃ n : ℤ, μ = n * (q * q / 2)) ∨ (-(q * q / 2) ≤ μ ∧ μ ≤ -(9 / 10 * F.tiny))) := by
  have tQ := G.tiny_Q
  have t0 := G.tiny_pos
  have hQ1 : q * q / 2 ≤ 1 := by
    have := mul_le_mul G.q_le G.q_le G.q_pos.le (by norm_num)
    linarith
  have M2 := G.M_ge
  have hp := H.hp
  rcases H.tiny G hμ with h | ⟨hc, hμp, h⟩
  · exact ⟨h.1, .inl h.2⟩
  · obtain ⟨e5, e6, e1, e2, e3, e4⟩ := H.z hc
    have m1 := hmin w1 (by simp); have m2 := hmin w2 (by simp); have m3 := hmin w3 (by simp); have m4 := hmin w4 (by simp)
    have m5 := hmin w5 (by simp); have m6 := hmin w6 (by simp)
    rw [e1] at m1; rw [e2] at m2; rw [e3] at m3; rw [e4] at m4; rw [e5] at m5; rw [e6] at m6
    have hneg : μ = -|p| := by
      rcases abs_choice p with e | e <;> rcases abs_choice μ with e' | e' <;> rw [e, e'] at hμp <;> rw [e] <;> linarith [abs_nonneg p, abs_nonneg μ]
    have kW : |W| ≤ |p| := abs_le.2 ⟨by linarith, by linarith⟩
    have kV : |V| ≤ |p| := abs_le.2 ⟨by linarith, by linarith⟩
    have := h kW kV
    exact ⟨by rw [hμp]; linarith, .inr ⟨by linarith, by linarith⟩⟩

theorem PlaneAxis.max (G : GridOk F u η hi lo q M) {c W V p w1 w2 w3 w4 w5 w6 : K} (H : PlaneAxis F q M c W V p w1 w2 w3 w4 w5 w6) {μ : K}
    (hμ : μ ∈ [w1, w2, w3, w4, w5, w6]) (hmax : ∀ y ∈ [w1, w2, w3, w4, w5, w6], y ≤ μ) :
    |μ| ≤ 100 * M ∧ ((∃ n : ℤ, μ = n * (q * q / 2)) ∨ (9 / 10 * F.tiny ≤ μ ∧ μ ≤ q * q / 2)) := by
  have tQ := G.tiny_Q
  have t0 := G.tiny_pos
  have hQ1 : q * q / 2 ≤ 1 := by
    have := mul_le_mul G.q_le G.q_le G.q_pos.le (by norm_num)
    linarith
  have M2 := G.M_ge
  have hp := H.hp
  rcases H.tiny G hμ with h | ⟨hc, hμp, h⟩
  · exact ⟨h.1, .inl h.2⟩
  · obtain ⟨e5, e6, e1, e2, e3, e4⟩ := H.z hc
    have m1 := hmax w1 (by simp); have m2 := hmax w2 (by simp); have m3 := hmax w3 (by simp); have m4 := hmax w4 (by simp)
    have m5 := hmax w5 (by simp); have m6 := hmax w6 (by simp)
    rw [e1] at m1; rw [e2] at m2; rw [e3] at m3; rw [e4] at m4; rw [e5] at m5; rw [e6] at m6
    have hpos : μ = |p| := by
      rcases abs_choice p with e | e <;> rcases abs_choice μ with e' | e' <;> rw [e, e'] at hμp <;> rw [e] <;> linarith [abs_nonneg p, abs_nonneg μ]
    have kW : |W| ≤ |p| := abs_le.2 ⟨by linarith, by linarith⟩
    have kV : |V| ≤ |p| := abs_le.2 ⟨by linarith, by linarith⟩
    have := h kW kV
    exact ⟨by rw [hμp]; linarith, .inr ⟨by linarith, by linarith⟩⟩

theorem plane_axis_values (G : GridOk F u η hi lo q M) {c a b : K} {ρ : Vec3 K} (hc : Tame q M c) (hlo : c = 0 ∨ lo ≤ |c|)
    (hρ : ∀ k, Tame q 2 (ρ.get k)) (hrow : 99 / 100 ≤ Vec3.dot ρ ρ) (ha : Tame (q / 2) M a) (hb : Tame (q / 2) M b) (a0 : a ≠ 0) (b0 : b ≠ 0) :
    ∃ W V p w1 w2 w3 w4 w5 w6, RowIs F ρ ⟨a, b, 0⟩ W ∧ RowIs F ρ ⟨a, -b, 0⟩ V ∧ RowIs F ρ ⟨0, 0, F.tiny⟩ p ∧
      F.post (c + -p) = some w5 ∧ F.post (c + p) = some w6 ∧ PlaneAxis F q M c W V p w1 w2 w3 w4 w5 w6 := by
  have M2 := G.M_ge
  have Mh := G.M_hi
  have tQ := G.tiny_Q
  have hQ1 : q * q / 2 ≤ 1 := by
    have := mul_le_mul G.q_le G.q_le G.q_pos.le (by norm_num)
    linarith
  obtain ⟨W, hW, tW⟩ := row_exists G (a := ⟨a, b, 0⟩) hρ (fun k => match k with
    | 0 => ha | 1 => hb | 2 => .zero (by linarith))
  obtain ⟨V, hV, tV⟩ := row_exists G (a := ⟨a, -b, 0⟩) hρ (fun k => match k with
    | 0 => ha | 1 => hb.neg | 2 => .zero (by linarith))
  obtain ⟨p, hp, p1, p2, p3⟩ := row_tiny G hρ
  have hpn : F.post (-p) = some (-p) := G.odd.neg p3
  obtain ⟨w1, a1, t1⟩ := corner_exists G hc tW.neg
  obtain ⟨w2, a2, t2⟩ := corner_exists G hc tV
  obtain ⟨w3, a3, t3⟩ := corner_exists G hc tV.neg
  obtain ⟨w4, a4, t4⟩ := corner_exists G hc tW
  have hcp : ∀ x : K, |x| = |p| → |c + x| ≤ hi := fun x hx => (abs_add_le _ _).trans (by rw [hx]; linarith [hc.1])
  obtain ⟨w5, a5, -⟩ := G.rounds.post (c + -p) (hcp _ (abs_neg _))
  obtain ⟨w6, a6, -⟩ := G.rounds.post (c + p) (hcp _ rfl)
  have pW : F.post W = some W := by
    obtain ⟨p0, p1, p2, s1, -, -, -, -, h5⟩ := hW
    obtain ⟨W', h6, -⟩ := G.post tW (by linarith)
    rw [G.idem h5 h6] at h6
    exact h6
  have pV : F.post V = some V := by
    obtain ⟨p0, p1, p2, s1, -, -, -, -, h5⟩ := hV
    obtain ⟨V', h6, -⟩ := G.post tV (by linarith)
    rw [G.idem h5 h6] at h6
    exact h6
  refine ⟨W, V, p, w1, w2, w3, w4, w5, w6, hW, hV, hp, a5, a6, a1, a2, a3, a4, t1, t2, t3, t4, ?_, ?_, fun hc0 => ?_, p1, tW, tV, fun hW0 hV0 => ?_⟩
  · exact tiny_corner G hc hlo (by rwa [abs_neg]) hpn a5
  · exact tiny_corner G hc hlo p1 p3 a6
  · subst hc0
    rw [zero_add] at a1 a2 a3 a4 a5 a6
    exact ⟨G.idem hpn a5, G.idem p3 a6, G.idem (G.odd.neg pW) a1, G.idem pV a2, G.idem (G.odd.neg pV) a3, G.idem pW a4⟩
  · exact p2 (no_extent G hρ ha hb a0 b0 hW hV hW0 hV0 hrow)

/-- the center is between the corners -/
theorem PlaneAxis.between (G : GridOk F u η hi lo q M) {c W V p w1 w2 w3 w4 w5 w6 c0 : K} (H : PlaneAxis F q M c W V p w1 w2 w3 w4 w5 w6)
    (hc : F.post c0 = some c) : (w1 ≤ c ∧ c ≤ w4) ∨ (w4 ≤ c ∧ c ≤ w1) := by
  obtain ⟨k1, k2⟩ := G.ordered _ _ _ _ hc H.h1
  obtain ⟨k3, k4⟩ := G.ordered _ _ _ _ hc H.h4
  rcases le_total 0 W with h | h
  · exact .inl ⟨k2 (by linarith), k3 (by linarith)⟩
  · exact .inr ⟨k4 (by linarith), k1 (by linarith)⟩

theorem plane_axis (G : GridOk F u η hi lo q M) {x dx dy : XF F} {r : Vec3 (XF F)} (hx : x.Moderate lo M) (hdx : dx.Moderate lo M)
    (hdy : dy.Moderate lo M) (hr : ∀ k, (r.get k).Moderate lo 2) (hrow : ∀ ρ, IsV r ρ → 99 / 100 ≤ Vec3.dot ρ ρ)
    (hpos : ∀ a b, dx.Is a → dy.Is b → 0 < a ∧ 0 < b) :
    let P := fun a b e => x + Vec3.dot r ⟨a, b, e⟩
    let A := P (-dx / nat 2) (-dy / nat 2) (nat 0)
    let L := [P (dx / nat 2) (-dy / nat 2) (nat 0), P (-dx / nat 2) (dy / nat 2) (nat 0), P (dx / nat 2) (dy / nat 2) (nat 0),
      P (nat 0) (nat 0) (-tiny), P (nat 0) (nat 0) tiny]
    ∃ m n v, (minOf A L).Is m ∧ (maxOf A L).Is n ∧ x.Is v ∧ m ≤ v ∧ v ≤ n ∧ |m| ≤ 100 * M ∧ |n| ≤ 100 * M ∧
      ((∃ k : ℤ, m = k * (q * q / 2)) ∨ (-(q * q / 2) ≤ m ∧ m ≤ -(9 / 10 * F.tiny))) ∧
      ((∃ k : ℤ, n = k * (q * q / 2)) ∨ (9 / 10 * F.tiny ≤ n ∧ n ≤ q * q / 2)) := by
  intro P A L
  have M2 := G.M_ge
  have Mh := G.M_hi
  obtain ⟨c, hc, ⟨c0, hc0⟩, tc, lc⟩ := G.moderate hx (by linarith)
  obtain ⟨d, hd, -, td, -⟩ := G.moderate hdx (by linarith)
  obtain ⟨e, he, -, te, -⟩ := G.moderate hdy (by linarith)
  choose f f1 f2 f3 f4 using fun k => G.moderate (hr k) (by norm_num)
  set ρ : Vec3 K := ⟨f 0, f 1, f 2⟩ with hρdef
  have hρ : IsV r ρ := ⟨f1 0, f1 1, f1 2⟩
  have hρt : ∀ k, Tame q 2 (ρ.get k) := fun k => match k with
    | 0 => f3 0 | 1 => f3 1 | 2 => f3 2
  obtain ⟨d0, e0⟩ := hpos d e hd he
  obtain ⟨a, a1, a2⟩ := G.half td (by linarith)
  obtain ⟨b, b1, b2⟩ := G.half te (by linarith)
  have a1' : F.post (-d / 2) = some (-a) := by rw [neg_div]; exact G.odd.neg a1
  have b1' : F.post (-e / 2) = some (-b) := by rw [neg_div]; exact G.odd.neg b1
  have h2 := G.rounds.nat2
  have n0 := G.nat0
  have iA := is_div_post hd h2 two_ne_zero a1
  have iB := is_div_post he h2 two_ne_zero b1
  have iA' := is_div_post hd.neg h2 two_ne_zero a1'
  have iB' := is_div_post he.neg h2 two_ne_zero b1'
  have half0 : ∀ {v w : K}, Tame q M v → F.post (v / 2) = some w → 0 < v → w ≠ 0 := by
    rintro v w tv hw v0 rfl
    have t2 : Tame (q * q / 2) M (v / 2) := by
      obtain ⟨n, hn⟩ := G.inv
      obtain ⟨h, k, rfl⟩ := tv
      refine ⟨?_, k * n, ?_⟩
      · rw [abs_div, abs_two]
        have := abs_nonneg ((k : K) * q)
        linarith
      · push_cast
        have : (k : K) * n * (q * q / 2) = k * q / 2 * (n * q) := by ring
        rw [this, hn, mul_one]
    have := G.post_zero t2 (by linarith) hw
    linarith
  obtain ⟨W, V, p, w1, w2, w3, w4, w5, w6, hW, hV, hp, k5, k6, H⟩ := plane_axis_values G tc lc hρt (hrow ρ hρ) a2 b2 (half0 td a1 d0) (half0 te b1 e0)
  have hW' := hW.neg G.odd
  have hV' := hV.neg G.odd
  have hp' := hp.neg G.odd
  simp only [neg_zero, neg_neg] at hW' hV' hp'
  have i1 : A.Is w1 := is_add_post hc (hW'.is (v := ⟨_, _, _⟩) hρ ⟨iA', iB', n0⟩) H.h1
  have i2 : (P (dx / nat 2) (-dy / nat 2) (nat 0)).Is w2 := is_add_post hc (hV.is (v := ⟨_, _, _⟩) hρ ⟨iA, iB', n0⟩) H.h2
  have i3 : (P (-dx / nat 2) (dy / nat 2) (nat 0)).Is w3 := is_add_post hc (hV'.is (v := ⟨_, _, _⟩) hρ ⟨iA', iB, n0⟩) H.h3
  have i4 : (P (dx / nat 2) (dy / nat 2) (nat 0)).Is w4 := is_add_post hc (hW.is (v := ⟨_, _, _⟩) hρ ⟨iA, iB, n0⟩) H.h4
  have i5 : (P (nat 0) (nat 0) (-tiny)).Is w5 := is_add_post hc (hp'.is (v := ⟨_, _, _⟩) hρ ⟨n0, n0, XF.Is.tiny.neg⟩) k5
  have i6 : (P (nat 0) (nat 0) tiny).Is w6 := is_add_post hc (hp.is (v := ⟨_, _, _⟩) hρ ⟨n0, n0, XF.Is.tiny⟩) k6
  have hL : List.Forall₂ XF.Is L [w2, w3, w4, w5, w6] := .cons i2 (.cons i3 (.cons i4 (.cons i5 (.cons i6 .nil))))
  obtain ⟨m, m1, m2, m3⟩ := minOf_is' i1 L _ hL
  obtain ⟨n, n1, n2, n3⟩ := maxOf_is' i1 L _ hL
  obtain ⟨x1, x2⟩ := H.min G m2 m3
  obtain ⟨y1, y2⟩ := H.max G n2 n3
  have b1 := m3 w1 (by simp); have b4 := m3 w4 (by simp); have B1 := n3 w1 (by simp); have B4 := n3 w4 (by simp)
  refine ⟨m, n, c, m1, n1, hc, ?_, ?_, x1, y1, x2, y2⟩
  · rcases H.between G hc0 with ⟨h, h'⟩ | ⟨h, h'⟩ <;> linarith
  · rcases H.between G hc0 with ⟨h, h'⟩ | ⟨h, h'⟩ <;> linarith

theorem nice_plane (G : GridOk F u η hi lo q M) {c : Vec3 (XF F)} {dx dy : XF F} {m : Mat3 (XF F)} (hc : ∀ k, (c.get k).Moderate lo M)
    (hdx : dx.Moderate lo M) (hdy : dy.Moderate lo M) (hm : m.Moderate lo) (hpos : ∀ a b, dx.Is a → dy.Is b → 0 < a ∧ 0 < b) :
    NiceBox (9 / 10 * F.tiny) (q * q / 2) (100 * M) (planeBox c dx dy m) c := by
  choose f f1 f2 f3 f4 using fun k => G.moderate (hm.entries k).1 (by norm_num)
  choose g g1 g2 g3 g4 using fun k => G.moderate (hm.entries k).2.1 (by norm_num)
  choose h h1 h2 h3 h4 using fun k => G.moderate (hm.entries k).2.2 (by norm_num)
  have hM : ∀ ρ0 ρ1 ρ2, IsV m.r0 ρ0 → IsV m.r1 ρ1 → IsV m.r2 ρ2 → 99 / 100 ≤ Vec3.dot ρ0 ρ0 ∧ 99 / 100 ≤ Vec3.dot ρ1 ρ1 ∧
      99 / 100 ≤ Vec3.dot ρ2 ρ2 := fun ρ0 ρ1 ρ2 k0 k1 k2 => hm.rows ⟨ρ0, ρ1, ρ2⟩ ⟨k0, k1, k2⟩
  have v0 : IsV m.r0 ⟨f 0, f 1, f 2⟩ := ⟨f1 0, f1 1, f1 2⟩
  have v1 : IsV m.r1 ⟨g 0, g 1, g 2⟩ := ⟨g1 0, g1 1, g1 2⟩
  have v2 : IsV m.r2 ⟨h 0, h 1, h 2⟩ := ⟨h1 0, h1 1, h1 2⟩
  intro k
  match k with
  | 0 => exact plane_axis G (hc 0) hdx hdy (fun k => (hm.entries k).1) (fun ρ hρ => (hM _ _ _ hρ v1 v2).1) hpos
  | 1 => exact plane_axis G (hc 1) hdx hdy (fun k => (hm.entries k).2.1) (fun ρ hρ => (hM _ _ _ v0 hρ v2).2.1) hpos
  | 2 => exact plane_axis G (hc 2) hdx hdy (fun k => (hm.entries k).2.2) (fun ρ hρ => (hM _ _ _ v0 v1 hρ).2.2) hpos

/-! ### cylinders -/

theorem cyl_axis (G : GridOk F u η hi lo q M) {x a b h : XF F} {r : Vec3 (XF F)} (hx : x.Moderate lo M) (ha : a.Moderate lo M)
    (hb : b.Moderate lo M) (hh : h.Moderate lo M) (hr : ∀ k, (r.get k).Moderate lo 2) :
    let A := Vec3.dot r ⟨a, nat 0, nat 0⟩
    let B := Vec3.dot r ⟨nat 0, b, nat 0⟩
    let C := Vec3.dot r ⟨nat 0, nat 0, h / nat 2⟩
    let L := [x + B, x - A, x - B, x + C, x - C]
    ∃ m n v, (minOf (x + A) L).Is m ∧ (maxOf (x + A) L).Is n ∧ x.Is v ∧ m ≤ v ∧ v ≤ n ∧ Tame (q * q / 2) (100 * M) m ∧
      Tame (q * q / 2) (100 * M) n := by
  intro A B C L
  have M2 := G.M_ge
  have Mh := G.M_hi
  obtain ⟨c, hc, ⟨c0, hc0⟩, tc, lc⟩ := G.moderate hx (by linarith)
  obtain ⟨a', ha', -, ta, -⟩ := G.moderate ha (by linarith)
  obtain ⟨b', hb', -, tb, -⟩ := G.moderate hb (by linarith)
  obtain ⟨h', hh', -, th, -⟩ := G.moderate hh (by linarith)
  choose f f1 f2 f3 f4 using fun k => G.moderate (hr k) (by norm_num)
  set ρ : Vec3 K := ⟨f 0, f 1, f 2⟩ with hρdef
  have hρ : IsV r ρ := ⟨f1 0, f1 1, f1 2⟩
  have hρt : ∀ k, Tame q 2 (ρ.get k) := fun k => match k with
    | 0 => f3 0 | 1 => f3 1 | 2 => f3 2
  obtain ⟨z, z1, z2⟩ := G.half th (by linarith)
  have n0 := G.nat0
  have iZ := is_div_post hh' G.rounds.nat2 two_ne_zero z1
  have halve : ∀ {v : K}, Tame q M v → Tame (q / 2) M v := by
    rintro v ⟨h, k, rfl⟩
    exact ⟨h, k * 2, by push_cast; ring⟩
  have zero : ∀ {Q : K}, Tame Q M 0 := .zero (by linarith)
  obtain ⟨s, s1, s2⟩ := row_exists G (a := ⟨a', 0, 0⟩) hρt (fun k => match k with
    | 0 => halve ta | 1 => zero | 2 => zero)
  obtain ⟨t, t1, t2⟩ := row_exists G (a := ⟨0, b', 0⟩) hρt (fun k => match k with
    | 0 => zero | 1 => halve tb | 2 => zero)
  obtain ⟨w, w1, w2⟩ := row_exists G (a := ⟨0, 0, z⟩) hρt (fun k => match k with
    | 0 => zero | 1 => zero | 2 => z2)
  have iA : A.Is s := s1.is (v := ⟨_, _, _⟩) hρ ⟨ha', n0, n0⟩
  have iB : B.Is t := t1.is (v := ⟨_, _, _⟩) hρ ⟨n0, hb', n0⟩
  have iC : C.Is w := w1.is (v := ⟨_, _, _⟩) hρ ⟨n0, n0, iZ⟩
  have plus : ∀ {X : XF F} {v : K}, X.Is v → Tame (q * q / 2) (40 * M) v → ∃ y, (x + X).Is y ∧ Tame (q * q / 2) (100 * M) y ∧
      F.post (c + v) = some y := by
    intro X v hX hv
    obtain ⟨y, y1, y2⟩ := corner_exists G tc hv
    exact ⟨y, is_add_post hc hX y1, y2, y1⟩
  have minus : ∀ {X : XF F} {v : K}, X.Is v → Tame (q * q / 2) (40 * M) v → ∃ y, (x - X).Is y ∧ Tame (q * q / 2) (100 * M) y ∧
      F.post (c + -v) = some y := by
    intro X v hX hv
    obtain ⟨y, y1, y2⟩ := corner_exists G tc hv.neg
    exact ⟨y, is_sub_post hc hX (by rw [sub_eq_add_neg]; exact y1), y2, y1⟩
  obtain ⟨y1, i1, j1, p1⟩ := plus iA s2
  obtain ⟨y2, i2, j2, -⟩ := plus iB t2
  obtain ⟨y3, i3, j3, p3⟩ := minus iA s2
  obtain ⟨y4, i4, j4, -⟩ := minus iB t2
  obtain ⟨y5, i5, j5, -⟩ := plus iC w2
  obtain ⟨y6, i6, j6, -⟩ := minus iC w2
  have hL : List.Forall₂ XF.Is L [y2, y3, y4, y5, y6] := .cons i2 (.cons i3 (.cons i4 (.cons i5 (.cons i6 .nil))))
  obtain ⟨m, m1, m2, m3⟩ := minOf_is' i1 L _ hL
  obtain ⟨n, n1, n2, n3⟩ := maxOf_is' i1 L _ hL
  have all : ∀ y ∈ [y1, y2, y3, y4, y5, y6], Tame (q * q / 2) (100 * M) y := by
    intro y hy
    simp only [List.mem_cons, List.not_mem_nil, or_false] at hy
    rcases hy with rfl | rfl | rfl | rfl | rfl | rfl <;> assumption
  have b1 := m3 y1 (by simp); have b3 := m3 y3 (by simp); have B1 := n3 y1 (by simp); have B3 := n3 y3 (by simp)
  obtain ⟨k1, k2⟩ := G.ordered _ _ _ _ hc0 p1
  obtain ⟨k3, k4⟩ := G.ordered _ _ _ _ hc0 p3
  refine ⟨m, n, c, m1, n1, hc, ?_, ?_, all m m2, all n n2⟩
  · rcases le_total 0 s with h | h
    · linarith [k4 (by linarith)]
    · linarith [k2 (by linarith)]
  · rcases le_total 0 s with h | h
    · linarith [k1 (by linarith)]
    · linarith [k3 (by linarith)]

theorem nice_cylinder (G : GridOk F u η hi lo q M) {t : K} {c : Vec3 (XF F)} {a b h : XF F} {m : Mat3 (XF F)}
    (hc : ∀ k, (c.get k).Moderate lo M) (ha : a.Moderate lo M) (hb : b.Moderate lo M) (hh : h.Moderate lo M) (hm : m.Moderate lo) :
    NiceBox t (q * q / 2) (100 * M) (cylBox c a b h m) c := by
  have key : ∀ k, ∃ x y v, ((cylBox c a b h m).1.get k).Is x ∧ ((cylBox c a b h m).2.get k).Is y ∧ (c.get k).Is v ∧ x ≤ v ∧ v ≤ y ∧
      Tame (q * q / 2) (100 * M) x ∧ Tame (q * q / 2) (100 * M) y := by
    intro k
    match k with
    | 0 => exact cyl_axis G (hc 0) ha hb hh (fun k => (hm.entries k).1)
    | 1 => exact cyl_axis G (hc 1) ha hb hh (fun k => (hm.entries k).2.1)
    | 2 => exact cyl_axis G (hc 2) ha hb hh (fun k => (hm.entries k).2.2)
  intro k
  obtain ⟨x, y, v, h1, h2, h3, h4, h5, h6, h7⟩ := key k
  exact ⟨x, y, v, h1, h2, h3, h4, h5, h6.1, h7.1, .inl h6.2, .inl h7.2⟩

end
end Blazert
