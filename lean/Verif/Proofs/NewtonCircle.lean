/- Convergence of the Newton search on circles. -/
import Verif.Proofs.Newton

set_option autoImplicit false

namespace Blazert
open Scalar

/-- the cosine that belongs to a sine -/
noncomputable def cosOf (w : ℝ) : ℝ := Real.sqrt (1 - w ^ 2)

/-- one step of the search on the unit circle -/
noncomputable def circStep (κ w : ℝ) : ℝ := w ^ 3 + κ * cosOf w ^ 3

/-- the limit of the search -/
noncomputable def circLim (κ : ℝ) : ℝ := κ / Real.sqrt (1 + κ ^ 2)

theorem cosOf_sq {w : ℝ} (h0 : 0 ≤ w) (h1 : w ≤ 1) : cosOf w ^ 2 = 1 - w ^ 2 := Real.sq_sqrt (by nlinarith)
theorem cosOf_nonneg (w : ℝ) : 0 ≤ cosOf w := Real.sqrt_nonneg _
theorem cosOf_le_one (w : ℝ) : cosOf w ≤ 1 := by
  unfold cosOf
  rw [Real.sqrt_le_left (by norm_num)]
  nlinarith [pow_two_nonneg w]
theorem cosOf_pos {w : ℝ} (h0 : 0 ≤ w) (h1 : w < 1) : 0 < cosOf w := Real.sqrt_pos.2 (by nlinarith)
theorem cosOf_anti {w w' : ℝ} (h0 : 0 ≤ w) (h : w ≤ w') : cosOf w' ≤ cosOf w := Real.sqrt_le_sqrt (by nlinarith)

theorem circLim_nonneg {κ : ℝ} (hκ : 0 ≤ κ) : 0 ≤ circLim κ := div_nonneg hκ (Real.sqrt_nonneg _)

theorem circLim_eq {κ : ℝ} (hκ : 0 ≤ κ) : circLim κ = κ * cosOf (circLim κ) ∧ circLim κ ≤ 1 := by
  have hs : 0 < Real.sqrt (1 + κ ^ 2) := Real.sqrt_pos.2 (by positivity)
  have h2 : Real.sqrt (1 + κ ^ 2) ^ 2 = 1 + κ ^ 2 := Real.sq_sqrt (by positivity)
  have e : cosOf (circLim κ) = 1 / Real.sqrt (1 + κ ^ 2) := by
    unfold cosOf circLim
    rw [div_pow, h2]
    have : 1 - κ ^ 2 / (1 + κ ^ 2) = 1 / (1 + κ ^ 2) := by field_simp; ring
    rw [this, Real.sqrt_div (by norm_num), Real.sqrt_one]
  refine ⟨?_, ?_⟩
  · rw [e]; unfold circLim; ring
  · unfold circLim
    rw [div_le_one hs]
    exact Real.le_sqrt_of_sq_le (by linarith)

theorem circ_u_nonneg {κ w : ℝ} (hκ : 0 ≤ κ) (h : circLim κ ≤ w) : 0 ≤ w - κ * cosOf w := by
  have h1 := (circLim_eq hκ).1
  have h2 := cosOf_anti (circLim_nonneg hκ) h
  nlinarith

theorem circLim_le_half {κ : ℝ} (hκ : 0 ≤ κ) (h1 : κ ≤ 1) : circLim κ ≤ 3 / 4 := by
  unfold circLim
  have hs : 0 < Real.sqrt (1 + κ ^ 2) := Real.sqrt_pos.2 (by positivity)
  rw [div_le_iff₀ hs]
  have : 4 / 3 * κ ≤ Real.sqrt (1 + κ ^ 2) := Real.le_sqrt_of_sq_le (by nlinarith)
  linarith

/-- a step does not pass the limit -/
theorem circStep_ge {κ w : ℝ} (hκ : 0 ≤ κ) (h0 : 0 ≤ w) (h1 : w ≤ 1) : circLim κ ≤ circStep κ w := by
  obtain ⟨e, l1⟩ := circLim_eq hκ
  have l0 := circLim_nonneg hκ
  have cs := cosOf_sq l0 l1
  have cw := cosOf_sq h0 h1
  have n1 := cosOf_nonneg w
  have n2 := cosOf_nonneg (circLim κ)
  unfold circStep
  generalize circLim κ = l at *
  generalize cosOf w = c at *
  generalize cosOf l = k at *
  have a1 : 0 ≤ (w - l) ^ 2 * (w + l / 2) := by positivity
  have a2 : 0 ≤ κ * ((c - k) ^ 2 * (c + k / 2)) := by positivity
  have : w ^ 3 + κ * c ^ 3 - l = (w - l) ^ 2 * (w + l / 2) + κ * ((c - k) ^ 2 * (c + k / 2)) := by
    have hl : l = κ * k := e
    have e3 : (w - l) ^ 2 * (w + l / 2) + κ * ((c - k) ^ 2 * (c + k / 2)) =
      w ^ 3 + κ * c ^ 3 - 3 / 2 * l * w ^ 2 + l ^ 3 / 2 - 3 / 2 * (κ * k) * c ^ 2 + (κ * k) * k ^ 2 / 2 := by ring
    rw [e3, ← hl, cw, cs]
    ring
  linarith

theorem circStep_eq {κ w : ℝ} (h0 : 0 ≤ w) (h1 : w ≤ 1) : circStep κ w = w - cosOf w ^ 2 * (w - κ * cosOf w) := by
  have cw := cosOf_sq h0 h1
  unfold circStep
  generalize cosOf w = c at *
  linear_combination w * cw

/-- a step towards the limit, from above -/
theorem circStep_le {κ w : ℝ} (hκ : 0 ≤ κ) (h1 : w ≤ 1) (h : circLim κ ≤ w) : circStep κ w ≤ w := by
  have := circ_u_nonneg hκ h
  rw [circStep_eq ((circLim_nonneg hκ).trans h) h1]
  nlinarith [mul_nonneg (pow_two_nonneg (cosOf w)) this]

/-- the remaining error decreases -/
theorem circ_contract {κ w : ℝ} (hκ : 0 ≤ κ) (h1 : w ≤ 1) (h : circLim κ ≤ w) :
    circStep κ w - κ * cosOf (circStep κ w) ≤ w ^ 2 * (w - κ * cosOf w) := by
  have h0 := (circLim_nonneg hκ).trans h
  have hle := circStep_le hκ h1 h
  have hge := (circLim_nonneg hκ).trans (circStep_ge hκ h0 h1)
  have hc := cosOf_anti hge hle
  have e := circStep_eq (κ := κ) h0 h1
  have cw := cosOf_sq h0 h1
  have : circStep κ w - κ * cosOf (circStep κ w) ≤ circStep κ w - κ * cosOf w := by nlinarith
  refine this.trans (le_of_eq ?_)
  rw [e]
  linear_combination (-(w - κ * cosOf w)) * cw

/-- the first step -/
theorem circStep_first {κ : ℝ} (hκ : κ ≤ 1) : circStep κ (95 / 100) ≤ 888 / 1000 := by
  have hc : cosOf (95 / 100) ≤ 3125 / 10000 := by
    unfold cosOf
    rw [Real.sqrt_le_left (by norm_num)]
    norm_num
  have h0 := cosOf_nonneg (95 / 100)
  have : cosOf (95 / 100) ^ 3 ≤ (3125 / 10000) ^ 3 := pow_le_pow_left₀ h0 hc 3
  unfold circStep
  have h3 : 0 ≤ cosOf (95 / 100) ^ 3 := by positivity
  nlinarith

/-- the value of the squared distance at a position of the search: `p` and `m` are the coordinates of the point in the quadrant of
the search -/
theorem circ_value {a m κ w : ℝ} (ha : 0 < a) (hm : 0 < m) (hκ : 0 ≤ κ) (h1 : w ≤ 1) (h : circLim κ ≤ w) {ρ : ℝ} (hρ : 0 ≤ ρ)
    (eρ : ρ ^ 2 = (m * κ) ^ 2 + m ^ 2) :
    (ρ - a) ^ 2 ≤ (m * κ - a * w) ^ 2 + (m - a * cosOf w) ^ 2 ∧
    (m * κ - a * w) ^ 2 + (m - a * cosOf w) ^ 2 ≤ (ρ - a) ^ 2 + 2 * a * (m * (w - κ * cosOf w)) ∧
    (m * κ - a * w) ^ 2 + (m - a * cosOf w) ^ 2 ≤ (ρ - a) ^ 2 + 2 * a * ρ * (w - κ * cosOf w) ^ 2 := by
  have h0 := (circLim_nonneg hκ).trans h
  have hu := circ_u_nonneg hκ h
  have cw := cosOf_sq h0 h1
  have c0 := cosOf_nonneg w
  generalize cosOf w = c at *
  -- the component of the point along the position
  obtain ⟨t, ht⟩ : ∃ t, t = m * (κ * w + c) := ⟨_, rfl⟩
  have t0 : 0 ≤ t := by rw [ht]; positivity
  have key : ρ ^ 2 - t ^ 2 = (m * (w - κ * c)) ^ 2 := by
    rw [eρ, ht]; linear_combination (-(m ^ 2 * (1 + κ ^ 2))) * cw
  have hmρ : m ≤ ρ := by nlinarith [pow_two_nonneg (m * κ)]
  have val : (m * κ - a * w) ^ 2 + (m - a * c) ^ 2 = (ρ - a) ^ 2 + 2 * a * (ρ - t) := by
    rw [ht]; linear_combination a ^ 2 * cw - eρ
  have htρ : t ≤ ρ := by nlinarith [pow_two_nonneg (m * (w - κ * c))]
  have hρ0 : 0 < ρ := hm.trans_le hmρ
  have d0 : 0 ≤ m * (w - κ * c) := by positivity
  have dρ : m * (w - κ * c) ≤ ρ := by nlinarith
  -- `ρ - t ≤ δ² / ρ`
  have hq : (ρ - t) * ρ ≤ (m * (w - κ * c)) ^ 2 := by nlinarith
  have hq1 : ρ - t ≤ m * (w - κ * c) := by
    have : (ρ - t) * ρ ≤ (m * (w - κ * c)) * ρ := hq.trans (by nlinarith)
    exact le_of_mul_le_mul_right this hρ0
  have hq2 : ρ - t ≤ ρ * (w - κ * c) ^ 2 := by
    have : (ρ - t) * ρ ≤ (ρ * (w - κ * c) ^ 2) * ρ := by
      refine hq.trans ?_
      rw [mul_pow]
      have : m ^ 2 ≤ ρ ^ 2 := by nlinarith
      nlinarith [mul_le_mul_of_nonneg_right this (pow_two_nonneg (w - κ * c))]
    exact le_of_mul_le_mul_right this hρ0
  rw [val]
  refine ⟨by nlinarith, by nlinarith, ?_⟩
  have := mul_le_mul_of_nonneg_left hq2 (show (0 : ℝ) ≤ 2 * a by positivity)
  nlinarith

variable {F : Fmt ℝ}

/-- The search on a circle: `m` is the absolute value of the other coordinate of the point and `σ` its sign, the coordinate that is
searched is `ε m κ`, `κ ≥ 0`. -/
structure CircCase (nc : NewtonCase) (a x y ε m κ : ℝ) : Prop where
  m_pos : 0 < m
  κ_nonneg : 0 ≤ κ
  κ_le : κ ≤ 1
  ε_sq : ε * ε = 1
  coords : match nc with
    | .upperX => x = ε * (m * κ) ∧ y = m
    | .lowerX => x = ε * (m * κ) ∧ y = -m
    | .upperY => y = ε * (m * κ) ∧ x = m
    | .lowerY => y = ε * (m * κ) ∧ x = -m

theorem abs_of_sq_one {ε : ℝ} (h : ε * ε = 1) : |ε| = 1 := by
  rcases mul_self_eq_one_iff.1 h with rfl | rfl <;> norm_num

theorem sqrt_scaled {a ε w : ℝ} (ha : 0 < a) (hε : ε * ε = 1) : Real.sqrt (a ^ 2 - (ε * (a * w)) ^ 2) = a * cosOf w := by
  have : a ^ 2 - (ε * (a * w)) ^ 2 = a ^ 2 * (1 - w ^ 2) := by
    linear_combination (-(a ^ 2 * w ^ 2)) * hε
  rw [this, Real.sqrt_mul (by positivity), Real.sqrt_sq ha.le, cosOf]

theorem scaled_lt {a ε w : ℝ} (ha : 0 < a) (hε : ε * ε = 1) (h0 : 0 ≤ w) (h1 : w < 1) : |ε * (a * w)| < a := by
  rw [abs_mul, abs_of_sq_one hε, one_mul, abs_of_nonneg (by positivity)]
  nlinarith

/-- the two halves of the search by one coordinate: `σ = 1` or `σ = -1` -/
theorem circ_deriv {σ a p q ε m κ w : ℝ} (hσ : σ * σ = 1) (ha : 0 < a) (hε : ε * ε = 1) (h0 : 0 ≤ w) (h1 : w < 1)
    (hp : p = ε * (m * κ)) (hq : q = σ * m) :
    deriv (halfR σ a a p q) (ε * (a * w)) = 2 * ε * (m * (w - κ * cosOf w)) / cosOf w ∧
    deriv (halfR (-σ) a a p q) (ε * (a * w)) = -(2 * ε * (m * (w + κ * cosOf w)) / cosOf w) := by
  have hv := scaled_lt (ε := ε) ha hε h0 h1
  have hc := cosOf_pos h0 h1
  rw [(halfR_deriv hσ ha hv).deriv, (halfR_deriv (by linarith) ha hv).deriv, sqrt_scaled ha hε, hp, hq]
  generalize cosOf w = c at *
  constructor
  · field_simp
    linear_combination (ε * m * w) * hσ
  · field_simp
    linear_combination (-(ε * m * w)) * hσ

theorem circ_newton {σ a p q ε m κ w : ℝ} (hσ : σ * σ = 1) (ha : 0 < a) (hε : ε * ε = 1) (hm : 0 < m) (h0 : 0 ≤ w) (h1 : w < 1)
    (hp : p = ε * (m * κ)) (hq : q = σ * m) :
    deriv (deriv (halfR σ a a p q)) (ε * (a * w)) ≠ 0 ∧
    ε * (a * w) - deriv (halfR σ a a p q) (ε * (a * w)) / deriv (deriv (halfR σ a a p q)) (ε * (a * w)) =
      ε * (a * circStep κ w) := by
  have hv := scaled_lt (ε := ε) ha hε h0 h1
  have hc := cosOf_pos h0 h1
  have hd2 : deriv (deriv (halfR σ a a p q)) (ε * (a * w)) = 2 * m / (a * cosOf w ^ 3) := by
    rw [(halfR_deriv2 hσ ha hv).deriv, sqrt_scaled ha hε, hq]
    generalize cosOf w = c at *
    field_simp
    linear_combination hσ * m
  have hne : deriv (deriv (halfR σ a a p q)) (ε * (a * w)) ≠ 0 := by
    rw [hd2]; positivity
  refine ⟨hne, ?_⟩
  rw [hd2, (circ_deriv hσ ha hε h0 h1 hp hq).1, circStep_eq h0 h1.le]
  generalize cosOf w = c at *
  field_simp

variable {nc : NewtonCase} {xa xb xq yq xv tol : XF F} {a x y ε m κ w τ : ℝ}

/-- one iteration -/
theorem CircCase.step (hF : F.Exact) (H : CircCase nc a x y ε m κ) (ia : xa.Is a) (ib : xb.Is a) (ix : xq.Is x) (iy : yq.Is y)
    (ha : 0 < a) (iv : xv.Is (ε * (a * w))) (h0 : 0 ≤ w) (h1 : w < 1) :
    (singleNewton nc xa xb xq yq xv).Is (ε * (a * circStep κ w)) := by
  have hv := scaled_lt (ε := ε) ha H.ε_sq h0 h1
  have hc := H.coords
  cases nc with
  | upperX =>
    obtain ⟨n, e⟩ := circ_newton (σ := 1) (by norm_num) ha H.ε_sq H.m_pos h0 h1 hc.1 (hc.2.trans (by ring))
    have := (step_is hF ia ib ix iy iv ha hv).1 n
    rwa [e] at this
  | lowerX =>
    obtain ⟨n, e⟩ := circ_newton (σ := -1) (by norm_num) ha H.ε_sq H.m_pos h0 h1 hc.1 (hc.2.trans (by ring))
    have := (step_is hF ia ib ix iy iv ha hv).2 n
    rwa [e] at this
  | upperY =>
    obtain ⟨n, e⟩ := circ_newton (σ := 1) (by norm_num) ha H.ε_sq H.m_pos h0 h1 hc.1 (hc.2.trans (by ring))
    have := (step_is hF ib ia iy ix iv ha hv).1 n
    rwa [e] at this
  | lowerY =>
    obtain ⟨n, e⟩ := circ_newton (σ := -1) (by norm_num) ha H.ε_sq H.m_pos h0 h1 hc.1 (hc.2.trans (by ring))
    have := (step_is hF ib ia iy ix iv ha hv).2 n
    rwa [e] at this

/-- the stop criterion, whichever half it belongs to, is at least twice the remaining error -/
theorem CircCase.crit (hF : F.Exact) (H : CircCase nc a x y ε m κ) (ia : xa.Is a) (ib : xb.Is a) (ix : xq.Is x) (iy : yq.Is y)
    (ha : 0 < a) (iv : xv.Is (ε * (a * w))) (hw : circLim κ ≤ w) (h1 : w < 1) :
    ∃ r, (distanceDerivative nc xa xb xq yq xv).Is r ∧ 2 * (m * (w - κ * cosOf w)) ≤ |r| := by
  have h0 := (circLim_nonneg H.κ_nonneg).trans hw
  have hv := scaled_lt (ε := ε) ha H.ε_sq h0 h1
  have hc := H.coords
  have c0 := cosOf_pos h0 h1
  have c1 := cosOf_le_one w
  have hu := circ_u_nonneg H.κ_nonneg hw
  have hε := abs_of_sq_one H.ε_sq
  have hm := H.m_pos
  have hκ := H.κ_nonneg
  -- both numbers are at least twice the error
  have key1 : 2 * (m * (w - κ * cosOf w)) ≤ |2 * ε * (m * (w - κ * cosOf w)) / cosOf w| := by
    rw [abs_div, abs_mul, abs_mul, hε, abs_of_pos c0, abs_of_nonneg (by positivity : 0 ≤ m * (w - κ * cosOf w)),
      le_div_iff₀ c0, abs_of_pos (by norm_num : (0 : ℝ) < 2)]
    nlinarith [mul_nonneg hm.le hu]
  have key2 : 2 * (m * (w - κ * cosOf w)) ≤ |-(2 * ε * (m * (w + κ * cosOf w)) / cosOf w)| := by
    rw [abs_neg, abs_div, abs_mul, abs_mul, hε, abs_of_pos c0, abs_of_nonneg (by positivity : 0 ≤ m * (w + κ * cosOf w)),
      le_div_iff₀ c0, abs_of_pos (by norm_num : (0 : ℝ) < 2)]
    have : 0 ≤ m * (κ * cosOf w) := by positivity
    nlinarith [mul_nonneg hm.le hu]
  cases nc with
  | upperX =>
    have e := (circ_deriv (σ := 1) (by norm_num) ha H.ε_sq h0 h1 hc.1 (hc.2.trans (by ring))).1
    exact ⟨_, (crit_is hF ia ib ix iy iv ha hv).1, by rw [e]; exact key1⟩
  | lowerX =>
    have e := (circ_deriv (σ := -1) (by norm_num) ha H.ε_sq h0 h1 hc.1 (hc.2.trans (by ring))).1
    exact ⟨_, (crit_is hF ia ib ix iy iv ha hv).2, by rw [e]; exact key1⟩
  | upperY =>
    have e := (circ_deriv (σ := 1) (by norm_num) ha H.ε_sq h0 h1 hc.1 (hc.2.trans (by ring))).2
    exact ⟨_, (crit_is hF ib ia iy ix iv ha hv).2, by rw [e]; exact key2⟩
  | lowerY =>
    have e := (circ_deriv (σ := -1) (by norm_num) ha H.ε_sq h0 h1 hc.1 (hc.2.trans (by ring))).2
    rw [neg_neg] at e
    exact ⟨_, (crit_is hF ib ia iy ix iv ha hv).1, by rw [e]; exact key2⟩

theorem newtonLoop_succ {T : Type} [Scalar T] (tol : T) (nc : NewtonCase) (a b xq yq : T) (n : Nat) (v : T) :
    newtonLoop tol nc a b xq yq (n + 1) v = if ge (abs (distanceDerivative nc a b xq yq v)) tol then
      newtonLoop tol nc a b xq yq n (if eq (abs (singleNewton nc a b xq yq v)) a then singleNewton nc a b xq yq v + eps
        else singleNewton nc a b xq yq v) else v := rfl

/-- one round of the loop: it stops with a small error or goes on with the next position -/
theorem CircCase.round (hF : F.Exact) (H : CircCase nc a x y ε m κ) (ia : xa.Is a) (ib : xb.Is a) (ix : xq.Is x) (iy : yq.Is y)
    (ha : 0 < a) (it : tol.Is τ) (n : Nat) (iv : xv.Is (ε * (a * w))) (hw : circLim κ ≤ w) (h1 : w < 1) :
    (newtonLoop tol nc xa xb xq yq (n + 1) xv = xv ∧ 2 * (m * (w - κ * cosOf w)) ≤ τ) ∨
    ∃ xv' : XF F, xv'.Is (ε * (a * circStep κ w)) ∧ newtonLoop tol nc xa xb xq yq (n + 1) xv = newtonLoop tol nc xa xb xq yq n xv' := by
  obtain ⟨r, ir, hr⟩ := H.crit hF ia ib ix iy ha iv hw h1
  rw [newtonLoop_succ]
  by_cases hg : ge (abs (distanceDerivative nc xa xb xq yq xv)) tol = true
  · right
    have h0 := (circLim_nonneg H.κ_nonneg).trans hw
    have st := H.step hF ia ib ix iy ha iv h0 h1
    refine ⟨_, st, ?_⟩
    rw [if_pos hg, if_neg]
    rw [st.abs.eq ia]
    have h2 := circStep_ge H.κ_nonneg h0 h1.le
    have h3 := circStep_le H.κ_nonneg h1.le hw
    exact (scaled_lt ha H.ε_sq ((circLim_nonneg H.κ_nonneg).trans h2) (h3.trans_lt h1)).ne
  · left
    rw [if_neg hg]
    refine ⟨rfl, ?_⟩
    rw [ir.abs.ge it, not_le] at hg
    linarith

/-- the whole loop -/
theorem CircCase.loop (hF : F.Exact) (H : CircCase nc a x y ε m κ) (ia : xa.Is a) (ib : xb.Is a) (ix : xq.Is x) (iy : yq.Is y)
    (ha : 0 < a) (it : tol.Is τ) {W : ℝ} (hW : W < 1) (n : Nat) : ∀ {xv : XF F} {w : ℝ}, xv.Is (ε * (a * w)) → circLim κ ≤ w → w ≤ W →
    ∃ w', (newtonLoop tol nc xa xb xq yq n xv).Is (ε * (a * w')) ∧ circLim κ ≤ w' ∧ w' ≤ W ∧
      (2 * (m * (w' - κ * cosOf w')) ≤ τ ∨ w' - κ * cosOf w' ≤ (W ^ 2) ^ n * (w - κ * cosOf w)) := by
  induction n with
  | zero => intro xv w iv hw h1; exact ⟨w, iv, hw, h1, .inr (by simp)⟩
  | succ n ih =>
    intro xv w iv hw h1
    have h1' := h1.trans_lt hW
    have h0 := (circLim_nonneg H.κ_nonneg).trans hw
    rcases H.round hF ia ib ix iy ha it n iv hw h1' with ⟨e, hs⟩ | ⟨xv', iv', e⟩
    · rw [e]; exact ⟨w, iv, hw, h1, .inl hs⟩
    · rw [e]
      have hw' := circStep_ge H.κ_nonneg h0 h1'.le
      have hle := circStep_le H.κ_nonneg h1'.le hw
      obtain ⟨w', i', l1, l2, hor⟩ := ih iv' hw' (hle.trans h1)
      refine ⟨w', i', l1, l2, hor.imp_right fun hc => hc.trans ?_⟩
      have hcon := circ_contract H.κ_nonneg h1'.le hw
      have hu := circ_u_nonneg H.κ_nonneg hw
      have : w ^ 2 ≤ W ^ 2 := by nlinarith
      calc (W ^ 2) ^ n * (circStep κ w - κ * cosOf (circStep κ w)) ≤ (W ^ 2) ^ n * (w ^ 2 * (w - κ * cosOf w)) :=
            mul_le_mul_of_nonneg_left hcon (by positivity)
        _ ≤ (W ^ 2) ^ n * (W ^ 2 * (w - κ * cosOf w)) :=
            mul_le_mul_of_nonneg_left (mul_le_mul_of_nonneg_right this hu) (by positivity)
        _ = (W ^ 2) ^ (n + 1) * (w - κ * cosOf w) := by ring

/-- all 100 iterations -/
theorem CircCase.iteration (hF : F.Exact) (H : CircCase nc a x y ε m κ) (ia : xa.Is a) (ib : xb.Is a) (ix : xq.Is x) (iy : yq.Is y)
    (ha : 0 < a) (it : tol.Is τ) (iv : xv.Is (ε * (a * (95 / 100)))) :
    ∃ w', (newtonIteration tol nc xa xb xq yq xv).Is (ε * (a * w')) ∧ circLim κ ≤ w' ∧ w' < 1 ∧
      (2 * (m * (w' - κ * cosOf w')) ≤ τ ∨ (w' - κ * cosOf w') ^ 2 ≤ 1 / (2 * 10 ^ 20)) := by
  have hw : circLim κ ≤ 95 / 100 := (circLim_le_half H.κ_nonneg H.κ_le).trans (by norm_num)
  rcases H.round hF ia ib ix iy ha it 99 iv hw (by norm_num) with ⟨e, hs⟩ | ⟨xv', iv', e⟩
  · unfold newtonIteration
    rw [e]; exact ⟨_, iv, hw, by norm_num, .inl hs⟩
  · unfold newtonIteration
    rw [e]
    have hw' := circStep_ge (w := 95 / 100) H.κ_nonneg (by norm_num) (by norm_num)
    obtain ⟨w', i', l1, l2, hor⟩ := H.loop hF ia ib ix iy ha it (W := 888 / 1000) (by norm_num) 99 iv' hw'
      (circStep_first H.κ_le)
    refine ⟨w', i', l1, l2.trans_lt (by norm_num), hor.imp_right fun h => ?_⟩
    have hcon := circ_contract H.κ_nonneg (by norm_num) hw
    have hu' := circ_u_nonneg H.κ_nonneg l1
    have hc0 : 0 ≤ κ * cosOf (95 / 100) := mul_nonneg H.κ_nonneg (cosOf_nonneg _)
    have h1 : w' - κ * cosOf w' ≤ ((888 / 1000 : ℝ) ^ 2) ^ 99 * ((95 / 100) ^ 2 * (95 / 100)) :=
      h.trans (mul_le_mul_of_nonneg_left (hcon.trans (mul_le_mul_of_nonneg_left (by linarith) (by norm_num))) (by positivity))
    calc (w' - κ * cosOf w') ^ 2 ≤ (((888 / 1000 : ℝ) ^ 2) ^ 99 * ((95 / 100) ^ 2 * (95 / 100))) ^ 2 :=
          pow_le_pow_left₀ hu' h1 2
      _ ≤ 1 / (2 * 10 ^ 20) := by norm_num

/-- the distance computed from the final position -/
theorem circ_dist (hF : F.Exact) {xa xp xq xv k : XF F} {a p q ε m κ w σ : ℝ} (ia : xa.Is a) (ip : xp.Is p) (iq : xq.Is q) (ik : k.Is σ)
    (iv : xv.Is (ε * (a * w))) (ha : 0 < a) (hε : ε * ε = 1) (hσ : σ * σ = 1) (hp : p = ε * (m * κ)) (hq : q = σ * m) (h0 : 0 ≤ w)
    (h1 : w < 1) :
    (sqrt ((xp - xv) * (xp - xv) + (xq - k * sqrt (xa * xa - xv * xv)) * (xq - k * sqrt (xa * xa - xv * xv)))).Is
      (Real.sqrt ((m * κ - a * w) ^ 2 + (m - a * cosOf w) ^ 2)) := by
  have hv := sub_sq_pos (scaled_lt (ε := ε) ha hε h0 h1)
  have is := ((ia.mul hF ia).sub hF (iv.mul hF iv)).sqrt hF (by nlinarith)
  rw [← pow_two, ← pow_two, sqrt_scaled ha hε] at is
  have i1 := ip.sub hF iv
  have i2 := iq.sub hF (ik.mul hF is)
  have := ((i1.mul hF i1).add hF (i2.mul hF i2)).sqrt hF (add_nonneg (mul_self_nonneg _) (mul_self_nonneg _))
  have e : (p - ε * (a * w)) * (p - ε * (a * w)) + (q - σ * (a * cosOf w)) * (q - σ * (a * cosOf w)) =
      (m * κ - a * w) ^ 2 + (m - a * cosOf w) ^ 2 := by
    rw [hp, hq]
    linear_combination ((m * κ - a * w) ^ 2) * hε + ((m - a * cosOf w) ^ 2) * hσ
  rwa [e] at this

/-- what is needed of the distance -/
def CircGood (a ρ τ d : ℝ) : Prop := 0 ≤ d ∧ (ρ - a) ^ 2 ≤ d ^ 2 ∧ d ^ 2 ≤ (ρ - a) ^ 2 + a * τ + a * ρ / 10 ^ 20

theorem circGood_of {a m κ w τ ρ : ℝ} (ha : 0 < a) (hm : 0 < m) (hκ : 0 ≤ κ) (h1 : w < 1) (h : circLim κ ≤ w) (hρ : 0 ≤ ρ)
    (eρ : ρ ^ 2 = (m * κ) ^ 2 + m ^ 2) (hτ : 0 ≤ τ)
    (hor : 2 * (m * (w - κ * cosOf w)) ≤ τ ∨ (w - κ * cosOf w) ^ 2 ≤ 1 / (2 * 10 ^ 20)) :
    CircGood a ρ τ (Real.sqrt ((m * κ - a * w) ^ 2 + (m - a * cosOf w) ^ 2)) := by
  obtain ⟨v1, v2, v3⟩ := circ_value ha hm hκ h1.le h hρ eρ
  unfold CircGood
  rw [Real.sq_sqrt (by positivity)]
  refine ⟨Real.sqrt_nonneg _, v1, ?_⟩
  have haτ : 0 ≤ a * τ := by positivity
  have haρ : 0 ≤ a * ρ / 10 ^ 20 := by positivity
  rcases hor with h | h
  · have := mul_le_mul_of_nonneg_left h ha.le
    linarith
  · have := mul_le_mul_of_nonneg_left h (show 0 ≤ 2 * a * ρ by positivity)
    have e : 2 * a * ρ * (1 / (2 * 10 ^ 20)) = a * ρ / 10 ^ 20 := by ring
    linarith

theorem exists_sign {p m : ℝ} (hm : 0 < m) : p = (if 0 < p then 1 else -1) * (m * (|p| / m)) := by
  rw [mul_div_cancel₀ _ hm.ne']
  split_ifs with h
  · rw [abs_of_pos h, one_mul]
  · rw [abs_of_nonpos (not_lt.1 h)]; ring

theorem guess_is (hF : F.Exact) {xp xa : XF F} {p a : ℝ} (ip : xp.Is p) (ia : xa.Is a) :
    (if gt xp (nat 0) then (ofRat (95/100) : XF F) * xa else -ofRat (95/100) * xa).Is ((if 0 < p then 1 else -1) * (a * (95 / 100))) := by
  have i95 : (ofRat (95/100) : XF F).Is (95 / 100) := by
    have := XF.Is.ofRat hF (95/100)
    push_cast at this
    exact this
  have hg := ip.gt (XF.Is.zero hF)
  by_cases h : 0 < p
  · rw [if_pos (hg.2 h), if_pos h]
    have := i95.mul hF ia
    rwa [show (95 / 100 : ℝ) * a = 1 * (a * (95 / 100)) by ring] at this
  · rw [if_neg (fun h' => h (hg.1 h')), if_neg h]
    have := i95.neg.mul hF ia
    rwa [show -(95 / 100 : ℝ) * a = -1 * (a * (95 / 100)) by ring] at this

/-- the distance to a circle -/
theorem minDistEllipse_circle (hF : F.Exact) {tol xa xb xq yq : XF F} {a x y τ : ℝ} (ia : xa.Is a) (ib : xb.Is a) (ha : 0 < a)
    (ix : xq.Is x) (iy : yq.Is y) (it : tol.Is τ) (hτ : 0 ≤ τ) (hne : ¬ (x = 0 ∧ y = 0)) :
    ∃ d, (minDistEllipse tol xa xb xq yq).2.Is d ∧ CircGood a (Real.sqrt (x ^ 2 + y ^ 2)) τ d := by
  have ρ0 := Real.sqrt_nonneg (x ^ 2 + y ^ 2)
  have eρ : Real.sqrt (x ^ 2 + y ^ 2) ^ 2 = x ^ 2 + y ^ 2 := Real.sq_sqrt (by positivity)
  have sgn : ∀ p : ℝ, ((if 0 < p then 1 else -1) : ℝ) * (if 0 < p then 1 else -1) = 1 := by
    intro p; split_ifs <;> norm_num
  have iz := XF.Is.zero hF
  have k1 : (xb / xa).Is 1 := by have := ib.div hF ia ha.ne'; rwa [div_self ha.ne'] at this
  have k1' : (xa / xb).Is 1 := by have := ia.div hF ib ha.ne'; rwa [div_self ha.ne'] at this
  have k2 : (-xb / xa).Is (-1) := by have := ib.neg.div hF ia ha.ne'; rwa [neg_div, div_self ha.ne'] at this
  have k2' : (-xa / xb).Is (-1) := by have := ia.neg.div hF ib ha.ne'; rwa [neg_div, div_self ha.ne'] at this
  have c1 : (xb / xa * xq).Is x := by have := k1.mul hF ix; rwa [one_mul] at this
  have c2 : (-xb / xa * xq).Is (-x) := by have := k2.mul hF ix; rwa [neg_one_mul] at this
  -- one branch
  have fin : ∀ {nc : NewtonCase} {xp xo xc k : XF F} {p o m σ : ℝ}, xp.Is p → xo.Is o → xc.Is a → k.Is σ → σ * σ = 1 → 0 < m → |p| ≤ m →
      o = σ * m → p ^ 2 + o ^ 2 = x ^ 2 + y ^ 2 →
      CircCase nc a x y (if 0 < p then 1 else -1) m (|p| / m) →
      ∃ d, (sqrt ((xp - newtonIteration tol nc xa xb xq yq (if gt xp (nat 0) then ofRat (95/100) * xc else -ofRat (95/100) * xc)) *
          (xp - newtonIteration tol nc xa xb xq yq (if gt xp (nat 0) then ofRat (95/100) * xc else -ofRat (95/100) * xc)) +
          (xo - k * sqrt (xc * xc - newtonIteration tol nc xa xb xq yq (if gt xp (nat 0) then ofRat (95/100) * xc else -ofRat (95/100) * xc)
            * newtonIteration tol nc xa xb xq yq (if gt xp (nat 0) then ofRat (95/100) * xc else -ofRat (95/100) * xc))) *
          (xo - k * sqrt (xc * xc - newtonIteration tol nc xa xb xq yq (if gt xp (nat 0) then ofRat (95/100) * xc else -ofRat (95/100) * xc)
            * newtonIteration tol nc xa xb xq yq (if gt xp (nat 0) then ofRat (95/100) * xc else -ofRat (95/100) * xc))))).Is d ∧
        CircGood a (Real.sqrt (x ^ 2 + y ^ 2)) τ d := by
    intro nc xp xo xc k p o m σ ip io ic ik hσ hm hpm ho hsum H
    obtain ⟨w, iw, l1, l2, hor⟩ := H.iteration hF ia ib ix iy ha it (guess_is hF ip ic)
    refine ⟨_, circ_dist hF ic ip io ik iw ha H.ε_sq hσ (exists_sign hm) ho ((circLim_nonneg H.κ_nonneg).trans l1) l2, ?_⟩
    refine circGood_of ha hm H.κ_nonneg l2 l1 ρ0 ?_ hτ hor
    rw [eρ, ← hsum, mul_div_cancel₀ _ hm.ne', sq_abs, ho]
    linear_combination m ^ 2 * hσ
  have cc : ∀ {p m : ℝ}, 0 < m → |p| ≤ m → 0 ≤ |p| / m ∧ |p| / m ≤ 1 := fun hm h => ⟨by positivity, (div_le_one hm).2 h⟩
  unfold minDistEllipse
  simp only
  split
  · rename_i hb
    simp only [Bool.or_eq_true, Bool.and_eq_true, ix.ge iz, iy.ge c1, ix.le iz, iy.ge c2] at hb
    have hm : |x| ≤ y := by rcases hb with ⟨h1, h2⟩ | ⟨h1, h2⟩
                            · rw [abs_of_nonneg h1]; exact h2
                            · rw [abs_of_nonpos h1]; exact h2
    have hy : 0 < y := lt_of_le_of_ne ((abs_nonneg x).trans hm) fun h => hne ⟨abs_nonpos_iff.1 (by rw [← h] at hm; exact hm), h.symm⟩
    exact fin ix iy ia k1 (by norm_num) hy hm (by ring) rfl
      ⟨hy, (cc hy hm).1, (cc hy hm).2, sgn x, exists_sign hy, rfl⟩
  · rename_i hb
    split
    · rename_i hb2
      simp only [Bool.or_eq_true, Bool.and_eq_true, ix.ge iz, iy.le c1, ix.le iz, iy.le c2] at hb2
      have hm : |x| ≤ -y := by rcases hb2 with ⟨h1, h2⟩ | ⟨h1, h2⟩
                               · rw [abs_of_nonneg h1]; linarith
                               · rw [abs_of_nonpos h1]; linarith
      have hy : 0 < -y := lt_of_le_of_ne ((abs_nonneg x).trans hm) fun h =>
        hne ⟨abs_nonpos_iff.1 (by rw [← h] at hm; exact hm), by linarith⟩
      exact fin ix iy ia k2 (by norm_num) hy hm (by ring) rfl
        ⟨hy, (cc hy hm).1, (cc hy hm).2, sgn x, exists_sign hy, by ring⟩
    · rename_i hb2
      simp only [Bool.or_eq_true, Bool.and_eq_true, ix.ge iz, iy.ge c1, ix.le iz, iy.ge c2, not_or, not_and, not_le] at hb
      simp only [Bool.or_eq_true, Bool.and_eq_true, ix.ge iz, iy.le c1, ix.le iz, iy.le c2, not_or, not_and, not_le] at hb2
      split
      · rename_i hb3
        simp only [Bool.and_eq_true, ix.ge iz, iy.le c1, iy.ge c2] at hb3
        have hm : |y| ≤ x := abs_le.2 ⟨hb3.2, hb3.1.2⟩
        have hx : 0 < x := lt_of_le_of_ne ((abs_nonneg y).trans hm) fun h =>
          hne ⟨h.symm, abs_nonpos_iff.1 (by rw [← h] at hm; exact hm)⟩
        exact fin iy ix ib k1' (by norm_num) hx hm (by ring) (by ring)
          ⟨hx, (cc hx hm).1, (cc hx hm).2, sgn y, exists_sign hx, rfl⟩
      · rename_i hb3
        simp only [Bool.and_eq_true, ix.ge iz, iy.le c1, iy.ge c2, not_and, not_le] at hb3
        have hx0 : x < 0 := by
          by_contra h
          push Not at h
          have h1 := hb.1 h
          have h2 := hb2.1 h
          exact absurd (hb3 ⟨h, h1.le⟩) (by linarith)
        have hm : |y| ≤ -x := abs_le.2 ⟨by linarith [hb2.2 hx0.le], by linarith [hb.2 hx0.le]⟩
        have hx : 0 < -x := by linarith
        exact fin iy ix ib k2' (by norm_num) hx hm (by ring) (by ring)
          ⟨hx, (cc hx hm).1, (cc hx hm).2, sgn y, exists_sign hx, by ring⟩

end Blazert
