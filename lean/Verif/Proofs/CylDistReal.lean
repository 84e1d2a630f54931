/- From points near the surface of a cylinder to points on it. -/
import Verif.Proofs.Vector
import Verif.Spec.CylDist
import Verif.Spec.NormalRound

set_option autoImplicit false

namespace Blazert

/-- a point of the plane near the ellipse, pulled to it along the ray from the center -/
theorem ellipse_pull {a b m n μ L : ℝ} (a0 : 0 < a) (b0 : 0 < b) (haL : a ≤ L) (hbL : b ≤ L)
    (hT : |m ^ 2 / a ^ 2 + n ^ 2 / b ^ 2 - 1| ≤ μ) :
    ∃ x y, x ^ 2 / a ^ 2 + y ^ 2 / b ^ 2 = 1 ∧ (m - x) ^ 2 + (n - y) ^ 2 ≤ (μ * L) ^ 2 := by
  obtain ⟨T, hTd⟩ : ∃ T, T = m ^ 2 / a ^ 2 + n ^ 2 / b ^ 2 := ⟨_, rfl⟩
  rw [← hTd] at hT
  have L0 : 0 < L := a0.trans_le haL
  have m0 : 0 ≤ m ^ 2 / a ^ 2 := by positivity
  have n0 : 0 ≤ n ^ 2 / b ^ 2 := by positivity
  have μ0 : 0 ≤ μ := (abs_nonneg _).trans hT
  rcases (by rw [hTd]; exact add_nonneg m0 n0 : 0 ≤ T).eq_or_lt with h0 | h0
  · have hm : m ^ 2 / a ^ 2 = 0 := by linarith
    have hn : n ^ 2 / b ^ 2 = 0 := by linarith
    have hm' : m = 0 := by simpa [a0.ne'] using hm
    have hn' : n = 0 := by simpa [b0.ne'] using hn
    refine ⟨a, 0, by rw [div_self (by positivity)]; simp, ?_⟩
    rw [hm', hn']
    have h1 : 1 ≤ μ := by rw [← h0, zero_sub, abs_neg, abs_one] at hT; exact hT
    have h2 : a ≤ μ * L := by nlinarith
    have h3 := mul_le_mul h2 h2 a0.le (by positivity)
    nlinarith
  · obtain ⟨s, hs⟩ : ∃ s, s = Real.sqrt T := ⟨_, rfl⟩
    have s0 : 0 < s := by rw [hs]; exact Real.sqrt_pos.2 h0
    have ss : s ^ 2 = T := by rw [hs]; exact Real.sq_sqrt h0.le
    have h1 : (m / s) ^ 2 / a ^ 2 + (n / s) ^ 2 / b ^ 2 = 1 := by
      have e : (m / s) ^ 2 / a ^ 2 + (n / s) ^ 2 / b ^ 2 = (m ^ 2 / a ^ 2 + n ^ 2 / b ^ 2) / s ^ 2 := by field_simp
      rw [e, ← hTd, ss, div_self h0.ne']
    refine ⟨m / s, n / s, h1, ?_⟩
    have hs1 : |s - 1| ≤ μ := by
      have e : (s - 1) * (s + 1) = T - 1 := by rw [← ss]; ring
      have h2 : |s - 1| * (s + 1) ≤ μ := by
        rw [← abs_of_pos (by linarith : 0 < s + 1), ← abs_mul, e]; exact hT
      have h3 := abs_nonneg (s - 1)
      nlinarith
    have hx : (m / s) ^ 2 + (n / s) ^ 2 ≤ L ^ 2 := by
      have A0 : 0 < a ^ 2 := by positivity
      have B0 : 0 < b ^ 2 := by positivity
      have hA : a ^ 2 ≤ L ^ 2 := pow_le_pow_left₀ a0.le haL 2
      have hB : b ^ 2 ≤ L ^ 2 := pow_le_pow_left₀ b0.le hbL 2
      have e1 : (m / s) ^ 2 = (m / s) ^ 2 / a ^ 2 * a ^ 2 := by field_simp
      have e2 : (n / s) ^ 2 = (n / s) ^ 2 / b ^ 2 * b ^ 2 := by field_simp
      have k1 := mul_le_mul_of_nonneg_left hA (by positivity : 0 ≤ (m / s) ^ 2 / a ^ 2)
      have k2 := mul_le_mul_of_nonneg_left hB (by positivity : 0 ≤ (n / s) ^ 2 / b ^ 2)
      rw [e1, e2]
      calc _ ≤ (m / s) ^ 2 / a ^ 2 * L ^ 2 + (n / s) ^ 2 / b ^ 2 * L ^ 2 := add_le_add k1 k2
        _ = L ^ 2 := by rw [← add_mul, h1, one_mul]
    have e3 : (m - m / s) ^ 2 + (n - n / s) ^ 2 = (s - 1) ^ 2 * ((m / s) ^ 2 + (n / s) ^ 2) := by field_simp
    rw [e3, mul_pow]
    have h4 : (s - 1) ^ 2 ≤ μ ^ 2 := by rw [← sq_abs]; exact pow_le_pow_left₀ (abs_nonneg _) hs1 2
    exact mul_le_mul h4 hx (by positivity) (by positivity)

/-- a point near the surface of a cylinder, pulled to it -/
theorem surface_pull {a b h μ L : ℝ} {q : Vec3 ℝ} (a0 : 0 < a) (b0 : 0 < b) (haL : a ≤ L) (hbL : b ≤ L) (μ0 : 0 ≤ μ)
    (hq : NearSurface a b h μ q) : ∃ s, OnCylSurface a b h s ∧ dist3 q s ≤ μ * L := by
  have L0 : 0 < L := a0.trans_le haL
  have key : ∀ {x y : ℝ}, (q.x - x) ^ 2 + (q.y - y) ^ 2 ≤ (μ * L) ^ 2 → dist3 q ⟨x, y, q.z⟩ ≤ μ * L := by
    intro x y hxy
    unfold dist3 len
    refine Real.sqrt_le_iff.2 ⟨by positivity, le_trans (le_of_eq ?_) hxy⟩
    show (q.x - x) * (q.x - x) + (q.y - y) * (q.y - y) + (q.z - q.z) * (q.z - q.z) = _
    ring
  rcases hq with ⟨h1, h2⟩ | ⟨h1, h2⟩
  · obtain ⟨x, y, k1, k2⟩ := ellipse_pull a0 b0 haL hbL h1
    exact ⟨⟨x, y, q.z⟩, .inl ⟨k1, h2⟩, key k2⟩
  · by_cases h3 : q.x ^ 2 / a ^ 2 + q.y ^ 2 / b ^ 2 ≤ 1
    · refine ⟨⟨q.x, q.y, q.z⟩, .inr ⟨h1, h3⟩, key ?_⟩
      rw [sub_self, sub_self]
      linarith [sq_nonneg (μ * L)]
    · have h3 := not_le.1 h3
      obtain ⟨x, y, k1, k2⟩ := ellipse_pull (μ := μ) a0 b0 haL hbL (abs_le.2 ⟨by linarith, by linarith⟩)
      exact ⟨⟨x, y, q.z⟩, .inr ⟨h1, k1.le⟩, key k2⟩

/-- so a result that reaches a point near the surface is not below the distance from the surface -/
theorem reach_real {a b h μ x y z v e : ℚ} {L : ℚ} (a0 : 0 < a) (b0 : 0 < b) (haL : a ≤ L) (hbL : b ≤ L) (μ0 : 0 ≤ μ)
    (H : ReachesSurface a b h μ x y z v e) {D : ℝ} (hD : ∀ s, OnCylSurface a b h s → D ≤ dist3 ⟨x, y, z⟩ s) :
    D ≤ Real.sqrt ((v : ℝ) ^ 2 + e) + μ * L := by
  obtain ⟨-, q, h1, h2⟩ := H
  have h1' : NearSurface (a : ℝ) b h μ q.toReal := by
    unfold NearSurface at h1 ⊢
    unfold Vec3.toReal
    dsimp only
    exact_mod_cast h1
  have h2' : ((x : ℝ) - q.x) ^ 2 + (y - q.y) ^ 2 + (z - q.z) ^ 2 ≤ (v : ℝ) ^ 2 + e := by
    have h3 : (x - q.x) ^ 2 + (y - q.y) ^ 2 + (z - q.z) ^ 2 ≤ v ^ 2 + e := by have := (abs_le.1 h2).1; linarith
    exact_mod_cast h3
  obtain ⟨s, k1, k2⟩ := surface_pull (L := (L : ℝ)) (by exact_mod_cast a0) (by exact_mod_cast b0) (by exact_mod_cast haL)
    (by exact_mod_cast hbL) (by exact_mod_cast μ0) h1'
  have k3 : dist3 ⟨x, y, z⟩ q.toReal ≤ Real.sqrt ((v : ℝ) ^ 2 + e) := by
    unfold dist3 len
    refine Real.sqrt_le_sqrt (le_trans (le_of_eq ?_) h2')
    show ((x : ℝ) - q.x) * (x - q.x) + (y - q.y) * (y - q.y) + (z - q.z) * (z - q.z) = _
    ring
  have k4 := dist3_triangle ⟨x, y, z⟩ q.toReal s
  linarith [hD s k1]

end Blazert
