/- Upper bounds for the distance to a cylinder. -/
import Verif.Proofs.CylDistAny

set_option autoImplicit false

namespace Blazert
open Scalar

section
variable {K : Type} [Field K] [LinearOrder K] [IsStrictOrderedRing K] [FloorRing K] {F : Fmt K}

/-- the minimum of anything and two numbers, if it is a number, is at most these -/
theorem minOf_caps {s t t' : XF F} {d d' v : K} (ht : t.Is d) (ht' : t'.Is d') (hv : (minOf s [t, t']).Is v) : v ≤ d ∧ v ≤ d' := by
  rcases s with ⟨w, sw⟩ | neg | _
  · obtain ⟨m, h1, h2⟩ := minOf_is (x := (.fin w sw : XF F)) ⟨sw, rfl⟩ [t, t'] [d, d'] (.cons ht (.cons ht' .nil))
    obtain rfl := h1.unique hv
    exact ⟨h2 _ (by simp), h2 _ (by simp)⟩
  · obtain ⟨st, rfl⟩ := ht
    obtain ⟨st', rfl⟩ := ht'
    cases neg
    · have e : minOf (.inf false : XF F) [.fin d st, .fin d' st'] = minOf (.fin d st) [.fin d' st'] := rfl
      rw [e] at hv
      obtain ⟨m, h1, h2⟩ := minOf_is (x := (.fin d st : XF F)) ⟨st, rfl⟩ [.fin d' st'] [d'] (.cons ⟨st', rfl⟩ .nil)
      obtain rfl := h1.unique hv
      exact ⟨h2 _ (by simp), h2 _ (by simp)⟩
    · have e : minOf (.inf true : XF F) [.fin d st, .fin d' st'] = .inf true := rfl
      rw [e] at hv
      obtain ⟨s, hs⟩ := hv
      cases hs
  · obtain ⟨st, rfl⟩ := ht
    obtain ⟨st', rfl⟩ := ht'
    have e : minOf (.nan : XF F) [.fin d st, .fin d' st'] = .nan := rfl
    rw [e] at hv
    obtain ⟨s, hs⟩ := hv
    cases hs

/-- the distance from the nearer cap -/
theorem nearer_cap {z h v e : K} (h0 : 0 ≤ h) (h1 : v ≤ |z - h / 2| + e) (h2 : v ≤ |z + h / 2| + e) : v ≤ |(|z|) - h / 2| + e := by
  rcases le_total 0 z with k | k
  · rwa [abs_of_nonneg k]
  · rw [abs_of_nonpos k, show -z - h / 2 = -(z + h / 2) by ring, abs_neg]
    exact h2

/-- at or above the upper cap the lower one is not nearer -/
theorem top_cap {z h d M e : K} (h0 : 0 ≤ h) (e0 : 0 ≤ e) (hM : M ≤ e) (hz : h / 2 - M ≤ z) (hd : d ≤ |z - h / 2| + e) :
    d ≤ |z - h / 2| + 2 * e ∧ d ≤ |z + h / 2| + 2 * e := by
  refine ⟨by linarith, ?_⟩
  rcases le_total 0 z with k | k
  · have h1 : |z - h / 2| ≤ |z + h / 2| := by
      rw [abs_of_nonneg (by linarith : 0 ≤ z + h / 2)]
      exact abs_le.2 ⟨by linarith, by linarith⟩
    linarith
  · rw [abs_of_nonpos (by linarith : z - h / 2 ≤ 0)] at hd
    have h2 := abs_nonneg (z + h / 2)
    linarith

theorem bottom_cap {z h d M e : K} (h0 : 0 ≤ h) (e0 : 0 ≤ e) (hM : M ≤ e) (hz : z ≤ -(h / 2) + M) (hd : d ≤ |z + h / 2| + e) :
    d ≤ |z - h / 2| + 2 * e ∧ d ≤ |z + h / 2| + 2 * e := by
  have e1 : ∀ w : K, |-z - w| = |z + w| := fun w => by rw [show -z - w = -(z + w) by ring, abs_neg]
  have e2 : ∀ w : K, |-z + w| = |z - w| := fun w => by rw [show -z + w = -(z - w) by ring, abs_neg]
  have := top_cap (z := -z) (d := d) h0 e0 hM (by linarith) (by rw [e1]; exact hd)
  rw [e1, e2] at this
  exact this.symm

end
end Blazert
