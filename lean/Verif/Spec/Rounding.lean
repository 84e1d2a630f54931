/- Specification vocabulary: formats that round with a bounded relative error. -/
import Verif.XF
import Mathlib.Algebra.Order.Field.Basic

set_option autoImplicit false

namespace Blazert

variable {K : Type} [Field K] [LinearOrder K]

/-- zero, or of magnitude between `lo` and `hi` -/
def Between (lo hi r : K) : Prop := r = 0 ∨ (lo ≤ |r| ∧ |r| ≤ hi)

/-- The standard model of floating point arithmetic: results between `lo` and `hi` are off by a relative error of at most
`u` each (no further assumption about how they are rounded); a few small constants are exact. -/
structure Fmt.Relative (F : Fmt K) (u lo hi : K) : Prop where
  post : ∀ r, Between lo hi r → ∃ r', F.post r = some r' ∧ |r' - r| ≤ u * |r|
  one : F.post 1 = some 1
  four : F.post 4 = some 4
  eps : F.eps = 2 * u
  four_eps : F.post (4 * F.eps) = some (4 * F.eps)
  slack : F.post (1 + 4 * F.eps) = some (1 + 4 * F.eps)

/-- Floating point arithmetic with gradual underflow: results of magnitude at most `hi` are off by a relative error of at
most `u` plus an absolute error of at most `η`, and keep their sign. -/
structure Fmt.Gradual (F : Fmt K) (u η hi : K) : Prop where
  post : ∀ r, |r| ≤ hi → ∃ r', F.post r = some r' ∧ |r' - r| ≤ u * |r| + η ∧ (0 ≤ r → 0 ≤ r')
  zero : F.post 0 = some 0

/-- the errors are small compared with the numbers between `lo` and `hi`, and `1 / lo` does not overflow -/
structure Fine (u η lo hi : K) : Prop where
  u_nonneg : 0 ≤ u
  u_le : 8 * u ≤ 1
  η_nonneg : 0 ≤ η
  η_le_one : 8 * η ≤ 1
  η_le_lo : 8 * η ≤ lo
  η_hi : 2 * (η * hi) ≤ 1
  lo_pos : 0 < lo
  lo_hi : 2 ≤ lo * hi
  hi_large : 2 ^ 33 ≤ hi

/-- Floating point arithmetic with gradual underflow, an accurate square root, and exact small constants. -/
structure Fmt.Rounds (F : Fmt K) (u η hi : K) : Prop extends Fmt.Gradual F u η hi where
  sqrt : ∀ v, 0 < v → v ≤ hi → ∃ r, F.post (F.sqrt v) = some r ∧ 0 ≤ r ∧ |r ^ 2 - v| ≤ 4 * u * v + 4 * η
  half : F.post (1 / 2) = some (1 / 2)
  one : F.post 1 = some 1
  two : F.post 2 = some 2
  four : F.post 4 = some 4

/-- lengths around `L` can be squared without overflow, and what underflow loses is small compared with them -/
structure Scale (u η hi L : K) : Prop where
  u_pos : 0 < u
  u_le : 2 ^ 20 * u ≤ 1
  η_nonneg : 0 ≤ η
  η_le : η ≤ u ^ 2
  η_le_sq : η ≤ u ^ 2 * L ^ 2
  pos : 0 < L
  sq_le : 64 * L ^ 2 ≤ hi
  hi_large : 64 ≤ hi

end Blazert
