/- Specification vocabulary for the Newton search of the distance to an ellipse.  Nothing here refers to how blazert computes. -/
import Mathlib.Analysis.Calculus.Deriv.Basic
import Mathlib.Analysis.SpecialFunctions.Sqrt
import Verif.Model.Cylinder

set_option autoImplicit false

namespace Blazert

/-- the point of the ellipse with half axes `a`, `b` that the search works with when its argument is `v`: the first two cases search
the upper and the lower half by the first coordinate, the other two the right and the left half by the second coordinate
(`y_min`, `x_min` in `blazert/primitives/cylinder.h:624-626, 634-636, 644-646, 654-656`) -/
noncomputable def NewtonCase.point (a b : ℝ) : NewtonCase → ℝ → ℝ × ℝ
  | .upperX, v => (v, b / a * Real.sqrt (a ^ 2 - v ^ 2))
  | .lowerX, v => (v, -(b / a * Real.sqrt (a ^ 2 - v ^ 2)))
  | .upperY, v => (a / b * Real.sqrt (b ^ 2 - v ^ 2), v)
  | .lowerY, v => (-(a / b * Real.sqrt (b ^ 2 - v ^ 2)), v)

/-- the half axis along the coordinate by which the search goes -/
def NewtonCase.axis (a b : ℝ) : NewtonCase → ℝ
  | .upperX | .lowerX => a
  | .upperY | .lowerY => b

/-- the search on the other half of the ellipse -/
def NewtonCase.opposite : NewtonCase → NewtonCase
  | .upperX => .lowerX
  | .lowerX => .upperX
  | .upperY => .lowerY
  | .lowerY => .upperY

/-- `R`: the square of the distance from `(x, y)` to the point with argument `v` -/
noncomputable def NewtonCase.sqDist (nc : NewtonCase) (a b x y v : ℝ) : ℝ :=
  (x - (nc.point a b v).1) ^ 2 + (y - (nc.point a b v).2) ^ 2

end Blazert
