/-
The floating point type parameter `T` of blazert's templates, and undefined behaviour as an outcome.
-/
import Mathlib.Data.Rat.Defs

set_option autoImplicit false

namespace Blazert

/-- Causes of undefined behaviour (or, for `outOfFuel`, of an artificial stop of a modelled loop). -/
inductive UB where
  /-- `std::vector::operator[]` of the node list with an index `>= size()` -/
  | oobNode
  /-- access outside `Stack::stack[capacity]` -/
  | oobStack
  /-- access outside `BinBuffer::bin` -/
  | oobBin
  /-- primitive / vertex / face / box / center list index out of range -/
  | oobIndex
  /-- vector component index `>= 3` -/
  | badAxis
  /-- conversion of an unrepresentable floating point value to `unsigned int` -/
  | badCast
  /-- null pointer dereference (`unique_ptr` never set) -/
  | nullDeref
  /-- use of an object that was deleted -/
  | dangling
  /-- query of an Embree scene that was changed after the last commit -/
  | notCommitted
  /-- overflow of a signed counter -/
  | signedOverflow
  /-- the modelled loop was stopped artificially; proved not to happen -/
  | outOfFuel
  deriving DecidableEq, Repr

/-- Result of running a piece of C++: a value, or undefined behaviour. -/
abbrev Run (α : Type) := Except UB α

/-- `std::vector::operator[]` (unchecked in C++, hence undefined when out of range). -/
def lookup {α : Type} (u : UB) (l : List α) (i : Nat) : Run α :=
  match l[i]? with
  | some a => .ok a
  | none => .error u

/-- The operations on the template parameter `T` that blazert uses.  Comparisons are the C++ operators,
i.e. `Bool`-valued and `false` on NaN for IEEE types. -/
class Scalar (T : Type) extends Add T, Sub T, Mul T, Div T, Neg T where
  /-- `a < b` -/
  lt : T → T → Bool
  /-- `a <= b` -/
  le : T → T → Bool
  /-- `a == b` -/
  eq : T → T → Bool
  /-- `std::sqrt` -/
  sqrt : T → T
  /-- `std::abs` -/
  abs : T → T
  /-- sign bit of the representation -/
  signbit : T → Bool
  /-- literals and conversions from integers -/
  ofRat : ℚ → T
  /-- `std::numeric_limits<T>::max()` -/
  maxVal : T
  /-- `std::numeric_limits<T>::epsilon()` -/
  eps : T
  /-- `std::numeric_limits<T>::min()` -/
  tiny : T
  /-- `unsigned(std::round(x))`; `none` when the conversion is undefined behaviour -/
  roundU : T → Option Nat

namespace Scalar
variable {T : Type} [Scalar T]

/-- a natural number as a `T` (`static_cast<T>(n)`) -/
def nat (n : Nat) : T := ofRat (n : ℚ)

/-- `a > b` -/
def gt (a b : T) : Bool := lt b a
/-- `a >= b` -/
def ge (a b : T) : Bool := le b a

/-- `std::min(a, b)` returns `b < a ? b : a`. -/
def min (a b : T) : T := if lt b a then b else a
/-- `std::max(a, b)` returns `a < b ? b : a`. -/
def max (a b : T) : T := if lt a b then b else a

end Scalar
end Blazert
