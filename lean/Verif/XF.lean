/-
Numbers with signed zeros, infinities and NaN over an ordered field, with the IEEE-754 special value rules.
The rounding (and overflow) behaviour is a parameter, the *format* `F : Fmt K`.
-/
import Verif.Scalar
import Mathlib.Algebra.Order.Field.Basic
import Mathlib.Algebra.Order.Floor.Ring
import Mathlib.Algebra.Order.Archimedean.Basic

set_option autoImplicit false

namespace Blazert

/-- A floating point format over the field `K`. -/
structure Fmt (K : Type) where
  /-- square root of a positive number, before rounding -/
  sqrt : K → K
  /-- rounding of an exact finite result; `none` means overflow to infinity -/
  post : K → Option K
  /-- `numeric_limits::max()` -/
  maxVal : K
  /-- `numeric_limits::epsilon()` -/
  eps : K
  /-- `numeric_limits::min()` -/
  tiny : K

/-- Values of the format `F`.  `fin v nz` is the finite value `v`; the flag `nz` says, when `v = 0`, whether it is
the negative zero (it is irrelevant when `v ≠ 0`). -/
inductive XF {K : Type} (F : Fmt K) where
  | fin (v : K) (nz : Bool)
  | inf (neg : Bool)
  | nan
  deriving DecidableEq, Repr

namespace XF
variable {K : Type} [Field K] [LinearOrder K] {F : Fmt K}

/-- sign bit of a finite value -/
def sgn (v : K) (nz : Bool) : Bool := if v = 0 then nz else decide (v < 0)

/-- Round the exact result `r`; `s` is the sign given to an exact zero result. -/
def mk (F : Fmt K) (s : Bool) (r : K) : XF F :=
  match F.post r with
  | none => inf (decide (r < 0))
  | some r' => fin r' (if r = 0 then s else decide (r < 0))

def neg : XF F → XF F
  | fin v s => fin (-v) (!s)
  | inf s => inf (!s)
  | nan => nan

def add : XF F → XF F → XF F
  | fin a s, fin b t => mk F (sgn a s && sgn b t) (a + b)
  | fin _ _, inf t => inf t
  | inf s, fin _ _ => inf s
  | inf s, inf t => if s = t then inf s else nan
  | nan, _ => nan
  | _, nan => nan

def sub (x y : XF F) : XF F := add x (neg y)

def mul : XF F → XF F → XF F
  | fin a s, fin b t => mk F (xor (sgn a s) (sgn b t)) (a * b)
  | fin a s, inf t => if a = 0 then nan else inf (xor (sgn a s) t)
  | inf s, fin b t => if b = 0 then nan else inf (xor s (sgn b t))
  | inf s, inf t => inf (xor s t)
  | nan, _ => nan
  | _, nan => nan

def div : XF F → XF F → XF F
  | fin a s, fin b t =>
    if b = 0 then (if a = 0 then nan else inf (xor (sgn a s) (sgn b t)))
    else mk F (xor (sgn a s) (sgn b t)) (a / b)
  | fin a s, inf t => fin 0 (xor (sgn a s) t)
  | inf s, fin b t => inf (xor s (sgn b t))
  | inf _, inf _ => nan
  | nan, _ => nan
  | _, nan => nan

def lt : XF F → XF F → Bool
  | fin a _, fin b _ => decide (a < b)
  | fin _ _, inf t => !t
  | inf s, fin _ _ => s
  | inf s, inf t => s && !t
  | nan, _ => false
  | _, nan => false

def le : XF F → XF F → Bool
  | fin a _, fin b _ => decide (a ≤ b)
  | fin _ _, inf t => !t
  | inf s, fin _ _ => s
  | inf s, inf t => s || !t
  | nan, _ => false
  | _, nan => false

def eq : XF F → XF F → Bool
  | fin a _, fin b _ => decide (a = b)
  | inf s, inf t => s == t
  | _, _ => false

def sqrt : XF F → XF F
  | fin v s => if v = 0 then fin v s else if v < 0 then nan else mk F false (F.sqrt v)
  | inf s => if s then nan else inf false
  | nan => nan

def abs : XF F → XF F
  | fin v _ => fin |v| false
  | inf _ => inf false
  | nan => nan

/-- The sign bit.  The sign bit of a NaN is not specified by the code's semantics; it is modelled as `false`. -/
def signbit : XF F → Bool
  | fin v s => sgn v s
  | inf s => s
  | nan => false

/-- `unsigned(std::round(x))`: `std::round` rounds half away from zero; the conversion is defined iff the rounded
value lies in `[0, 2^32)`. -/
def roundU [FloorRing K] : XF F → Option Nat
  | fin v _ =>
    if v ≤ -(1/2) then none
    else if ⌊v + 1/2⌋ < 2 ^ 32 then some ⌊v + 1/2⌋.toNat else none
  | _ => none

instance instScalar [FloorRing K] (F : Fmt K) : Scalar (XF F) where
  add := add
  sub := sub
  mul := mul
  div := div
  neg := neg
  lt := lt
  le := le
  eq := eq
  sqrt := sqrt
  abs := abs
  signbit := signbit
  ofRat q := mk F false (q : K)
  maxVal := fin F.maxVal false
  eps := fin F.eps false
  tiny := fin F.tiny false
  roundU := roundU

end XF
end Blazert
