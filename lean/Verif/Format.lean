/-
Concrete, computable formats over the rationals: bit-accurate binary floating point with round-to-nearest-even,
gradual underflow and overflow (`binary`), its instances `binary64` and `binary32`, and exact rational arithmetic.
-/
import Verif.XF
import Verif.Vec
import Mathlib.Data.Rat.Floor

set_option autoImplicit false

namespace Blazert
namespace Format

/-- `2 ^ e` for an integer exponent -/
def pow2 (e : Int) : ℚ := if 0 ≤ e then ((2 ^ e.toNat : Nat) : ℚ) else 1 / ((2 ^ (-e).toNat : Nat) : ℚ)

/-- `⌊log₂ q⌋` for positive `q` -/
def ilog2 (q : ℚ) : Int :=
  let e : Int := (Nat.log2 q.num.natAbs : Int) - (Nat.log2 q.den : Int)
  if q < pow2 e then e - 1 else e

/-- round a non-negative rational to the nearest integer, ties to even -/
def roundEven (q : ℚ) : Int :=
  let f := q.floor
  let r := q - f
  if r < 1/2 then f else if 1/2 < r then f + 1 else if f % 2 = 0 then f else f + 1

/-- Round to nearest even with `p` significant bits and smallest positive number `2 ^ emin`; `none` on overflow. -/
def roundBinary (p : Nat) (emin : Int) (maxVal : ℚ) (q : ℚ) : Option ℚ :=
  if q = 0 then some 0
  else
    let a := if q < 0 then -q else q
    let e := max (ilog2 a - ((p : Int) - 1)) emin
    let v := (roundEven (a / pow2 e) : ℚ) * pow2 e
    if maxVal < v then none else some (if q < 0 then -v else v)

/-- Newton iteration from above for the integer square root -/
def isqrtLoop (n : Nat) : Nat → Nat → Nat
  | 0, x => x
  | fuel + 1, x => let y := (x + n / x) / 2; if y < x then isqrtLoop n fuel y else x

/-- `⌊√n⌋` -/
def isqrt (n : Nat) : Nat := if n = 0 then 0 else isqrtLoop n 200 (2 ^ (Nat.log2 n / 2 + 1))

/-- A rational that rounds (to at most `p` bits) like `√q`: the exact root if it has few bits, else a truncation to more
than `p + 2` bits with a sticky bit. -/
def sqrtSticky (p : Nat) (q : ℚ) : ℚ :=
  let k : Int := (p : Int) + 3 - ilog2 q / 2
  let x : ℚ := q * pow2 (2 * k)
  let s := isqrt x.floor.toNat
  if (s : ℚ) * (s : ℚ) = x then (s : ℚ) * pow2 (-k) else (2 * (s : ℚ) + 1) * pow2 (-k - 1)

/-- Binary floating point with `p` bits of precision, exponents from `emin` (of the last place of subnormals) to
`emax`. -/
def binary (p : Nat) (emin emax : Int) : Fmt ℚ where
  sqrt := sqrtSticky p
  post := roundBinary p emin ((pow2 p - 1) * pow2 (emax - ((p : Int) - 1)))
  maxVal := (pow2 p - 1) * pow2 (emax - ((p : Int) - 1))
  eps := pow2 (1 - (p : Int))
  tiny := pow2 (emin + ((p : Int) - 1))

/-- IEEE-754 binary64, the type `double` -/
@[irreducible] def binary64 : Fmt ℚ := binary 53 (-1074) 1023
/-- IEEE-754 binary32, the type `float` -/
@[irreducible] def binary32 : Fmt ℚ := binary 24 (-149) 127

end Format

/-- `double` -/
abbrev Double := XF Format.binary64
/-- `float` -/
abbrev Single := XF Format.binary32

/-- A double literal (the decimal `q`, correctly rounded). -/
def dbl (q : ℚ) : Double := Scalar.ofRat q
/-- The double `-0.0`. -/
def dblNegZero : Double := .fin 0 true
/-- A vector of double literals. -/
def dvec (x y z : ℚ) : Vec3 Double := ⟨dbl x, dbl y, dbl z⟩
/-- A float literal. -/
def sgl (q : ℚ) : Single := Scalar.ofRat q
/-- A vector of float literals. -/
def svec (x y z : ℚ) : Vec3 Single := ⟨sgl x, sgl y, sgl z⟩

end Blazert
