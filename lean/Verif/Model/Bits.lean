/- The bit patterns of `float` and `double`, and `product_sign` on them (`blazert/datatypes.h:71-85`). -/
import Verif.Format
import Verif.Model.Datatypes

set_option autoImplicit false

namespace Blazert

/-- `product_sign(double, double)` (`blazert/datatypes.h:83-85`); `as<uint64_t>` (`71-77`) reinterprets the bytes. -/
def productSign64 (x y : BitVec 64) : BitVec 64 := x ^^^ (y &&& 0x8000000000000000#64)

/-- `product_sign(float, float)` (`blazert/datatypes.h:79-81`). -/
def productSign32 (x y : BitVec 32) : BitVec 32 := x ^^^ (y &&& 0x80000000#32)

/-- IEEE-754 interchange format: the value with sign bit `s`, biased exponent `e` (maximal: `emax`), fraction `f` of
`mb` bits; `emin` is the exponent of the last place of the subnormals. -/
def decodeFields {F : Fmt ℚ} (emax mb : Nat) (emin : Int) (s : Bool) (e f : Nat) : XF F :=
  if e = emax then (if f = 0 then .inf s else .nan)
  else
    let m : ℚ := if e = 0 then f * Format.pow2 emin else ((2 ^ mb + f : Nat) : ℚ) * Format.pow2 (emin + e - 1)
    .fin (if s then -m else m) s

/-- the `double` with the given bits: sign 1, exponent 11, fraction 52 -/
def decode64 (b : BitVec 64) : Double :=
  decodeFields 2047 52 (-1074) b.msb (b.extractLsb' 52 11).toNat (b.extractLsb' 0 52).toNat

/-- the `float` with the given bits: sign 1, exponent 8, fraction 23 -/
def decode32 (b : BitVec 32) : Single :=
  decodeFields 255 23 (-149) b.msb (b.extractLsb' 23 8).toNat (b.extractLsb' 0 23).toNat

end Blazert
