import Verif.Model.RawIO
import Mathlib.Algebra.Order.Field.Rat
import Mathlib.Algebra.Order.Field.Power
import Mathlib.Data.Rat.Floor

/-!
# IEEE floating point numbers on hosts whose `double` is not the IEEE one

The branches for `FLT_RADIX != 2 || DBL_MANT_DIG != 53` of ISEGY.cpp:249-264, OSEGY.cpp:124-147,
ISEGD.cpp:257-272 and OSEGD.cpp:151-174. The two libraries use the same text. The arithmetic of such a
host is not known: the model takes the `double` of that host for exact, so a `double` is a rational
number. Values it does not represent and rounding make the results worse, not better.
-/

namespace Sedaman

/-- `exp - 127` and `exp - 1023`: the bias for `ebits` exponent bits. -/
def biasAny (ebits : Nat) : Int := 2 ^ (ebits - 1) - 1

/-- The number computed from the stored integer, with 23 and 8 or 52 and 11 bits for fraction and
exponent. ISEGY.cpp:252-255, 259-262; ISEGD.cpp:260-263, 267-270 -/
def decAny (mant ebits tmp : Nat) : ℚ :=
  let sign : ℚ := if tmp / 2 ^ (mant + ebits) ≠ 0 then -1 else 1
  let exp : Nat := tmp % 2 ^ (mant + ebits) / 2 ^ mant
  let fraction : Nat := tmp % 2 ^ mant
  sign * 2 ^ ((exp : Int) - biasAny ebits) * (1 + fraction / 2 ^ mant)

/-- `dbl_from_IEEE_float`. ISEGY.cpp:250-256 -/
def readSingleAny (bo : ByteOrder) : Rd ℚ := do
  let tmp ← readU32 bo
  pure (decAny 23 8 tmp)

/-- `dbl_from_IEEE_double`. ISEGY.cpp:257-263 -/
def readDoubleAny (bo : ByteOrder) : Rd ℚ := do
  let tmp ← readU64 bo
  pure (decAny 52 11 tmp)

/-- Conversion of a `double` to an unsigned type of `bits` bits: the fraction is dropped; undefined if the
result is out of range. -/
def ratToU (bits : Nat) (x : ℚ) : Out Nat :=
  if -1 < x ∧ x < 2 ^ bits then .ok ⌊x⌋.toNat else isUb .floatToInt

/-- The integer that is stored for a number. `lg x` stands for `log(x) / log(2)`; the logarithm of zero is
negative infinity, whose conversion is undefined. OSEGY.cpp:126-132, 136-143; OSEGD.cpp:153-159, 163-170 -/
def encAny (lg : ℚ → ℚ) (mant ebits : Nat) (val : ℚ) : Out Nat := do
  let sign : Nat := if val < 0 then 1 else 0
  if |val| = 0 then isUb .floatToInt
  else do
    let e ← ratToU (mant + ebits + 1) (lg |val| + 1 + biasAny ebits)
    let exp := e % 2 ^ ebits
    let fraction ← ratToU (mant + ebits + 1) (|val| / 2 ^ ((exp : Int) - biasAny ebits) * 2 ^ mant - 1)
    pure (sign * 2 ^ (mant + ebits) + exp * 2 ^ mant + fraction % 2 ^ mant)

/-- `write_IEEE_float`. OSEGY.cpp:125-134 -/
def writeSingleAny (lg : ℚ → ℚ) (bo : ByteOrder) (val : ℚ) : Out Bytes := do
  let r ← encAny lg 23 8 val
  pure (writeU32 bo r)

/-- `write_IEEE_double`. OSEGY.cpp:135-146 -/
def writeDoubleAny (lg : ℚ → ℚ) (bo : ByteOrder) (val : ℚ) : Out Bytes := do
  let r ← encAny lg 52 11 val
  pure (writeU64 bo r)

end Sedaman
