import Verif.Model.Basic

/-!
# IEEE 754 binary floating point

The library computes with `double` and `float` (OSEGY.cpp:113-156, ISEGY.cpp:237-272 and the
SEG-D files). The branch for `FLT_RADIX == 2 && DBL_MANT_DIG == 53` (IEEE host) is the one
modelled. A `double` is its 64-bit pattern; arithmetic is exact arithmetic on dyadic numbers
followed by rounding to nearest, ties to even. NaN payloads are not modelled: every NaN
result is the canonical quiet NaN.
-/

namespace Sedaman

/-- A `double` object. -/
abbrev Dbl := BitVec 64

/-- A `float` object. -/
abbrev Sgl := BitVec 32

/-- Parameters of a binary format: precision, exponent of the smallest subnormal unit, width
of the exponent field. -/
structure FFmt where
  p : Nat
  emin : Int
  ebits : Nat

/-- binary64 -/
def f64 : FFmt := ⟨53, -1074, 11⟩
/-- binary32 -/
def f32 : FFmt := ⟨24, -149, 8⟩

/-- Abstract value: `fin s m e` is `(-1)^s * m * 2^e`. -/
inductive FVal where
  | nan
  | inf (s : Bool)
  | fin (s : Bool) (m : Nat) (e : Int)
  deriving DecidableEq, Repr

/-- Bit pattern (without sign) of infinity. -/
def FFmt.infMag (f : FFmt) : Nat := (2 ^ f.ebits - 1) * 2 ^ (f.p - 1)

/-- Significand and exponent of a finite magnitude pattern. -/
def decMag (f : FFmt) (b : Nat) : Nat × Int :=
  if b / 2 ^ (f.p - 1) = 0 then (b, f.emin)
  else (2 ^ (f.p - 1) + b % 2 ^ (f.p - 1), f.emin + ((b / 2 ^ (f.p - 1) : Nat) : Int) - 1)

/-- Value of a bit pattern. -/
def decF (f : FFmt) (b : Nat) : FVal :=
  let sb := 2 ^ (f.p - 1 + f.ebits)
  let s := decide (sb ≤ b)
  let mag := b % sb
  if mag < f.infMag then .fin s (decMag f mag).1 (decMag f mag).2
  else if mag = f.infMag then .inf s
  else .nan

/-- `m / 2^k` rounded to nearest, ties to even. -/
def rne (m k : Nat) : Nat :=
  let q := m / 2 ^ k
  let r := m % 2 ^ k
  if 2 * r < 2 ^ k then q else if 2 ^ k < 2 * r then q + 1 else q + q % 2

/-- Exponent of the unit in the last place used for `m * 2^e` (`m ≠ 0`). -/
def quantum (f : FFmt) (m : Nat) (e : Int) : Int :=
  max ((m.log2 : Int) + 1 + e - f.p) f.emin

/-- Magnitude pattern of `m * 2^e` rounded to nearest even; overflow gives infinity. -/
def encMag (f : FFmt) (m : Nat) (e : Int) : Nat :=
  if m = 0 then 0
  else
    let q := quantum f m e
    let m' := if q ≤ e then m * 2 ^ (e - q).toNat else rne m (q - e).toNat
    min ((q - f.emin).toNat * 2 ^ (f.p - 1) + m') f.infMag

/-- Bit pattern of a value, rounding if needed. -/
def encF (f : FFmt) : FVal → Nat
  | .nan => f.infMag + 2 ^ (f.p - 2)
  | .inf s => (if s then 2 ^ (f.p - 1 + f.ebits) else 0) + f.infMag
  | .fin s m e => (if s then 2 ^ (f.p - 1 + f.ebits) else 0) + encMag f m e

/-- Value of a `double`. -/
def Dbl.val (d : Dbl) : FVal := decF f64 d.toNat
/-- Value of a `float`. -/
def Sgl.val (d : Sgl) : FVal := decF f32 d.toNat
/-- Rounding to `double`. -/
def toDbl (v : FVal) : Dbl := BitVec.ofNat 64 (encF f64 v)
/-- Rounding to `float`. -/
def toSgl (v : FVal) : Sgl := BitVec.ofNat 32 (encF f32 v)

/-- Conversion of an integer to `double` (rounds above 2^53). -/
def dblOfInt (n : Int) : Dbl := toDbl (.fin (decide (n < 0)) n.natAbs 0)

/-- Exact product. -/
def FVal.mul : FVal → FVal → FVal
  | .nan, _ => .nan
  | _, .nan => .nan
  | .inf s, .inf t => .inf (s != t)
  | .inf s, .fin t m _ => if m = 0 then .nan else .inf (s != t)
  | .fin s m _, .inf t => if m = 0 then .nan else .inf (s != t)
  | .fin s m e, .fin t n g => .fin (s != t) (m * n) (e + g)

/-- `a * b` on doubles. -/
def dmul (a b : Dbl) : Dbl := toDbl (a.val.mul b.val)

/-- `pow(2, k)` for an integer `k` (assumed exact in the C library); `pow(16, k)` is
`pow2 (4 * k)`. -/
def pow2 (k : Int) : Dbl := toDbl (.fin false 1 k)

/-- `a / pow(2, k)`: division by a power of two is multiplication by its inverse. -/
def ddivPow2 (a : Dbl) (k : Int) : Dbl := dmul a (pow2 (-k))

/-- Truncation towards zero of a finite value. -/
def FVal.trunc : FVal → Option Int
  | .fin s m e =>
    let a : Nat := if 0 ≤ e then m * 2 ^ e.toNat else m / 2 ^ (-e).toNat
    some (if s then -(a : Int) else a)
  | _ => none

/-- Conversion of a `double` to an integer type with range `lo..hi`: undefined behaviour when
the truncated value does not fit. -/
def dblToInt (lo hi : Int) (d : Dbl) : Out Int :=
  match d.val.trunc with
  | some n => if lo ≤ n ∧ n ≤ hi then .ok n else isUb .floatToInt
  | none => isUb .floatToInt

/-- Conversion to an unsigned type of `n` bytes. -/
def dblToU (n : Nat) (d : Dbl) : Out Int := dblToInt 0 ((256 ^ n : Nat) - 1) d

/-- Conversion to a signed type of `n` bytes. -/
def dblToS (n : Nat) (d : Dbl) : Out Int :=
  dblToInt (-(256 ^ n / 2 : Nat)) ((256 ^ n / 2 : Nat) - 1) d

/-- `static_cast<float>(d)` -/
def dblToSgl (d : Dbl) : Sgl := toSgl d.val

/-- `static_cast<double>(f)` -/
def sglToDbl (s : Sgl) : Dbl := toDbl s.val

/-- `val < 0` -/
def dblNeg (d : Dbl) : Bool :=
  match d.val with
  | .fin s m _ => s && decide (m ≠ 0)
  | .inf s => s
  | .nan => false

/-- `abs(val)`: clears the sign bit. -/
def dblAbs (d : Dbl) : Dbl := BitVec.ofNat 64 (d.toNat % 2 ^ 63)

end Sedaman
