import Verif.Spec.SEGY
import Verif.Spec.Samples

/-!
# Specification of computers that define more conversions than C++ does

C++ leaves the conversion of a `double` to an unsigned integer undefined when the number does not fit.
Compilers give some number nevertheless. What follows are properties such a compiler can have, and what
two common ones do.
-/

namespace Sedaman.Spec

/-- A negative number of which the integer part `v` fits into the signed type of the same size is taken
modulo the size of the type. -/
def WrapsNegative (est : LogEst) : Prop :=
  ∀ n ∈ [1, 2, 4, 8], ∀ (d : Dbl) (x : ℚ) (v : Int), dblRat d = some x → Truncates x v →
    -((256 ^ n : Nat) : Int) ≤ 2 * v → v < 0 →
    ∃ u : Nat, est.conv n d = some u ∧ (u : Int) % ((256 ^ n : Nat) : Int) = v % ((256 ^ n : Nat) : Int)

/-- A number of at most -1 becomes zero. -/
def NegativeToZero (est : LogEst) : Prop :=
  ∀ n ∈ [1, 2, 4, 8], ∀ (d : Dbl) (x : ℚ), dblRat d = some x → x ≤ -1 → est.conv n d = some 0

/-- Minus infinity, the logarithm of zero, becomes a 32 bit number that ends in seven zero bits. -/
def LogOfZero (est : LogEst) : Prop := ∃ u, est.conv 4 0xFFF0000000000000 = some u ∧ u % 128 = 0

/-- The x86-64 instruction `cvttsd2si` with a result of `n` bytes: the integer part modulo 256^n if it
fits into the signed type, else only the highest bit is set. -/
def cvttsd2si (n : Nat) (d : Dbl) : Nat :=
  match d.val.trunc with
  | some v => if -((256 ^ n : Nat) : Int) ≤ 2 * v ∧ 2 * v < ((256 ^ n : Nat) : Int) then (v % ((256 ^ n : Nat) : Int)).toNat
    else 256 ^ n / 2
  | none => 256 ^ n / 2

/-- x86-64 with SSE2, as compiled by GCC: 8 and 16 bit results are the low bits of a 32 bit signed
conversion, 32 bit results those of a 64 bit signed conversion. For 64 bit results numbers below 2^63 are
converted as signed numbers; other numbers are reduced by 2^63 before and the highest bit is inverted
afterwards (`some 0` as they are at least 2^64 if they do not fit). -/
def x86Conv (n : Nat) (d : Dbl) : Option Nat :=
  if n ≤ 2 then some (cvttsd2si 4 d % 256 ^ n)
  else if n ≤ 4 then some (cvttsd2si 8 d % 256 ^ n)
  else match d.val with
    | .inf false => some 0
    | .fin false _ _ => some 0
    | _ => some (cvttsd2si 8 d)

/-- The ARM64 instruction `fcvtzu` with a result of `n` bytes, for a number that does not fit: negative
numbers and NaN become zero, others the largest number. -/
def fcvtzu (n : Nat) (d : Dbl) : Nat :=
  match d.val with
  | .inf false => 256 ^ n - 1
  | .fin false m e => match (FVal.fin false m e).trunc with
    | some v => min v.toNat (256 ^ n - 1)
    | none => 0
  | _ => 0

/-- ARM64, as compiled by GCC: results of up to 32 bits are the low bits of a 32 bit conversion. -/
def armConv (n : Nat) (d : Dbl) : Option Nat :=
  if n ≤ 4 then some (fcvtzu 4 d % 256 ^ n) else some (fcvtzu 8 d)

/-- A file is made of integers of at most four bytes in this format. -/
def ShortIntFormat (fmt : Int) (k : IntKind) : Prop := intFormat fmt = some k ∧ k.size ≤ 4

end Sedaman.Spec
