import Verif.Model.SegdSample
import Verif.Spec.RawIO
import Verif.Spec.Float

/-!
# SEG-D sample formats with packed exponents

A sample of the formats 8022, 8024, 8042, 8044 and 8048 is one word: a sign bit, `c` bits of exponent
and `q` bits of fraction, from the highest bit down. It denotes
`± fraction / 2^q * base^(exponent - bias)`.
-/

namespace Sedaman.Spec

/-- Layout of the words of a packed format. -/
structure PackFmt where
  base : Nat
  bias : Nat
  c : Nat
  q : Nat
  deriving DecidableEq

/-- Formats according to the SEG-D standard: quaternary exponents of 3 bits with fractions of 4 and 12
bits, hexadecimal exponents of 2 bits with fractions of 5 and 13 bits, and hexadecimal exponents of 7
bits in excess of 64 with a fraction of 24 bits. -/
def packFmt : Int → PackFmt
  | 8022 => ⟨4, 0, 3, 4⟩
  | 8024 => ⟨4, 0, 3, 12⟩
  | 8042 => ⟨16, 0, 2, 5⟩
  | 8044 => ⟨16, 0, 2, 13⟩
  | _ => ⟨16, 64, 7, 24⟩

/-- The number a word denotes. -/
def PackFmt.value (f : PackFmt) (w : Nat) : ℚ :=
  (if w / 2 ^ (f.c + f.q) % 2 = 1 then -1 else 1) * (((w % 2 ^ f.q : Nat) : ℚ) / 2 ^ f.q) *
    (f.base : ℚ) ^ (((w / 2 ^ f.q % 2 ^ f.c : Nat) : Int) - f.bias)

/-- Some exponent is large enough for `x`. -/
def PackFmt.InRange (f : PackFmt) (x : ℚ) : Prop :=
  ∃ e : Nat, e < 2 ^ f.c ∧ |x| < (f.base : ℚ) ^ ((e : Int) - f.bias)

/-- The word stands for `x`: the error is less than one unit of the fraction, for every exponent that
is large enough for `x`, in particular for the smallest one. -/
def PackFmt.Represents (f : PackFmt) (x : ℚ) (w : Nat) : Prop :=
  ∀ e : Nat, e < 2 ^ f.c → |x| < (f.base : ℚ) ^ ((e : Int) - f.bias) →
    |x - f.value w| < (f.base : ℚ) ^ ((e : Int) - f.bias) / 2 ^ f.q

/-- `t` is `log_b(r) + 1 + k`, truncated to an integer towards zero. -/
def LogTrunc (b : ℚ) (k : Int) (r : ℚ) (t : Int) : Prop :=
  (0 < t → b ^ (t - 1 - k) ≤ r ∧ r < b ^ (t - k)) ∧
  (t = 0 → b ^ (-2 - k) < r ∧ r < b ^ (-k)) ∧
  (t < 0 → b ^ (t - 2 - k) < r ∧ r ≤ b ^ (t - 1 - k))

/-- The C library evaluates the exponent estimates of the packed formats exactly, for every positive
number. -/
def PackEstOk (est : PackEst) : Prop :=
  ∀ (a : Dbl) (r : ℚ), dblRat a = some r → 0 < r →
    LogTrunc 2 15 r (est 8015 a) ∧ LogTrunc 2 4 r (est 8022 a) ∧ LogTrunc 2 12 r (est 8024 a) ∧
    LogTrunc 16 0 r (est 8042 a) ∧ LogTrunc 16 0 r (est 8044 a) ∧ LogTrunc 16 0 r (est 8048 a)

end Sedaman.Spec
