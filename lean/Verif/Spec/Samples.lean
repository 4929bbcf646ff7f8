import Verif.Spec.RawIO
import Verif.Spec.Float

/-!
# Specification of the SEG-Y sample formats

Data sample format codes of the SEG-Y standard (bytes 3225-3226 of the file).
-/

namespace Sedaman.Spec

/-- The format codes the library supports. -/
def supportedFormats : List Int := [1, 2, 3, 5, 6, 7, 8, 9, 10, 11, 12, 15, 16]

/-- Kind of integer of each integer format of the standard. -/
def intFormat : Int → Option IntKind
  | 2 => some .i32
  | 3 => some .i16
  | 7 => some .i24
  | 8 => some .i8
  | 9 => some .i64
  | 10 => some .u32
  | 11 => some .u16
  | 12 => some .u64
  | 15 => some .u24
  | 16 => some .u8
  | _ => none

/-- The number an IBM System/360 single precision word stands for: one sign bit, a seven bit
exponent of 16 in excess 64 notation, 24 bits of fraction. -/
def ibmValue (w : Nat) : ℚ :=
  (if 2 ^ 31 ≤ w then -1 else 1) * ((w % 2 ^ 24 : Nat) : ℚ) * (16 : ℚ) ^ (((w / 2 ^ 24 % 128 : Nat) : Int) - 70)

/-- A normalised IBM word: the leading hexadecimal digit of the fraction is not zero. -/
def ibmNormalised (w : Nat) : Prop := 2 ^ 20 ≤ w % 2 ^ 24

/-- The exact base 16 exponent: `t` is the exponent field with which `|x|` has a fraction in
`[1/16, 1)`. -/
def IbmExponent (x : ℚ) (t : Int) : Prop := (16 : ℚ) ^ (t - 65) ≤ |x| ∧ |x| < (16 : ℚ) ^ (t - 64)

end Sedaman.Spec
