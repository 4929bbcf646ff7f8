import Verif.Model.SegdSample
import Verif.Spec.RawIO
import Verif.Spec.Float

/-!
# Vocabulary for the SEG-D sample properties
-/

namespace Sedaman.Spec

/-- The format codes of the standard the library accepts. -/
def segdFormats : List Int :=
  [8015, 8022, 8024, 8036, 8038, 8042, 8044, 8048, 8058, 8080, 9036, 9038, 9058, 9080]

/-- The formats whose samples are whole bytes of plain numbers. -/
def segdByteFormats : List Int := [8036, 8038, 8058, 8080, 9036, 9038, 9058, 9080]

/-- Bits per sample according to the standard (8015: 20 bits on average). -/
def segdBits : Int → Nat
  | 8015 => 20
  | 8022 => 8
  | 8024 => 16
  | 8036 => 24
  | 8038 => 32
  | 8042 => 8
  | 8044 => 16
  | 8048 => 32
  | 8058 => 32
  | 8080 => 64
  | 9036 => 24
  | 9038 => 32
  | 9058 => 32
  | 9080 => 64
  | _ => 0

/-- Written in a format, the sample `x` is read back as `y`, and nothing behind it is touched. -/
def SampleBack (est : PackEst) (fmt : Int) (x y : Dbl) : Prop :=
  ∃ w r bs, segdWriter est fmt = .ok (segdBits fmt, .bytes w) ∧ segdReader fmt = .ok (segdBits fmt, r) ∧
    w x = .ok bs ∧ 8 * bs.length = segdBits fmt ∧ ∀ rest, r (bs ++ rest) = .ok (y, rest)

/-- `x / 2^k` is a double without rounding. -/
def DividesExactly (x : Dbl) (k : Int) (y : Dbl) : Prop :=
  ∃ a, dblRat x = some a ∧ dblRat y = some (a / 2 ^ k) ∧ (x = 0x8000000000000000 ↔ y = 0x8000000000000000)

end Sedaman.Spec
