import Verif.Spec.Float
import Verif.Spec.RawIO
import Mathlib.Data.Rat.Floor

/-!
# Vocabulary for floating point conversion on other hosts
-/

namespace Sedaman.Spec

/-- The number four bytes stand for as an IEEE single precision number; nothing if they are an infinity
or not a number. -/
def ieeeSingle (bo : ByteOrder) (bs : Bytes) : Option ℚ := sglRat (BitVec.ofNat 32 (decNat bo bs))

/-- The number eight bytes stand for as an IEEE double precision number. -/
def ieeeDouble (bo : ByteOrder) (bs : Bytes) : Option ℚ := dblRat (BitVec.ofNat 64 (decNat bo bs))

/-- The logarithm to base two is right up to its fraction. -/
def LogFloorOk (lg : ℚ → ℚ) : Prop := ∀ x, 0 < x → (2 : ℚ) ^ ⌊lg x⌋ ≤ x ∧ x < (2 : ℚ) ^ (⌊lg x⌋ + 1)

end Sedaman.Spec
