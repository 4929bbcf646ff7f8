import Verif.Spec.E2E

/-!
# Specification of files that are copied
-/

namespace Sedaman.Spec

/-- The bytes `p` of one sample in a file are the ones the library writes for the sample it reads
from them. -/
def Rewrites (est : LogEst) (fmt : Int) (bo : ByteOrder) (p : Bytes) : Prop :=
  ∃ w r x, sampleWriter est fmt = .ok w ∧ sampleReader fmt = .ok r ∧
    (∀ rest, r bo (p ++ rest) = .ok (x, rest)) ∧ w bo x = .ok p

/-- All bytes of the block that belong to no field are zero. -/
def ZeroOutside (fields : List HField) (block : Bytes) : Prop :=
  ∀ i, i < block.length → ¬ Covered fields i → block[i]? = some 0

instance (fields : List HField) (block : Bytes) : Decidable (ZeroOutside fields block) := by
  unfold ZeroOutside; infer_instance

/-- The bytes of a trace with `n` samples that can be copied: a header block of 240 bytes that is zero
outside the fields, and `n` samples the library writes as it reads them. -/
def CopyableTrace (est : LogEst) (fmt : Int) (bo : ByteOrder) (fields : List HField) (n : Nat) (c : Bytes) :
    Prop :=
  ∃ (block : Bytes) (pieces : List Bytes), c = block ++ pieces.flatten ∧ block.length = 240 ∧ ZeroOutside fields block ∧
    pieces.length = n ∧ ∀ p ∈ pieces, Rewrites est fmt bo p

/-- Position `i` of the 400 byte binary header belongs to a field of the standard; revision 2 fields
(bytes 3507 and following of the file) count when the major revision, byte 3501, is above 1. -/
def BinCovered (bin : Bytes) (i : Nat) : Prop :=
  ∃ f ∈ binLayout, f.byte ≤ i + 3201 ∧ i + 3201 < f.byte + f.width ∧
    (f.byte < 3507 ∨ ∃ v, bin[300]? = some v ∧ 1 < v.toNat)

end Sedaman.Spec
