import Verif.Spec.Copy
import Verif.Spec.MapView

/-!
# Specification of revision 1 and 2 files that are copied
-/

namespace Sedaman.Spec

/-- The number of samples `n` of the trace with the bytes `c` is the one of the binary header in a fixed
length file; otherwise a field `SAMP_NUM` has it. -/
def CountStored (bh : BinHeader) (bo : ByteOrder) (fields : List HField) (n : Nat) (c : Bytes) : Prop :=
  if bh.fixedTrLength ≠ 0 then (n : Int) = bh.sampPerTr % 65536
  else n < 2 ^ 60 ∧ ∃ f ∈ fields, f.name = "SAMP_NUM" ∧ FieldValue bo f.ty ((c.drop f.off).take f.ty.size) (.int n)

/-- The bytes of a trace that can be copied, with any number of samples. -/
def CopyableTrace12 (est : LogEst) (bh : BinHeader) (bo : ByteOrder) (fields : List HField) (c : Bytes) : Prop :=
  ∃ n, CopyableTrace est bh.formatCode bo fields n c ∧ CountStored bh bo fields n c

end Sedaman.Spec
