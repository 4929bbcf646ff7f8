import Verif.Spec.OSEGY

/-!
# Specification: which bytes of a file depend on which part of a trace
-/

namespace Sedaman.Spec

/-- The number of header blocks in front of the samples of a trace: the standard one and, in files of
revision 2, the additional ones announced. -/
def Rev.blocks (rev : Rev) (bh : BinHeader) : Nat :=
  match rev with
  | .r2 => 1 + (bh.maxNumAddTrHeaders - 1).toNat
  | _ => 1

/-- Byte `j` of a trace in the file belongs to a header value, or to a sample, that two traces do not
have in common. -/
inductive Touched (rev : Rev) (w : Writer) (t t' : Trace) (j : Nat) : Prop where
  | value (i : Nat) (blk : HBlock) (f : HField) : i < rev.blocks w.bh → w.map[i]? = some blk →
      f ∈ blk.fields → t.header.get f.name ≠ t'.header.get f.name →
      240 * i + f.off ≤ j → j < 240 * i + f.off + f.ty.size → Touched rev w t t' j
  | sample (k : Nat) : t.samples[k]? ≠ t'.samples[k]? →
      240 * rev.blocks w.bh + k * w.bps ≤ j → j < 240 * rev.blocks w.bh + (k + 1) * w.bps →
      Touched rev w t t' j

/-- The bytes that a successful call has put behind the ones there were. -/
def Added (w w' : Writer) (bs : Bytes) : Prop :=
  ∃ front, front.length = w.file.data.length ∧ w'.file.data = front ++ bs

end Sedaman.Spec
