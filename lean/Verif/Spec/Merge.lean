import Verif.Spec.E2E
import Verif.Spec.Copy
import Verif.Spec.Copy12

/-!
# Specification: SEG-Y files that can be merged
-/

namespace Sedaman.Spec

/-- The parts of a SEG-Y file: text header, binary header, extended text headers, traces, and the binary header as it is
read. -/
structure SegyParts where
  text : Bytes
  bin : Bytes
  exts : List Bytes
  traces : List Bytes
  bh : BinHeader

/-- The bytes of the file. -/
def SegyParts.bytes (F : SegyParts) : Bytes := F.text ++ F.bin ++ F.exts.flatten ++ F.traces.flatten

/-- How the file tells that a trace with bytes `c` has `n` samples. In revision 0 the number is in the binary header. -/
def CountTold (bh : BinHeader) (bo : ByteOrder) (fields : List HField) (n : Nat) (c : Bytes) : Prop :=
  if bh.revMajor = 0 then (n : Int) = bh.sampPerTr % 65536 else CountStored bh bo fields n c

/-- The headers of the file are right: sizes, the byte order mark, zeros where the standard has no field, the number of
extended text headers, and no additional trace headers or trailer stanzas. -/
structure HeadersOk (m : HdrMap) (b : HBlock) (bo : ByteOrder) (F : SegyParts) : Prop where
  texts : ∀ x ∈ F.text :: F.exts, x.length = 3200
  few : F.exts.length < 65536
  size : F.bin.length = 400
  marker : decInt .le ((F.bin.drop 96).take 4) = 0 ∨ decInt .le ((F.bin.drop 96).take 4) = 0x01020304
  zeros : ∀ i, i < 400 → ¬ BinCovered F.bin i → F.bin[i]? = some 0
  read : fillBinHeader {} false F.bin = .ok (bo, F.bh)
  format : F.bh.formatCode ∈ supportedFormats
  declared : TextsDeclared F.bh F.exts
  extended : (F.bh.revMajor = 0 ∧ F.bh.extSampPerTr = 0) ∨ (1 ≤ F.bh.revMajor ∧ ExtendedOk F.bh)
  additional : F.bh.maxNumAddTrHeaders = 0
  stanzas : F.bh.numOfTrailerStanza = 0
  first : F.bh.byteOffOfFirstTr = 0 ∨ F.bh.byteOffOfFirstTr = 3600 + 3200 * F.exts.length
  map : MapOk F.bh m b

/-- The traces of `F` can be moved to a file with binary header `bh'`: they can be copied, and both files tell their
numbers of samples. -/
def Movable (est : LogEst) (bo : ByteOrder) (fields : List HField) (bh' : BinHeader) (F : SegyParts) : Prop :=
  ∀ c ∈ F.traces, ∃ n, CopyableTrace est bh'.formatCode bo fields n c ∧ CountTold F.bh bo fields n c ∧
    CountTold bh' bo fields n c

end Sedaman.Spec
