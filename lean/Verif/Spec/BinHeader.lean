import Verif.Model.BinHeader
import Verif.Spec.RawIO

/-!
# Specification of the binary header

The position of every field according to the SEG-Y revision 2 standard, and the ranges of the
C++ member types.
-/

namespace Sedaman.Spec

/-- One field of the binary header: first byte in the file (the standard counts from 1), width in
bytes and value as a bit pattern or integer. -/
structure BinField where
  byte : Nat
  width : Nat
  value : BinHeader → Int

/-- The fields of the standard, bytes 3201 to 3600 of the file. -/
def binLayout : List BinField := [
  ⟨3201, 4, fun h => h.jobId⟩,
  ⟨3205, 4, fun h => h.lineNum⟩,
  ⟨3209, 4, fun h => h.reelNum⟩,
  ⟨3213, 2, fun h => h.trPerEns⟩,
  ⟨3215, 2, fun h => h.auxPerEns⟩,
  ⟨3217, 2, fun h => h.sampInt⟩,
  ⟨3219, 2, fun h => h.sampIntOrig⟩,
  ⟨3221, 2, fun h => h.sampPerTr⟩,
  ⟨3223, 2, fun h => h.sampPerTrOrig⟩,
  ⟨3225, 2, fun h => h.formatCode⟩,
  ⟨3227, 2, fun h => h.ensFold⟩,
  ⟨3229, 2, fun h => h.sortCode⟩,
  ⟨3231, 2, fun h => h.vertSumCode⟩,
  ⟨3233, 2, fun h => h.swFreqAtStart⟩,
  ⟨3235, 2, fun h => h.swFreqAtEnd⟩,
  ⟨3237, 2, fun h => h.swLength⟩,
  ⟨3239, 2, fun h => h.swTypeCode⟩,
  ⟨3241, 2, fun h => h.swChTrNum⟩,
  ⟨3243, 2, fun h => h.taperAtStart⟩,
  ⟨3245, 2, fun h => h.taperAtEnd⟩,
  ⟨3247, 2, fun h => h.taperType⟩,
  ⟨3249, 2, fun h => h.corrTraces⟩,
  ⟨3251, 2, fun h => h.binGainRecov⟩,
  ⟨3253, 2, fun h => h.ampRecovMeth⟩,
  ⟨3255, 2, fun h => h.measureSystem⟩,
  ⟨3257, 2, fun h => h.impulseSigPol⟩,
  ⟨3259, 2, fun h => h.vibPolCode⟩,
  ⟨3261, 4, fun h => h.extTrPerEns⟩,
  ⟨3265, 4, fun h => h.extAuxPerEns⟩,
  ⟨3269, 4, fun h => h.extSampPerTr⟩,
  ⟨3273, 8, fun h => (h.extSampInt.toNat : Int)⟩,
  ⟨3281, 8, fun h => (h.extSampIntOrig.toNat : Int)⟩,
  ⟨3289, 4, fun h => h.extSampPerTrOrig⟩,
  ⟨3293, 4, fun h => h.extEnsFold⟩,
  ⟨3297, 4, fun h => h.endianness⟩,
  ⟨3501, 1, fun h => h.revMajor⟩,
  ⟨3502, 1, fun h => h.revMinor⟩,
  ⟨3503, 2, fun h => h.fixedTrLength⟩,
  ⟨3505, 2, fun h => h.extTextHeadersNum⟩,
  ⟨3507, 4, fun h => h.maxNumAddTrHeaders⟩,
  ⟨3511, 2, fun h => h.timeBasisCode⟩,
  ⟨3513, 8, fun h => h.numOfTrInFile⟩,
  ⟨3521, 8, fun h => h.byteOffOfFirstTr⟩,
  ⟨3529, 4, fun h => h.numOfTrailerStanza⟩]

/-- Every member is in the range of its C++ type. -/
def BinHeader.WF (h : BinHeader) : Prop :=
  IntKind.i32.InRange h.jobId ∧
  IntKind.i32.InRange h.lineNum ∧
  IntKind.i32.InRange h.reelNum ∧
  IntKind.i16.InRange h.trPerEns ∧
  IntKind.i16.InRange h.auxPerEns ∧
  IntKind.i16.InRange h.sampInt ∧
  IntKind.i16.InRange h.sampIntOrig ∧
  IntKind.i16.InRange h.sampPerTr ∧
  IntKind.i16.InRange h.sampPerTrOrig ∧
  IntKind.i16.InRange h.formatCode ∧
  IntKind.i16.InRange h.ensFold ∧
  IntKind.i16.InRange h.sortCode ∧
  IntKind.i16.InRange h.vertSumCode ∧
  IntKind.i16.InRange h.swFreqAtStart ∧
  IntKind.i16.InRange h.swFreqAtEnd ∧
  IntKind.i16.InRange h.swLength ∧
  IntKind.i16.InRange h.swTypeCode ∧
  IntKind.i16.InRange h.swChTrNum ∧
  IntKind.i16.InRange h.taperAtStart ∧
  IntKind.i16.InRange h.taperAtEnd ∧
  IntKind.i16.InRange h.taperType ∧
  IntKind.i16.InRange h.corrTraces ∧
  IntKind.i16.InRange h.binGainRecov ∧
  IntKind.i16.InRange h.ampRecovMeth ∧
  IntKind.i16.InRange h.measureSystem ∧
  IntKind.i16.InRange h.impulseSigPol ∧
  IntKind.i16.InRange h.vibPolCode ∧
  IntKind.i32.InRange h.extTrPerEns ∧
  IntKind.i32.InRange h.extAuxPerEns ∧
  IntKind.i32.InRange h.extSampPerTr ∧
  IntKind.i32.InRange h.extSampPerTrOrig ∧
  IntKind.i32.InRange h.extEnsFold ∧
  IntKind.i32.InRange h.endianness ∧
  IntKind.u8.InRange h.revMajor ∧
  IntKind.u8.InRange h.revMinor ∧
  IntKind.i16.InRange h.fixedTrLength ∧
  IntKind.i16.InRange h.extTextHeadersNum ∧
  IntKind.i32.InRange h.maxNumAddTrHeaders ∧
  IntKind.i16.InRange h.timeBasisCode ∧
  IntKind.u64.InRange h.numOfTrInFile ∧
  IntKind.u64.InRange h.byteOffOfFirstTr ∧
  IntKind.i32.InRange h.numOfTrailerStanza

instance (h : BinHeader) : Decidable (BinHeader.WF h) := by unfold BinHeader.WF; infer_instance

/-- What a reader reports of a header that was written: revision 2 members exist only when the
major revision is above 1. -/
def visible (h : BinHeader) : BinHeader :=
  if 1 < h.revMajor then h
  else { h with maxNumAddTrHeaders := 0, timeBasisCode := 0, numOfTrInFile := 0,
                byteOffOfFirstTr := 0, numOfTrailerStanza := 0 }

end Sedaman.Spec
