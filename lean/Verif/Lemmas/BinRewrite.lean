import Verif.Lemmas.BinHeader
import Verif.Spec.Copy

/-!
# Every 400 bytes are a binary header, apart from the unassigned positions
-/

namespace Sedaman

open Spec

theorem decInt_range (k : IntKind) (hk : k.signed = true) (bo : ByteOrder) (s : Bytes) (hs : s.length =
    k.size) :
    k.InRange (decInt bo s) := by
  unfold IntKind.InRange
  rw [if_pos hk]
  have h := decNat_lt bo s
  unfold decInt
  rw [hs] at h ⊢
  cases k <;> simp only [IntKind.size, IntKind.signed, Bool.false_eq_true] at h hk ⊢ <;> norm_num at h ⊢ <;>
    split <;> omega

theorem decNat_range (k : IntKind) (hk : k.signed = false) (bo : ByteOrder) (s : Bytes) (hs : s.length =
    k.size) :
    k.InRange (decNat bo s) := by
  unfold IntKind.InRange
  rw [if_neg (by rw [hk]; simp)]
  have h := decNat_lt bo s
  rw [hs] at h
  cases k <;> simp only [IntKind.size, IntKind.signed, Bool.true_eq_false] at h hk ⊢ <;> norm_num at h ⊢ <;>
    omega

private theorem take_len {n k : Nat} (l : Bytes) (h : l.length = n + k) : (l.take n).length = n := by
  rw [List.length_take]; omega

theorem cut_i32 (bo : ByteOrder) {k : Nat} (l : Bytes) (h : l.length = 4 + k) :
    ∃ v r, r.length = k ∧ IntKind.i32.InRange v ∧ l = writeI32 bo v ++ r := by
  refine ⟨decInt bo (l.take 4), l.drop 4, by simp; omega, decInt_range .i32 rfl bo _ (take_len l h), ?_⟩
  have e := encInt_decInt bo (l.take 4)
  rw [take_len l h] at e
  rw [writeI32_eq, e, List.take_append_drop]

theorem cut_i16 (bo : ByteOrder) {k : Nat} (l : Bytes) (h : l.length = 2 + k) :
    ∃ v r, r.length = k ∧ IntKind.i16.InRange v ∧ l = writeI16 bo v ++ r := by
  refine ⟨decInt bo (l.take 2), l.drop 2, by simp; omega, decInt_range .i16 rfl bo _ (take_len l h), ?_⟩
  have e := encInt_decInt bo (l.take 2)
  rw [take_len l h] at e
  rw [writeI16_eq, e, List.take_append_drop]

theorem cut_u8 {k : Nat} (l : Bytes) (h : l.length = 1 + k) :
    ∃ v r, r.length = k ∧ IntKind.u8.InRange v ∧ l = writeU8 v ++ r := by
  refine ⟨decNat .le (l.take 1), l.drop 1, by simp; omega, decNat_range .u8 rfl .le _ (take_len l h), ?_⟩
  have e := encInt_decNat .le (l.take 1)
  rw [take_len l h] at e
  rw [writeU8_eq .le, e, List.take_append_drop]

theorem cut_u64 (bo : ByteOrder) {k : Nat} (l : Bytes) (h : l.length = 8 + k) :
    ∃ v r, r.length = k ∧ IntKind.u64.InRange v ∧ l = writeU64 bo v ++ r := by
  refine ⟨decNat bo (l.take 8), l.drop 8, by simp; omega, decNat_range .u64 rfl bo _ (take_len l h), ?_⟩
  have e := encInt_decNat bo (l.take 8)
  rw [take_len l h] at e
  rw [writeU64_eq, e, List.take_append_drop]

theorem cut_dbl (bo : ByteOrder) {k : Nat} (l : Bytes) (h : l.length = 8 + k) :
    ∃ (d : Dbl) (r : Bytes), r.length = k ∧ l = writeIeeeDouble bo d ++ r := by
  obtain ⟨v, r, h1, h2, h3⟩ := cut_u64 bo l h
  refine ⟨BitVec.ofNat 64 v.toNat, r, h1, ?_⟩
  have h2 : 0 ≤ v ∧ v < 18446744073709551616 := h2
  unfold writeIeeeDouble
  rw [h3, BitVec.toNat_ofNat, Nat.mod_eq_of_lt (by omega), Int.toNat_of_nonneg h2.1]

/-- The bytes are those of a header. -/
theorem bin_exists (bo : ByteOrder) (a c : Bytes) (hla : a.length = 100) (hlc : c.length = 32) :
    ∃ h, BinHeader.WF h ∧
      binHeaderBytes bo h = a ++ (List.replicate 200 0 ++ (c ++ List.replicate 68 0)) := by
  obtain ⟨jobId, a1, hljobId, hjobId, rfl⟩ := cut_i32 bo (k := 96) a hla
  obtain ⟨lineNum, a2, hllineNum, hlineNum, rfl⟩ := cut_i32 bo (k := 92) a1 hljobId
  obtain ⟨reelNum, a3, hlreelNum, hreelNum, rfl⟩ := cut_i32 bo (k := 88) a2 hllineNum
  obtain ⟨trPerEns, a4, hltrPerEns, htrPerEns, rfl⟩ := cut_i16 bo (k := 86) a3 hlreelNum
  obtain ⟨auxPerEns, a5, hlauxPerEns, hauxPerEns, rfl⟩ := cut_i16 bo (k := 84) a4 hltrPerEns
  obtain ⟨sampInt, a6, hlsampInt, hsampInt, rfl⟩ := cut_i16 bo (k := 82) a5 hlauxPerEns
  obtain ⟨sampIntOrig, a7, hlsampIntOrig, hsampIntOrig, rfl⟩ := cut_i16 bo (k := 80) a6 hlsampInt
  obtain ⟨sampPerTr, a8, hlsampPerTr, hsampPerTr, rfl⟩ := cut_i16 bo (k := 78) a7 hlsampIntOrig
  obtain ⟨sampPerTrOrig, a9, hlsampPerTrOrig, hsampPerTrOrig, rfl⟩ := cut_i16 bo (k := 76) a8 hlsampPerTr
  obtain ⟨formatCode, a10, hlformatCode, hformatCode, rfl⟩ := cut_i16 bo (k := 74) a9 hlsampPerTrOrig
  obtain ⟨ensFold, a11, hlensFold, hensFold, rfl⟩ := cut_i16 bo (k := 72) a10 hlformatCode
  obtain ⟨sortCode, a12, hlsortCode, hsortCode, rfl⟩ := cut_i16 bo (k := 70) a11 hlensFold
  obtain ⟨vertSumCode, a13, hlvertSumCode, hvertSumCode, rfl⟩ := cut_i16 bo (k := 68) a12 hlsortCode
  obtain ⟨swFreqAtStart, a14, hlswFreqAtStart, hswFreqAtStart, rfl⟩ := cut_i16 bo (k := 66) a13 hlvertSumCode
  obtain ⟨swFreqAtEnd, a15, hlswFreqAtEnd, hswFreqAtEnd, rfl⟩ := cut_i16 bo (k := 64) a14 hlswFreqAtStart
  obtain ⟨swLength, a16, hlswLength, hswLength, rfl⟩ := cut_i16 bo (k := 62) a15 hlswFreqAtEnd
  obtain ⟨swTypeCode, a17, hlswTypeCode, hswTypeCode, rfl⟩ := cut_i16 bo (k := 60) a16 hlswLength
  obtain ⟨swChTrNum, a18, hlswChTrNum, hswChTrNum, rfl⟩ := cut_i16 bo (k := 58) a17 hlswTypeCode
  obtain ⟨taperAtStart, a19, hltaperAtStart, htaperAtStart, rfl⟩ := cut_i16 bo (k := 56) a18 hlswChTrNum
  obtain ⟨taperAtEnd, a20, hltaperAtEnd, htaperAtEnd, rfl⟩ := cut_i16 bo (k := 54) a19 hltaperAtStart
  obtain ⟨taperType, a21, hltaperType, htaperType, rfl⟩ := cut_i16 bo (k := 52) a20 hltaperAtEnd
  obtain ⟨corrTraces, a22, hlcorrTraces, hcorrTraces, rfl⟩ := cut_i16 bo (k := 50) a21 hltaperType
  obtain ⟨binGainRecov, a23, hlbinGainRecov, hbinGainRecov, rfl⟩ := cut_i16 bo (k := 48) a22 hlcorrTraces
  obtain ⟨ampRecovMeth, a24, hlampRecovMeth, hampRecovMeth, rfl⟩ := cut_i16 bo (k := 46) a23 hlbinGainRecov
  obtain ⟨measureSystem, a25, hlmeasureSystem, hmeasureSystem, rfl⟩ := cut_i16 bo (k := 44) a24 hlampRecovMeth
  obtain ⟨impulseSigPol, a26, hlimpulseSigPol, himpulseSigPol, rfl⟩ := cut_i16 bo (k := 42) a25
      hlmeasureSystem
  obtain ⟨vibPolCode, a27, hlvibPolCode, hvibPolCode, rfl⟩ := cut_i16 bo (k := 40) a26 hlimpulseSigPol
  obtain ⟨extTrPerEns, a28, hlextTrPerEns, hextTrPerEns, rfl⟩ := cut_i32 bo (k := 36) a27 hlvibPolCode
  obtain ⟨extAuxPerEns, a29, hlextAuxPerEns, hextAuxPerEns, rfl⟩ := cut_i32 bo (k := 32) a28 hlextTrPerEns
  obtain ⟨extSampPerTr, a30, hlextSampPerTr, hextSampPerTr, rfl⟩ := cut_i32 bo (k := 28) a29 hlextAuxPerEns
  obtain ⟨extSampInt, a31, hlextSampInt, rfl⟩ := cut_dbl bo (k := 20) a30 hlextSampPerTr
  obtain ⟨extSampIntOrig, a32, hlextSampIntOrig, rfl⟩ := cut_dbl bo (k := 12) a31 hlextSampInt
  obtain ⟨extSampPerTrOrig, a33, hlextSampPerTrOrig, hextSampPerTrOrig, rfl⟩ := cut_i32 bo (k := 8) a32
      hlextSampIntOrig
  obtain ⟨extEnsFold, a34, hlextEnsFold, hextEnsFold, rfl⟩ := cut_i32 bo (k := 4) a33 hlextSampPerTrOrig
  obtain ⟨endianness, a35, hlendianness, hendianness, rfl⟩ := cut_i32 bo (k := 0) a34 hlextEnsFold
  obtain rfl := List.eq_nil_of_length_eq_zero hlendianness
  obtain ⟨revMajor, c1, hlrevMajor, hrevMajor, rfl⟩ := cut_u8 (k := 31) c hlc
  obtain ⟨revMinor, c2, hlrevMinor, hrevMinor, rfl⟩ := cut_u8 (k := 30) c1 hlrevMajor
  obtain ⟨fixedTrLength, c3, hlfixedTrLength, hfixedTrLength, rfl⟩ := cut_i16 bo (k := 28) c2 hlrevMinor
  obtain ⟨extTextHeadersNum, c4, hlextTextHeadersNum, hextTextHeadersNum, rfl⟩ := cut_i16 bo (k := 26) c3
      hlfixedTrLength
  obtain ⟨maxNumAddTrHeaders, c5, hlmaxNumAddTrHeaders, hmaxNumAddTrHeaders, rfl⟩ := cut_i32 bo (k := 22)
      c4 hlextTextHeadersNum
  obtain ⟨timeBasisCode, c6, hltimeBasisCode, htimeBasisCode, rfl⟩ := cut_i16 bo (k := 20) c5
      hlmaxNumAddTrHeaders
  obtain ⟨numOfTrInFile, c7, hlnumOfTrInFile, hnumOfTrInFile, rfl⟩ := cut_u64 bo (k := 12) c6 hltimeBasisCode
  obtain ⟨byteOffOfFirstTr, c8, hlbyteOffOfFirstTr, hbyteOffOfFirstTr, rfl⟩ := cut_u64 bo (k := 4) c7
      hlnumOfTrInFile
  obtain ⟨numOfTrailerStanza, c9, hlnumOfTrailerStanza, hnumOfTrailerStanza, rfl⟩ := cut_i32 bo (k := 0)
      c8 hlbyteOffOfFirstTr
  obtain rfl := List.eq_nil_of_length_eq_zero hlnumOfTrailerStanza
  refine ⟨⟨jobId, lineNum, reelNum, trPerEns, auxPerEns, sampInt, sampIntOrig, sampPerTr, sampPerTrOrig,
      formatCode, ensFold, sortCode, vertSumCode, swFreqAtStart, swFreqAtEnd, swLength, swTypeCode,
      swChTrNum, taperAtStart, taperAtEnd, taperType, corrTraces, binGainRecov, ampRecovMeth,
      measureSystem, impulseSigPol, vibPolCode, extTrPerEns, extAuxPerEns, extSampPerTr, extSampInt,
      extSampIntOrig, extSampPerTrOrig, extEnsFold, endianness, revMajor, revMinor, fixedTrLength,
      extTextHeadersNum, maxNumAddTrHeaders, timeBasisCode, numOfTrInFile, byteOffOfFirstTr,
      numOfTrailerStanza⟩, ?_, ?_⟩
  · exact ⟨hjobId, hlineNum, hreelNum, htrPerEns, hauxPerEns, hsampInt, hsampIntOrig, hsampPerTr,
      hsampPerTrOrig, hformatCode, hensFold, hsortCode, hvertSumCode, hswFreqAtStart, hswFreqAtEnd,
      hswLength, hswTypeCode, hswChTrNum, htaperAtStart, htaperAtEnd, htaperType, hcorrTraces,
      hbinGainRecov, hampRecovMeth, hmeasureSystem, himpulseSigPol, hvibPolCode, hextTrPerEns,
      hextAuxPerEns, hextSampPerTr, hextSampPerTrOrig, hextEnsFold, hendianness, hrevMajor, hrevMinor,
      hfixedTrLength, hextTextHeadersNum, hmaxNumAddTrHeaders, htimeBasisCode, hnumOfTrInFile,
      hbyteOffOfFirstTr, hnumOfTrailerStanza⟩
  · unfold binHeaderBytes
    simp only [List.append_assoc, List.append_nil]

end Sedaman
