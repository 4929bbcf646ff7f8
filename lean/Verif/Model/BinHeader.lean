import Verif.Model.Samples

/-!
# SEG-Y binary header

Model of include/CommonSEGY.hpp:42-87, src/OSEGY.cpp:236-287 and src/ISEGY.cpp:144-196.
-/

namespace Sedaman

/-- `CommonSEGY::BinaryHeader`. Integer members are mathematical integers (their C++ types are
the predicate `BinHeader.WF` of the specification); the two `double` members are bit patterns.
The default value is the value-initialised header `{}`. CommonSEGY.hpp:42-87 -/
structure BinHeader where
  /-- `job_id` -/
  jobId : Int := 0
  /-- `line_num` -/
  lineNum : Int := 0
  /-- `reel_num` -/
  reelNum : Int := 0
  /-- `tr_per_ens` -/
  trPerEns : Int := 0
  /-- `aux_per_ens` -/
  auxPerEns : Int := 0
  /-- `samp_int` -/
  sampInt : Int := 0
  /-- `samp_int_orig` -/
  sampIntOrig : Int := 0
  /-- `samp_per_tr` -/
  sampPerTr : Int := 0
  /-- `samp_per_tr_orig` -/
  sampPerTrOrig : Int := 0
  /-- `format_code` -/
  formatCode : Int := 0
  /-- `ens_fold` -/
  ensFold : Int := 0
  /-- `sort_code` -/
  sortCode : Int := 0
  /-- `vert_sum_code` -/
  vertSumCode : Int := 0
  /-- `sw_freq_at_start` -/
  swFreqAtStart : Int := 0
  /-- `sw_freq_at_end` -/
  swFreqAtEnd : Int := 0
  /-- `sw_length` -/
  swLength : Int := 0
  /-- `sw_type_code` -/
  swTypeCode : Int := 0
  /-- `sw_ch_tr_num` -/
  swChTrNum : Int := 0
  /-- `taper_at_start` -/
  taperAtStart : Int := 0
  /-- `taper_at_end` -/
  taperAtEnd : Int := 0
  /-- `taper_type` -/
  taperType : Int := 0
  /-- `corr_traces` -/
  corrTraces : Int := 0
  /-- `bin_gain_recov` -/
  binGainRecov : Int := 0
  /-- `amp_recov_meth` -/
  ampRecovMeth : Int := 0
  /-- `measure_system` -/
  measureSystem : Int := 0
  /-- `impulse_sig_pol` -/
  impulseSigPol : Int := 0
  /-- `vib_pol_code` -/
  vibPolCode : Int := 0
  /-- `ext_tr_per_ens` -/
  extTrPerEns : Int := 0
  /-- `ext_aux_per_ens` -/
  extAuxPerEns : Int := 0
  /-- `ext_samp_per_tr` -/
  extSampPerTr : Int := 0
  /-- `ext_samp_int` -/
  extSampInt : Dbl := 0
  /-- `ext_samp_int_orig` -/
  extSampIntOrig : Dbl := 0
  /-- `ext_samp_per_tr_orig` -/
  extSampPerTrOrig : Int := 0
  /-- `ext_ens_fold` -/
  extEnsFold : Int := 0
  /-- `endianness` -/
  endianness : Int := 0
  /-- `SEGY_rev_major_ver` -/
  revMajor : Int := 0
  /-- `SEGY_rev_minor_ver` -/
  revMinor : Int := 0
  /-- `fixed_tr_length` -/
  fixedTrLength : Int := 0
  /-- `ext_text_headers_num` -/
  extTextHeadersNum : Int := 0
  /-- `max_num_add_tr_headers` -/
  maxNumAddTrHeaders : Int := 0
  /-- `time_basis_code` -/
  timeBasisCode : Int := 0
  /-- `num_of_tr_in_file` -/
  numOfTrInFile : Int := 0
  /-- `byte_off_of_first_tr` -/
  byteOffOfFirstTr : Int := 0
  /-- `num_of_trailer_stanza` -/
  numOfTrailerStanza : Int := 0
  deriving DecidableEq, Repr

/-- `TEXT_HEADER_SIZE`. CommonSEGY.hpp:168 -/
abbrev textHeaderSize : Nat := 3200
/-- `BIN_HEADER_SIZE`. CommonSEGY.hpp:173 -/
abbrev binHeaderSize : Nat := 400
/-- `TR_HEADER_SIZE`. CommonSEGY.hpp:178 -/
abbrev trHeaderSize : Nat := 240

/-- The 400 byte buffer filled by `write_bin_header`, given the selected writers. The sequential
writes through one cursor into a zeroed buffer are a concatenation; the skipped bytes
(`ptr += 200` and the tail) stay zero. OSEGY.cpp:236-284 -/
def binHeaderBytes (bo : ByteOrder) (h : BinHeader) : Bytes :=
  writeI32 bo h.jobId ++ (
  writeI32 bo h.lineNum ++ (
  writeI32 bo h.reelNum ++ (
  writeI16 bo h.trPerEns ++ (
  writeI16 bo h.auxPerEns ++ (
  writeI16 bo h.sampInt ++ (
  writeI16 bo h.sampIntOrig ++ (
  writeI16 bo h.sampPerTr ++ (
  writeI16 bo h.sampPerTrOrig ++ (
  writeI16 bo h.formatCode ++ (
  writeI16 bo h.ensFold ++ (
  writeI16 bo h.sortCode ++ (
  writeI16 bo h.vertSumCode ++ (
  writeI16 bo h.swFreqAtStart ++ (
  writeI16 bo h.swFreqAtEnd ++ (
  writeI16 bo h.swLength ++ (
  writeI16 bo h.swTypeCode ++ (
  writeI16 bo h.swChTrNum ++ (
  writeI16 bo h.taperAtStart ++ (
  writeI16 bo h.taperAtEnd ++ (
  writeI16 bo h.taperType ++ (
  writeI16 bo h.corrTraces ++ (
  writeI16 bo h.binGainRecov ++ (
  writeI16 bo h.ampRecovMeth ++ (
  writeI16 bo h.measureSystem ++ (
  writeI16 bo h.impulseSigPol ++ (
  writeI16 bo h.vibPolCode ++ (
  writeI32 bo h.extTrPerEns ++ (
  writeI32 bo h.extAuxPerEns ++ (
  writeI32 bo h.extSampPerTr ++ (
  writeIeeeDouble bo h.extSampInt ++ (
  writeIeeeDouble bo h.extSampIntOrig ++ (
  writeI32 bo h.extSampPerTrOrig ++ (
  writeI32 bo h.extEnsFold ++ (
  writeI32 bo h.endianness ++ (
  List.replicate 200 0 ++ (
  writeU8 h.revMajor ++ (
  writeU8 h.revMinor ++ (
  writeI16 bo h.fixedTrLength ++ (
  writeI16 bo h.extTextHeadersNum ++ (
  writeI32 bo h.maxNumAddTrHeaders ++ (
  writeI16 bo h.timeBasisCode ++ (
  writeU64 bo h.numOfTrInFile ++ (
  writeU64 bo h.byteOffOfFirstTr ++ (
  writeI32 bo h.numOfTrailerStanza ++ (
  List.replicate 68 0)))))))))))))))))))))))))))))))))))))))))))))

/-- The part of `fill_bin_header` after the byte order has been selected: a cursor runs over the
400 bytes. Members from revision 2 on keep the value of `init` unless the major revision read is
above 1. `num_of_tr_in_file` is read as signed and stored in an unsigned member.
ISEGY.cpp:150-195 -/
def parseBinHeader (bo : ByteOrder) (init : BinHeader) : Rd BinHeader := do
  let jobId ← readI32 bo
  let lineNum ← readI32 bo
  let reelNum ← readI32 bo
  let trPerEns ← readI16 bo
  let auxPerEns ← readI16 bo
  let sampInt ← readI16 bo
  let sampIntOrig ← readI16 bo
  let sampPerTr ← readI16 bo
  let sampPerTrOrig ← readI16 bo
  let formatCode ← readI16 bo
  let ensFold ← readI16 bo
  let sortCode ← readI16 bo
  let vertSumCode ← readI16 bo
  let swFreqAtStart ← readI16 bo
  let swFreqAtEnd ← readI16 bo
  let swLength ← readI16 bo
  let swTypeCode ← readI16 bo
  let swChTrNum ← readI16 bo
  let taperAtStart ← readI16 bo
  let taperAtEnd ← readI16 bo
  let taperType ← readI16 bo
  let corrTraces ← readI16 bo
  let binGainRecov ← readI16 bo
  let ampRecovMeth ← readI16 bo
  let measureSystem ← readI16 bo
  let impulseSigPol ← readI16 bo
  let vibPolCode ← readI16 bo
  let extTrPerEns ← readI32 bo
  let extAuxPerEns ← readI32 bo
  let extSampPerTr ← readI32 bo
  let extSampInt ← readIeeeDouble bo
  let extSampIntOrig ← readIeeeDouble bo
  let extSampPerTrOrig ← readI32 bo
  let extEnsFold ← readI32 bo
  let _ ← rdBytes 204
  let revMajor ← readU8
  let revMinor ← readU8
  let fixedTrLength ← readI16 bo
  let extTextHeadersNum ← readI16 bo
  let h : BinHeader := { init with
    jobId, lineNum, reelNum, trPerEns, auxPerEns, sampInt, sampIntOrig, sampPerTr, sampPerTrOrig, formatCode, ensFold, sortCode, vertSumCode,
    swFreqAtStart, swFreqAtEnd, swLength, swTypeCode, swChTrNum, taperAtStart, taperAtEnd, taperType,
    corrTraces, binGainRecov, ampRecovMeth, measureSystem, impulseSigPol, vibPolCode,
    extTrPerEns, extAuxPerEns, extSampPerTr, extSampInt, extSampIntOrig, extSampPerTrOrig, extEnsFold,
    revMajor := ((revMajor : Nat) : Int), revMinor := ((revMinor : Nat) : Int), fixedTrLength,
    extTextHeadersNum }
  if 1 < revMajor then do
    let maxNumAddTrHeaders ← readI32 bo
    let timeBasisCode ← readI16 bo
    let numOfTrInFile ← readI64 bo
    let byteOffOfFirstTr ← readU64 bo
    let numOfTrailerStanza ← readI32 bo
    pure { h with maxNumAddTrHeaders, timeBasisCode, numOfTrInFile := (toU 8 numOfTrInFile : Nat),
                  byteOffOfFirstTr := (byteOffOfFirstTr : Nat), numOfTrailerStanza }
  else pure h

/-- `fill_bin_header`: the marker is copied from bytes 96..99 in host order and selects the byte
order; with a user supplied header nothing else is taken from the file. ISEGY.cpp:144-196 -/
def fillBinHeader (init : BinHeader) (override : Bool) (buf : Bytes) : Out (ByteOrder × BinHeader) := do
  let marker := toS 4 (leVal ((buf.drop 96).take 4))
  let bo ← byteOrderOf marker
  if override then pure (bo, { init with endianness := marker })
  else do
    let (h, _) ← parseBinHeader bo { init with endianness := marker } buf
    pure (bo, h)

end Sedaman
