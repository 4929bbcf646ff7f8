import Verif.Spec.SegdIO
import Verif.Spec.SegdChSet
import Verif.Spec.SegdExt
import Verif.Spec.SegdSample

/-!
# Vocabulary for SEG-D revision 2.1 files from the writer to the reader
-/

namespace Sedaman.Spec

/-- A channel set header whose values fit the block: what a reader gets from the block is the header
itself, with a number of samples of zero (see C47). -/
structure ChSetSurvives (c : ChSet) : Prop where
  typed : ChSetTyped c
  descale : ∃ k < 2 ^ 15, c.descaleMultiplier = dyadic k 10
  subscans : 1 ≤ c.subscansPerChSet ∧ c.subscansPerChSet < 2 ^ 16
  stored : chSetStored c = { c with numberOfSamples := some 0 }

/-- An additional general header whose values fit the block (see C46) and whose number is not that of
a revision 3 class. -/
structure BlockSurvives (h : GenHdrN) : Prop where
  line : ∃ l < 2 ^ 39, h.souLineNum = dyadic l 16
  point : ∃ p < 2 ^ 39, h.souPointNum = dyadic p 16
  file : h.expandedFileNumber < 2 ^ 24
  index : h.souPointIndex < 2 ^ 8
  phaseControl : h.phaseControl < 2 ^ 8
  typeVibrator : h.typeVibrator < 2 ^ 8
  phaseAngle : -2 ^ 15 ≤ h.phaseAngle ∧ h.phaseAngle < 2 ^ 15
  number : h.genHdrBlockNum < 2 ^ 8
  set : h.souSetNum < 2 ^ 8
  noClass : blkItems h.genHdrBlockNum = none

/-- Headers for a revision 2.1 file that agree with each other and fit their blocks; `ns` are the
additional general headers. Counts above 99 of extended and external headers are given in general
header 2, with the escape value 165 in general header 1. -/
structure RecordFits (a : OSegdArgs) (ns : List GenHdrN) : Prop where
  typed : GenHdr1Typed a.gh1
  base : ∃ k < 128, a.gh1.baseScanInt = dyadic k 4
  scans : 1 ≤ a.gh1.scansPerBlock ∧ a.gh1.scansPerBlock < 2 ^ 16
  stored : genHdr1Stored a.gh1 a.gh2.extRecordLen = a.gh1
  format : a.gh1.formatCode ∈ segdFormats
  gh2 : GenHdr2Fits a.gh2
  rev : a.gh2.segdRevMajor < 3
  addHdrs : a.addHdrs = ns.map .n
  count : a.gh1.addGenHdrBlocks = ns.length + 1
  numbers : (ns.map GenHdrN.genHdrBlockNum).Nodup
  blocks : ∀ h ∈ ns, BlockSurvives h
  scanTypes : (a.chSets.length : Int) = a.gh1.scanTypesPerRecord
  sets : ∀ l ∈ a.chSets, (l.length : Int) = a.gh1.channelSetsPerScanType
  chSets : ∀ l ∈ a.chSets, ∀ c ∈ l, ChSetSurvives c
  extended : (a.extended.length : Int) =
    if a.gh1.extendedHdrBlocks = 165 then (a.gh2.extendedHdrBlocks : Int) else a.gh1.extendedHdrBlocks
  external : (a.external.length : Int) =
    if a.gh1.externalHdrBlocks = 165 then (a.gh2.externalHdrBlocks : Int) else a.gh1.externalHdrBlocks
  extended32 : ∀ b ∈ a.extended, b.length = 32
  external32 : ∀ b ∈ a.external, b.length = 32

/-- The reader shows the headers that were written. The four members of general header 2 that a
revision 2 block has no room for are zero; the additional general headers come in ascending order
of their numbers. -/
structure HeadersBack (a : OSegdArgs) (ns : List GenHdrN) (f : ISegd) : Prop where
  gh1 : f.gh1 = a.gh1
  gh2 : f.generalHeader2 = some { a.gh2 with
    extendedSkewBlocks := 0, recordSetNumber := 0, extNumAddBlksInGenHdr := 0, dominantSamplingInt := 0 }
  blocks : ∃ l, f.generalHeaderN = .ok l ∧ l.Perm ns ∧
    l.Pairwise fun x y => x.genHdrBlockNum < y.genHdrBlockNum
  chSets : f.chSets = a.chSets.map (·.map fun c => { c with numberOfSamples := some 0 })
  extended : f.extended = a.extended
  external : f.external = a.external

/-- Trace header values and samples that fit: the trace belongs to an existing channel set, has `n`
extension blocks, and its samples divided by the scale factor `2^k` of the channel set can be
stored exactly in the sample format. -/
def TraceFits (H : Host) (a : OSegdArgs) (t : Trace) (n : Nat) : Prop :=
  (∃ ffid scan chSet chan timing skew edit brk l c k,
    Carries t.header ffid scan chSet chan timing n skew edit brk ∧
    ffid < 2 ^ 24 ∧ scan < 100 ∧ chSet < 2 ^ 16 ∧ chan < 10000 ∧ timing < 2 ^ 24 ∧ skew < 128 ∧
    edit < 2 ^ 8 ∧ brk < 2 ^ 24 ∧
    1 ≤ scan ∧ a.chSets[scan - 1]? = some l ∧ 1 ≤ chSet ∧ l[chSet - 1]? = some c ∧
    H.pw c.descaleMultiplier = pow2 k ∧ -1074 ≤ k ∧ k ≤ 1023 ∧
    ∀ x ∈ t.samples, ∃ y, DividesExactly x k y ∧ SampleBack H.packEst a.gh1.formatCode y y) ∧
  a.gh1.formatCode ∈ segdByteFormats ∧ t.samples.length * segdBits a.gh1.formatCode < 2 ^ 32 ∧
  0 < n ∧ n < 256

/-- The same without a condition on the samples: the values of the trace header fit, the trace belongs to a
channel set whose samples are divided by `2^k`, and the format is one of those with whole bytes per sample. -/
def TraceHeld (H : Host) (a : OSegdArgs) (t : Trace) (n : Nat) (k : Int) : Prop :=
  (∃ ffid scan chSet chan timing skew edit brk l c,
    Carries t.header ffid scan chSet chan timing n skew edit brk ∧
    ffid < 2 ^ 24 ∧ scan < 100 ∧ chSet < 2 ^ 16 ∧ chan < 10000 ∧ timing < 2 ^ 24 ∧ skew < 128 ∧
    edit < 2 ^ 8 ∧ brk < 2 ^ 24 ∧
    1 ≤ scan ∧ a.chSets[scan - 1]? = some l ∧ 1 ≤ chSet ∧ l[chSet - 1]? = some c ∧
    H.pw c.descaleMultiplier = pow2 k) ∧
  a.gh1.formatCode ∈ segdByteFormats ∧ t.samples.length * segdBits a.gh1.formatCode < 2 ^ 32 ∧
  0 < n ∧ n < 256

/-- The names of the values in the 20 byte trace header, and what a value that was not set counts
as. -/
def stdTraceNames : List (String × Value) :=
  [("FFID", .int 0), ("SCAN_TYPE_NUM", .int 0), ("CH_SET_NUM", .int 0), ("CHAN", .int 0),
   ("FIRST_TIMING_WORD", .dbl (dyadic 0 8)), ("TR_HDR_EXT", .int 0), ("SAMPLE_SKEW", .dbl (dyadic 0 8)),
   ("TRACE_EDIT", .int 0), ("TIME_BREAK_WIN", .dbl (dyadic 0 8))]

/-- Every value of the trace header is that of the written trace; values that were not set come back
as zero. -/
def StdKept (h h' : Header) : Prop :=
  ∀ p ∈ stdTraceNames, ∃ v, h'.get p.1 = some v ∧ (h.get p.1 = some v ∨ h.get p.1 = none ∧ v = p.2)

/-- With extension maps: the first `n` maps describe the `n` blocks of the trace, their fields lie
inside the blocks, do not overlap, have names of their own and get values that fit; one of them
contains the number of samples. -/
structure MapFits (H : Host) (a : OSegdArgs) (t : Trace) (n : Nat) : Prop where
  enough : n ≤ a.extMap.length
  safe : ∀ fs ∈ a.extMap.take n, SafeExt fs
  noU64 : ∀ fs ∈ a.extMap.take n, ∀ f ∈ fs, f.ty ≠ .u64
  names : ((a.extMap.take n).flatten.map (·.name)).Nodup
  own : ∀ p ∈ stdTraceNames, p.1 ∉ (a.extMap.take n).flatten.map (·.name)
  fits : ∀ fs ∈ a.extMap.take n, ∀ f ∈ fs, ExtFits H.est t.header f
  sampNum : ∃ f ∈ (a.extMap.take n).flatten, ∃ k, f.name = "SAMP_NUM" ∧ intKind f.ty = some k ∧
    k.InRange t.samples.length ∧ t.header.get "SAMP_NUM" = some (.int t.samples.length)

/-- What comes back of a trace written with extension maps. -/
structure MapBack (a : OSegdArgs) (n : Nat) (t t' : Trace) : Prop where
  samples : t'.samples = t.samples
  header : StdKept t.header t'.header
  fields : ∀ f ∈ (a.extMap.take n).flatten,
    ∃ v w, t.header.get f.name = some v ∧ t'.header.get f.name = some w ∧ ExtBack f.ty v w
  others : ∀ k, k ∉ stdTraceNames.map Prod.fst → k ∉ (a.extMap.take n).flatten.map (·.name) →
    t'.header.get k = none

/-- Without extension maps, in a revision 2 file: the values of the standard extension block fit. -/
def StdExtFits (a : OSegdArgs) (t : Trace) (line point idx sensor : Nat) : Prop :=
  a.extMap = [] ∧ a.gh2.segdRevMajor = 2 ∧
  headerFix16 t.header "R_LINE" line ∧ headerFix16 t.header "R_POINT" point ∧
  headerInt t.header "R_POINT_IDX" idx ∧ headerInt t.header "SENSOR_TYPE" sensor ∧
  headerInt t.header "SAMP_NUM" t.samples.length ∧
  line < 2 ^ 40 ∧ point < 2 ^ 40 ∧ idx < 2 ^ 8 ∧ t.samples.length < 2 ^ 24 ∧ sensor < 2 ^ 8

/-- What comes back of a trace written with the standard extension block. -/
structure StdBack (t t' : Trace) (line point idx sensor : Nat) : Prop where
  samples : t'.samples = t.samples
  header : StdKept t.header t'.header
  line : t'.header.get "R_LINE" = some (fix16Back line)
  point : t'.header.get "R_POINT" = some (fix16Back point)
  idx : t'.header.get "R_POINT_IDX" = some (.int idx)
  sensor : t'.header.get "SENSOR_TYPE" = some (.int sensor)
  sampNum : t'.header.get "SAMP_NUM" = some (.int t.samples.length)
  others : ∀ k, k ∉ stdTraceNames.map Prod.fst →
    k ∉ ["R_LINE", "R_POINT", "R_POINT_IDX", "SAMP_NUM", "SENSOR_TYPE"] → t'.header.get k = none

end Sedaman.Spec
