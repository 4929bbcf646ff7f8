import Verif.Lemmas.SegdGen2

/-!
# C44, C45, C46: SEG-D general headers
-/

namespace Sedaman.Props

open Spec

/-! ## C44 general header 1 -/

/-- Whatever the size of the fields, the writer produces 32 bytes (as long as the base scan
interval is below 8 ms and the number of scans per block is between 1 and 65535) and the
reader gets the stored form of the header. -/
theorem C44_stored (lg : Int → Dbl) (h : GenHdr1) (extRecordLen base : Nat) (hlg : LogOk lg)
    (ht : GenHdr1Typed h) (hb : h.baseScanInt = dyadic base 4) (hbase : base < 128)
    (h1 : 1 ≤ h.scansPerBlock) (h2 : h.scansPerBlock < 2 ^ 16) :
    ∃ block, writeGenHdr1 lg h extRecordLen = .ok block ∧ block.length = 32 ∧
      ∀ rest, readGenHdr1 (block ++ rest) = .ok (genHdr1Stored h extRecordLen, rest) :=
  ⟨_, writeGenHdr1_eq hlg ht hb hbase h1 h2, genHdr1Bytes_length _ _ _,
    fun rest => readGenHdr1_eq rest ht hb hbase h2⟩

/-- Every general header 1 whose fields fit is returned unchanged, and the block has 32 bytes.
Missing: base scan intervals from 8 ms to 15.9375 ms, which fit the byte of the block but whose
conversion is undefined (`C44_base_scan_undefined`); a header written together with an extended
record length, whose record length is not stored (`C44_record_length_lost`). -/
theorem C44_roundtrip_partial (lg : Int → Dbl) (h : GenHdr1) (extRecordLen base j : Nat)
    (hlg : LogOk lg) (hf : GenHdr1Fits h)
    (hb : h.baseScanInt = dyadic base 4) (hbase : base < 128)
    (hs : h.scansPerBlock = 2 ^ j) (hj : j < 16)
    (hext : h.addGenHdrBlocks = 0 ∨ extRecordLen = 0) :
    ∃ block, writeGenHdr1 lg h extRecordLen = .ok block ∧ block.length = 32 ∧
      ∀ rest, readGenHdr1 (block ++ rest) = .ok (h, rest) := by
  have hj2 : (1 : Int) ≤ 2 ^ j ∧ (2 : Int) ^ j < 2 ^ 16 := by
    constructor
    · exact_mod_cast Nat.one_le_two_pow
    · exact_mod_cast Nat.pow_lt_pow_right (by decide) hj
  obtain ⟨⟨a0, a1⟩, ⟨b0, b1⟩, ⟨c0, c1⟩, ⟨d0, d1⟩, ⟨e0, e1⟩, ⟨f0, f1⟩, ⟨g0, g1⟩, ⟨i0, i1⟩, ⟨k0, k1⟩,
    ⟨l0, l1⟩, ⟨m0, m1⟩, ⟨n0, n1⟩, ⟨o0, o1⟩, ⟨p0, p1⟩, ⟨q0, q1⟩, ⟨r0, r1⟩, ⟨s0, s1⟩, ⟨t0, t1⟩,
    ⟨u0, u1⟩, ⟨v0, v1⟩⟩ := hf
  have ht : GenHdr1Typed h := by constructor <;> omega
  obtain ⟨block, hw, hl, hr⟩ := C44_stored lg h extRecordLen base hlg ht hb hbase
    (by rw [hs]; exact hj2.1) (by rw [hs]; exact hj2.2)
  refine ⟨block, hw, hl, fun rest => ?_⟩
  rw [hr]
  refine congrArg (fun x => Except.ok (x, rest)) ?_
  have hc : ¬(h.addGenHdrBlocks ≠ 0 ∧ extRecordLen ≠ 0) := fun c =>
    hext.elim c.1 c.2
  have hlog : h.scansPerBlock = 2 ^ h.scansPerBlock.toNat.log2 := by
    have : h.scansPerBlock.toNat = 2 ^ j := by rw [hs]; exact Int.toNat_pow_of_nonneg (by decide) j
    rw [this, Nat.log2_two_pow, hs]
  unfold genHdr1Stored
  rw [if_neg hc, if_neg hc, if_neg (by omega), if_neg (by omega), if_neg (by omega),
    if_neg (by omega), ← hlog]
  cases h
  simp only at *
  congr 1
  all_goals omega

/-- A typical header for the examples. -/
def gh1Example : GenHdr1 :=
  { fileNumber := 1234, formatCode := 8058, genConst := 123456789012, year := 12
    addGenHdrBlocks := 3, day := 365, hour := 23, minute := 59, second := 58, manufacCode := 13
    manufacNum := 4321, bytesPerScan := 987654, baseScanInt := dyadic 32 4, polarity := 2
    scansPerBlock := 1, recordType := 8, recordLength := 999, scanTypesPerRecord := 1
    channelSetsPerScanType := 16, skewBlocks := 3, extendedHdrBlocks := 32
    externalHdrBlocks := 99 }

theorem floorLog_table : ∀ k < 17, dblToU 4 (dblOfInt ((k : Nat) : Int)) = .ok ((k : Nat) : Int) := by
  decide +kernel

/-- The example logarithm satisfies the assumption on `log2`. -/
theorem floorLog_ok : LogOk floorLog := by
  intro v h1 h2
  have := (Nat.log2_lt (by omega)).mpr h2
  unfold floorLog
  rw [Int.toNat_natCast]
  exact floorLog_table _ (by omega)

example : ∃ block, writeGenHdr1 floorLog gh1Example 0 = .ok block ∧ block.length = 32 ∧
    ∀ rest, readGenHdr1 (block ++ rest) = .ok (gh1Example, rest) :=
  C44_roundtrip_partial floorLog gh1Example 0 32 0 floorLog_ok
    (by constructor <;> decide) rfl (by decide) rfl (by decide) (.inr rfl)

example : ∃ block, writeGenHdr1 floorLog gh1Example 0 = .ok block ∧ block.length = 32 ∧
    ∀ rest, readGenHdr1 (block ++ rest) = .ok (genHdr1Stored gh1Example 0, rest) :=
  C44_stored floorLog gh1Example 0 32 floorLog_ok (by decide) rfl (by decide) (by decide) (by decide)

/-- A base scan interval of 8 ms fits its byte (`0x80`) but is converted to a signed `char`:
undefined. -/
theorem C44_base_scan_undefined :
    writeGenHdr1 floorLog { gh1Example with baseScanInt := dyadic 128 4 } 0
      = .error (.ub .floatToInt) := by decide +kernel

/-- With an extended record length the record length of general header 1 is not returned. -/
theorem C44_record_length_lost :
    (writeGenHdr1 floorLog gh1Example 5000 >>= fun b => readGenHdr1 b)
      = .ok ({ gh1Example with recordLength := 1665 }, []) := by decide +kernel

/-- Three scans per block come back as two. -/
theorem C44_scans_rounded :
    (writeGenHdr1 floorLog { gh1Example with scansPerBlock := 3 } 0 >>= fun b => readGenHdr1 b)
      = .ok ({ gh1Example with scansPerBlock := 2 }, []) := by decide +kernel

/-- File number 10000 comes back as 16665; the value is in general header 2. -/
theorem C44_file_number_escaped :
    (writeGenHdr1 floorLog { gh1Example with fileNumber := 10000 } 0 >>= fun b => readGenHdr1 b)
      = .ok ({ gh1Example with fileNumber := 16665 }, []) := by decide +kernel

/-! ## C45 general header 2 -/

/-- Every general header 2 whose fields fit is returned unchanged: the reader first takes the
revision from the block, then the other members. The four members a revision 2 block has no
room for keep the values `g` had in the reader. The block has 32 bytes. -/
theorem C45_roundtrip (g h : GenHdr2) (hf : GenHdr2Fits h) :
    ∃ block, writeGenHdr2 h = .ok block ∧ block.length = 32 ∧
      ∀ rest, ∃ g' r r', readRevision g (block ++ rest) = .ok (g', r) ∧
        g'.segdRevMajor = h.segdRevMajor ∧ g'.segdRevMinor = h.segdRevMinor ∧
        readGenHdr2 g' (block ++ rest) = .ok (
          { h with extendedSkewBlocks := g.extendedSkewBlocks
                   recordSetNumber := g.recordSetNumber
                   extNumAddBlksInGenHdr := g.extNumAddBlksInGenHdr
                   dominantSamplingInt := g.dominantSamplingInt }, r') := by
  refine ⟨_, writeGenHdr2_eq h, genHdr2Bytes_length h, fun rest => ?_⟩
  obtain ⟨r, hr⟩ := readRevision_eq g h rest
  obtain ⟨r', hr'⟩ := readGenHdr2_eq { g with segdRevMajor := toU 1 h.segdRevMajor,
                                               segdRevMinor := toU 1 h.segdRevMinor } h rest
  refine ⟨_, r, r', hr, toU_of_nat_lt hf.segdRevMajor, toU_of_nat_lt hf.segdRevMinor, ?_⟩
  rw [hr', toU_of_nat_lt (n := 1) hf.segdRevMajor, toU_of_nat_lt (n := 1) hf.segdRevMinor,
    toU_of_nat_lt (n := 3) hf.expandedFileNum, toU_of_nat_lt (n := 2) hf.extChSetsPerScanType,
    toU_of_nat_lt (n := 2) hf.extendedHdrBlocks, toU_of_nat_lt (n := 2) hf.externalHdrBlocks,
    toU_of_nat_lt (n := 2) hf.genTrailerNumOfBlocks, toU_of_nat_lt (n := 3) hf.extRecordLen,
    toU_of_nat_lt (n := 1) hf.genHdrBlockNum, toU_of_nat_lt (n := 2) hf.sequenceNumber]

/-- Example header. -/
def gh2Example : GenHdr2 :=
  { expandedFileNum := 0x123456, extChSetsPerScanType := 0xabcd, extendedHdrBlocks := 300
    externalHdrBlocks := 65535, extendedSkewBlocks := 0, segdRevMajor := 2, segdRevMinor := 1
    genTrailerNumOfBlocks := 258, extRecordLen := 0xfedcba, recordSetNumber := 0
    extNumAddBlksInGenHdr := 0, dominantSamplingInt := 0, genHdrBlockNum := 2
    sequenceNumber := 513 }

example : GenHdr2Fits gh2Example := by constructor <;> decide

example : (writeGenHdr2 gh2Example >>= fun b => readGenHdr2 gh2Example b)
    = .ok (gh2Example, List.replicate 10 0) := by decide +kernel

/-! ## C46 additional general headers -/

/-- Every additional block whose fields fit is returned unchanged, source line and point number
included, when these are non-negative multiples of `2^-16` below `2^23`. The block has 32 bytes.
Missing: negative numbers, which the block and the reader allow
(`C46_negative_undefined`), see also `C46_large_read_negative`. -/
theorem C46_roundtrip_partial (h : GenHdrN) (l p : Nat)
    (hl : h.souLineNum = dyadic l 16) (hp : h.souPointNum = dyadic p 16)
    (h1 : l < 2 ^ 39) (h2 : p < 2 ^ 39)
    (hfile : h.expandedFileNumber < 2 ^ 24) (hidx : h.souPointIndex < 2 ^ 8)
    (hpc : h.phaseControl < 2 ^ 8) (htv : h.typeVibrator < 2 ^ 8)
    (hpa : -2 ^ 15 ≤ h.phaseAngle ∧ h.phaseAngle < 2 ^ 15)
    (hbn : h.genHdrBlockNum < 2 ^ 8) (hset : h.souSetNum < 2 ^ 8) :
    ∃ block, writeGenHdrN h = .ok block ∧ block.length = 32 ∧
      ∀ rest, ∃ r, readGenHdrN (block ++ rest) = .ok (h, r) := by
  refine ⟨_, writeGenHdrN_eq hl hp (by omega) (by omega), genHdrNBytes_length h l p, fun rest => ?_⟩
  obtain ⟨r, hr⟩ := readGenHdrN_eq (h := h) rest h1 h2
  refine ⟨r, ?_⟩
  rw [hr, toU_of_nat_lt hfile, toU_of_nat_lt hidx, toU_of_nat_lt hpc, toU_of_nat_lt htv,
    toU_of_nat_lt hbn, toU_of_nat_lt hset, ← hl, ← hp,
    toS_toU (n := 2) (v := h.phaseAngle) (by unfold FitsS; omega)]

/-- Example block: line 1234.5, point 8388607.75. -/
def ghNExample : GenHdrN :=
  { expandedFileNumber := 70000, souLineNum := dyadic (1234 * 2 ^ 16 + 2 ^ 15) 16
    souPointNum := dyadic (8388607 * 2 ^ 16 + 3 * 2 ^ 14) 16, souPointIndex := 7
    phaseControl := 3, typeVibrator := 2, phaseAngle := -1234, genHdrBlockNum := 3
    souSetNum := 9 }

example : ∃ block, writeGenHdrN ghNExample = .ok block ∧ block.length = 32 ∧
    ∀ rest, ∃ r, readGenHdrN (block ++ rest) = .ok (ghNExample, r) :=
  C46_roundtrip_partial ghNExample (1234 * 2 ^ 16 + 2 ^ 15) (8388607 * 2 ^ 16 + 3 * 2 ^ 14)
    rfl rfl (by decide) (by decide) (by decide) (by decide) (by decide) (by decide)
    (by decide) (by decide) (by decide)

/-- A negative source line number is undefined behaviour in the writer although the field is
read as a signed number. -/
theorem C46_negative_undefined :
    writeGenHdrN { ghNExample with souLineNum := dblOfInt (-1) } = .error (.ub .floatToInt) := by
  decide +kernel

/-- Source line numbers from `2^23` up are written but read back as negative numbers. -/
theorem C46_large_read_negative :
    (writeGenHdrN { ghNExample with souLineNum := dblOfInt 8388608 } >>= fun b => readGenHdrN b)
      = .ok ({ ghNExample with souLineNum := dblOfInt (-8388608) }, List.replicate 12 0) := by
  decide +kernel

end Sedaman.Props
