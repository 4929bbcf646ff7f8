import Verif.Lemmas.SegdRev3W
import Verif.Lemmas.SegdChSet

/-!
# C63, C65: revision 3 general headers 2 and 3 and channel set headers from the writer to the reader
-/

namespace Sedaman.Props

open Spec

/-! ## General headers 2 and 3 -/

/-- The block for general header 2. -/
def genHdr2R3Bytes (h : GenHdr2) : Bytes :=
  encInt .be 3 h.expandedFileNum ++ (encInt .be 2 h.extChSetsPerScanType ++
  (encInt .be 3 h.extendedHdrBlocks ++ (encInt .be 2 h.extendedSkewBlocks ++
  (encInt .be 1 h.segdRevMajor ++ (encInt .be 1 h.segdRevMinor ++
  (encInt .be 4 h.genTrailerNumOfBlocks ++ (encInt .be 4 h.extRecordLen ++
  (encInt .be 2 h.recordSetNumber ++ (encInt .be 2 h.extNumAddBlksInGenHdr ++
  (encInt .be 3 h.dominantSamplingInt ++ (encInt .be 3 h.externalHdrBlocks ++ ([0] ++
  encInt .be 1 h.genHdrBlockNum))))))))))))

theorem wrPoke_ok (b : Byte) (d : Bytes) (n : Nat) :
    wrPoke b ⟨d, List.replicate (n + 1) 0⟩ = .ok ((), ⟨d, b :: List.replicate n 0⟩) := rfl

theorem wrGenHdr2R3_eq (h : GenHdr2) : wrBlock 32 (wrGenHdr2R3 h) = .ok (genHdr2R3Bytes h) := by
  unfold wrBlock wrGenHdr2R3
  simp only [writeU24_eq, writeU16_eq, writeU32_eq, chr_eq]
  rw [wr_bind, wrEnc _ (by decide), ok_bind]
  rw [wr_bind, wrEnc _ (by decide), ok_bind]
  rw [wr_bind, wrEnc _ (by decide), ok_bind]
  rw [wr_bind, wrEnc _ (by decide), ok_bind]
  rw [wr_bind, wrEnc _ (by decide), ok_bind]
  rw [wr_bind, wrEnc _ (by decide), ok_bind]
  rw [wr_bind, wrEnc _ (by decide), ok_bind]
  rw [wr_bind, wrEnc _ (by decide), ok_bind]
  rw [wr_bind, wrEnc _ (by decide), ok_bind]
  rw [wr_bind, wrEnc _ (by decide), ok_bind]
  rw [wr_bind, wrEnc _ (by decide), ok_bind]
  rw [wr_bind, wrEnc _ (by decide), ok_bind]
  rw [wr_bind, wrSkip_ok _ (by decide), ok_bind]
  rw [wrPoke_ok _ _ 0, ok_bind]
  simp [genHdr2R3Bytes, pure_eq_ok, ← chr_eq]

theorem wrGenHdr3_total (h : GenHdr3) : ∃ b, wrBlock 32 (wrGenHdr3 h) = .ok b := by
  unfold wrBlock wrGenHdr3
  simp only [writeU64_eq, writeU32_eq, chr_eq]
  rw [wr_bind, wrEnc _ (by decide), ok_bind]
  rw [wr_bind, wrEnc _ (by decide), ok_bind]
  rw [wr_bind, wrEnc _ (by decide), ok_bind]
  rw [wr_bind, wrEnc _ (by decide), ok_bind]
  rw [wr_bind, wrEnc _ (by decide), ok_bind]
  rw [wr_bind, wrEnc _ (by decide), ok_bind]
  rw [wr_bind, wrSkip_ok _ (by decide), ok_bind]
  rw [wrPoke_ok _ _ 0, ok_bind]
  exact ⟨_, rfl⟩

theorem writeGenHdr23_eq (h2 : GenHdr2) (h3 : GenHdr3) :
    writeGenHdr23 h2 h3 = .ok (genHdr2R3Bytes h2) := by
  obtain ⟨b, hb⟩ := wrGenHdr3_total h3
  unfold writeGenHdr23
  rw [wrGenHdr2R3_eq, ok_bind, hb, ok_bind]
  rfl

theorem slice_skip {a r : Bytes} {off k : Nat} (h : a.length ≤ off) :
    slice (a ++ r) off k = slice r (off - a.length) k := by
  unfold slice
  rw [List.drop_append, List.drop_of_length_le h, List.nil_append]

theorem slice_here {a r : Bytes} {k : Nat} (h : a.length = k) : slice (a ++ r) 0 k = a := by
  unfold slice
  rw [List.drop_zero, List.take_left' h]

theorem slice_all {a : Bytes} {k : Nat} (h : a.length = k) : slice a 0 k = a := by
  unfold slice
  rw [List.drop_zero, List.take_of_length_le (by omega)]

/-- **C63.** The writer stores general header 2 in a block of 32 bytes with every member where the
revision 3 standard has it. -/
theorem C63_layout (h2 : GenHdr2) (h3 : GenHdr3) (hf : GenHdr2FitsR3 h2) :
    ∃ b, writeGenHdr23 h2 h3 = .ok b ∧ b.length = 32 ∧ GenHdr2At b h2 := by
  refine ⟨_, writeGenHdr23_eq h2 h3, by simp [genHdr2R3Bytes], ?_⟩
  have key : ∀ {n v : Nat}, v < 256 ^ n → decNat .be (encInt .be n (v : Int)) = v := by
    intro n v h
    rw [decNat_encInt, toU_of_nat_lt h]
  have g1 := hf.expandedFileNum
  have g2 := hf.extChSetsPerScanType
  have g3 := hf.extendedHdrBlocks
  have g4 := hf.extendedSkewBlocks
  have g5 := hf.segdRevMajor
  have g6 := hf.segdRevMinor
  have g7 := hf.genTrailerNumOfBlocks
  have g8 := hf.extRecordLen
  have g9 := hf.recordSetNumber
  have g10 := hf.extNumAddBlksInGenHdr
  have g11 := hf.dominantSamplingInt
  have g12 := hf.externalHdrBlocks
  have g13 := hf.genHdrBlockNum
  unfold GenHdr2At genHdr2R3Bytes
  refine ⟨?_, ?_, ?_, ?_, ?_, ?_, ?_, ?_, ?_, ?_, ?_, ?_, ?_⟩
  · rw [slice_here (by simp)]
    exact key (by omega)
  · iterate 1 rw [slice_skip (by simp)]
    simp only [encInt_length, Nat.reduceSub]
    rw [slice_here (by simp)]
    exact key (by omega)
  · iterate 2 rw [slice_skip (by simp)]
    simp only [encInt_length, Nat.reduceSub]
    rw [slice_here (by simp)]
    exact key (by omega)
  · iterate 3 rw [slice_skip (by simp)]
    simp only [encInt_length, Nat.reduceSub]
    rw [slice_here (by simp)]
    exact key (by omega)
  · iterate 4 rw [slice_skip (by simp)]
    simp only [encInt_length, Nat.reduceSub]
    rw [slice_here (by simp)]
    exact key (by omega)
  · iterate 5 rw [slice_skip (by simp)]
    simp only [encInt_length, Nat.reduceSub]
    rw [slice_here (by simp)]
    exact key (by omega)
  · iterate 6 rw [slice_skip (by simp)]
    simp only [encInt_length, Nat.reduceSub]
    rw [slice_here (by simp)]
    exact key (by omega)
  · iterate 7 rw [slice_skip (by simp)]
    simp only [encInt_length, Nat.reduceSub]
    rw [slice_here (by simp)]
    exact key (by omega)
  · iterate 8 rw [slice_skip (by simp)]
    simp only [encInt_length, Nat.reduceSub]
    rw [slice_here (by simp)]
    exact key (by omega)
  · iterate 9 rw [slice_skip (by simp)]
    simp only [encInt_length, Nat.reduceSub]
    rw [slice_here (by simp)]
    exact key (by omega)
  · iterate 10 rw [slice_skip (by simp)]
    simp only [encInt_length, Nat.reduceSub]
    rw [slice_here (by simp)]
    exact key (by omega)
  · iterate 11 rw [slice_skip (by simp)]
    simp only [encInt_length, Nat.reduceSub]
    rw [slice_here (by simp)]
    exact key (by omega)
  · iterate 13 rw [slice_skip (by simp)]
    simp only [encInt_length, List.length_singleton, Nat.reduceSub]
    rw [slice_all (by simp)]
    exact key (by omega)

/-- A general header 2 with a value in every member. -/
def genHdr2R3Example : GenHdr2 :=
  { expandedFileNum := 123456, extChSetsPerScanType := 3, extendedHdrBlocks := 5,
    externalHdrBlocks := 6, extendedSkewBlocks := 7, segdRevMajor := 3, segdRevMinor := 1,
    genTrailerNumOfBlocks := 2, extRecordLen := 70000, recordSetNumber := 9,
    extNumAddBlksInGenHdr := 4, dominantSamplingInt := 2000, genHdrBlockNum := 2,
    sequenceNumber := 0 }

theorem genHdr2R3Example_fits : GenHdr2FitsR3 genHdr2R3Example := by
  constructor <;> decide

example : GenHdr2FitsR3 genHdr2R3Example := genHdr2R3Example_fits

theorem beBytes_split (n m : Nat) (v : Int) :
    encInt .be (n + m) v = encInt .be n (v / 256 ^ m) ++ encInt .be m v := by
  have key : ∀ (m : Nat) (v : Int), beBytes (n + m) v = beBytes n (v / 256 ^ m) ++ beBytes m v := by
    intro m
    induction m with
    | zero => intro v; simp [beBytes]
    | succ m ih =>
      intro v
      rw [← Nat.add_assoc, beBytes, ih, beBytes, List.append_assoc, Int.ediv_ediv_of_nonneg (by decide),
        Int.pow_succ', ]
  exact key m v

/-- The same block as the reader cuts it. -/
theorem genHdr2R3Bytes_cut (h : GenHdr2) : genHdr2R3Bytes h =
  encInt .be 3 h.expandedFileNum ++ (encInt .be 2 h.extChSetsPerScanType ++
  (encInt .be 3 h.extendedHdrBlocks ++ (encInt .be 2 h.extendedSkewBlocks ++
  ((encInt .be 1 h.segdRevMajor ++ encInt .be 1 h.segdRevMinor) ++
  (encInt .be 4 h.genTrailerNumOfBlocks ++ (encInt .be 2 ((h.extRecordLen : Int) / 256 ^ 2) ++
  (encInt .be 2 h.extRecordLen ++ (encInt .be 2 h.recordSetNumber ++
  (encInt .be 3 ((h.extNumAddBlksInGenHdr * 256 + h.dominantSamplingInt / 65536 % 256 : Nat) : Int) ++
  (encInt .be 1 ((h.dominantSamplingInt : Int) / 256) ++ (encInt .be 1 h.dominantSamplingInt ++
  (encInt .be 3 h.externalHdrBlocks ++ ([0] ++ encInt .be 1 h.genHdrBlockNum))))))))))))) := by
  have e1 := beBytes_split 2 2 (h.extRecordLen : Int)
  have e2 : encInt .be 3 (h.dominantSamplingInt : Int) = encInt .be 1 ((h.dominantSamplingInt : Int) / 256 ^ 2)
      ++ (encInt .be 1 ((h.dominantSamplingInt : Int) / 256) ++ encInt .be 1 h.dominantSamplingInt) := by
    have a := beBytes_split 1 2 (h.dominantSamplingInt : Int)
    have b := beBytes_split 1 1 (h.dominantSamplingInt : Int)
    rw [a]
    exact congrArg _ b
  have e3 : encInt .be 3 ((h.extNumAddBlksInGenHdr * 256 + h.dominantSamplingInt / 65536 % 256 : Nat) : Int)
      = encInt .be 2 h.extNumAddBlksInGenHdr ++ encInt .be 1 ((h.dominantSamplingInt : Int) / 256 ^ 2) := by
    have a := beBytes_split 2 1
      ((h.extNumAddBlksInGenHdr * 256 + h.dominantSamplingInt / 65536 % 256 : Nat) : Int)
    rw [a]
    have b1 : ((h.extNumAddBlksInGenHdr * 256 + h.dominantSamplingInt / 65536 % 256 : Nat) : Int) / 256 ^ 1
        = h.extNumAddBlksInGenHdr := by omega
    have b2 : encInt .be 1 ((h.extNumAddBlksInGenHdr * 256 + h.dominantSamplingInt / 65536 % 256 : Nat) : Int)
        = encInt .be 1 ((h.dominantSamplingInt : Int) / 256 ^ 2) := by
      rw [← encInt_toU, ← encInt_toU .be 1 ((h.dominantSamplingInt : Int) / 256 ^ 2)]
      congr 2
      have c1 := toU_cast 1 ((h.extNumAddBlksInGenHdr * 256 + h.dominantSamplingInt / 65536 % 256 : Nat) : Int)
      have c2 := toU_cast 1 ((h.dominantSamplingInt : Int) / 256 ^ 2)
      omega
    rw [b1, b2]
  unfold genHdr2R3Bytes
  rw [show (4 : Nat) = 2 + 2 from rfl] at *
  rw [e1, e2, e3]
  simp only [List.append_assoc]

/-- What the reader makes of the block. -/
def genHdr2R3Back (g h : GenHdr2) : GenHdr2 :=
  { g with
    expandedFileNum := h.expandedFileNum
    extChSetsPerScanType := h.extChSetsPerScanType
    extendedHdrBlocks := h.extendedHdrBlocks
    extendedSkewBlocks := h.extendedSkewBlocks
    genTrailerNumOfBlocks := h.genTrailerNumOfBlocks
    recordSetNumber := h.extRecordLen / 65536
    extNumAddBlksInGenHdr := h.extRecordLen % 65536
    dominantSamplingInt := h.recordSetNumber
    externalHdrBlocks := h.extNumAddBlksInGenHdr * 256 + h.dominantSamplingInt / 65536
    genHdrBlockNum := h.dominantSamplingInt % 256 }

/-- **C63.** The first members of general header 2 (file number, channel sets, extended header
blocks, skew blocks, trailer blocks, and the revision, which is read before) come back.
Missing: the others. The theorem says what is read in their places: the reader does not skip the
four bytes of the extended record length, which it does not return at all. -/
theorem C63_read_partial (g h2 : GenHdr2) (h3 : GenHdr3) (hf : GenHdr2FitsR3 h2) :
    ∃ b r1 r2, writeGenHdr23 h2 h3 = .ok b ∧
      readRevision g b
        = .ok ({ g with segdRevMajor := h2.segdRevMajor, segdRevMinor := h2.segdRevMinor }, r1) ∧
      readGenHdr2R3 g b = .ok (genHdr2R3Back g h2, r2) := by
  have g1 := hf.expandedFileNum
  have g2 := hf.extChSetsPerScanType
  have g3 := hf.extendedHdrBlocks
  have g4 := hf.extendedSkewBlocks
  have g5 := hf.segdRevMajor
  have g6 := hf.segdRevMinor
  have g7 := hf.genTrailerNumOfBlocks
  have g8 := hf.extRecordLen
  have g9 := hf.recordSetNumber
  have g10 := hf.extNumAddBlksInGenHdr
  have g11 := hf.dominantSamplingInt
  refine ⟨_, encInt .be 4 h2.genTrailerNumOfBlocks ++ (encInt .be 4 h2.extRecordLen ++
    (encInt .be 2 h2.recordSetNumber ++ (encInt .be 2 h2.extNumAddBlksInGenHdr ++
    (encInt .be 3 h2.dominantSamplingInt ++ (encInt .be 3 h2.externalHdrBlocks ++ ([0] ++
    encInt .be 1 h2.genHdrBlockNum)))))), encInt .be 3 h2.externalHdrBlocks ++ ([0] ++
    encInt .be 1 h2.genHdrBlockNum), writeGenHdr23_eq h2 h3, ?_, ?_⟩
  · unfold readRevision genHdr2R3Bytes
    have e : ∀ x : Bytes, encInt .be 3 h2.expandedFileNum ++ (encInt .be 2 h2.extChSetsPerScanType ++
        (encInt .be 3 h2.extendedHdrBlocks ++ (encInt .be 2 h2.extendedSkewBlocks ++ x)))
        = (encInt .be 3 h2.expandedFileNum ++ (encInt .be 2 h2.extChSetsPerScanType ++
        (encInt .be 3 h2.extendedHdrBlocks ++ encInt .be 2 h2.extendedSkewBlocks))) ++ x := by
      intro x; simp only [List.append_assoc]
    rw [e, rd_bind, rdSkip_ok _ _ 10 (by simp), ok_bind]
    rw [rd_bind, rdU8_enc, ok_bind, rd_bind, rdU8_enc, ok_bind, rd_pure,
      toU_of_nat_lt (n := 1) (by omega), toU_of_nat_lt (n := 1) (by omega)]
  · rw [genHdr2R3Bytes_cut]
    unfold readGenHdr2R3
    rw [rd_bind, rdU24_enc, ok_bind]
    rw [rd_bind, rdU16_enc, ok_bind]
    rw [rd_bind, rdU24_enc, ok_bind]
    rw [rd_bind, rdU16_enc, ok_bind]
    rw [rd_bind, rdSkip_ok _ _ 2 (by simp), ok_bind]
    rw [rd_bind, readU32_eq, rdNat_encInt, ok_bind]
    rw [rd_bind, rdU16_enc, ok_bind]
    rw [rd_bind, rdU16_enc, ok_bind]
    rw [rd_bind, rdU16_enc, ok_bind]
    rw [rd_bind, rdU24_enc, ok_bind]
    rw [rd_bind, rdSkip_ok _ _ 1 (by simp), ok_bind]
    rw [rd_bind, rdU8_enc, ok_bind, rd_pure]
    have c1 := toU_cast 2 ((h2.extRecordLen : Int) / 256 ^ 2)
    have c2 := toU_cast 2 (h2.extRecordLen : Int)
    have c3 := toU_cast 1 (h2.dominantSamplingInt : Int)
    have d1 : toU 2 ((h2.extRecordLen : Int) / 256 ^ 2) = h2.extRecordLen / 65536 := by omega
    have d2 : toU 2 (h2.extRecordLen : Int) = h2.extRecordLen % 65536 := by omega
    have d3 : toU 1 (h2.dominantSamplingInt : Int) = h2.dominantSamplingInt % 256 := by omega
    have d4 : h2.dominantSamplingInt / 65536 % 256 = h2.dominantSamplingInt / 65536 := by omega
    rw [d1, d2, d3, d4, toU_of_nat_lt (n := 3) (by omega), toU_of_nat_lt (n := 2) (by omega),
      toU_of_nat_lt (n := 3) (by omega), toU_of_nat_lt (n := 2) (by omega),
      toU_of_nat_lt (n := 4) (by omega), toU_of_nat_lt (n := 2) (by omega),
      toU_of_nat_lt (n := 3) (by omega)]
    rfl

/-- **C63, counterexample.** Five members of this header come back wrong. -/
theorem C63_members_wrong (g : GenHdr2) (h3 : GenHdr3) :
    ∃ b m r, writeGenHdr23 genHdr2R3Example h3 = .ok b ∧ readGenHdr2R3 g b = .ok (m, r) ∧
      m.recordSetNumber = 1 ∧ genHdr2R3Example.recordSetNumber = 9 ∧
      m.extNumAddBlksInGenHdr = 4464 ∧ genHdr2R3Example.extNumAddBlksInGenHdr = 4 ∧
      m.dominantSamplingInt = 9 ∧ genHdr2R3Example.dominantSamplingInt = 2000 ∧
      m.externalHdrBlocks = 1024 ∧ genHdr2R3Example.externalHdrBlocks = 6 ∧
      m.genHdrBlockNum = 208 ∧ genHdr2R3Example.genHdrBlockNum = 2 ∧
      m.extRecordLen = g.extRecordLen := by
  obtain ⟨b, _, r, h1, _, h2⟩ := C63_read_partial g genHdr2R3Example h3 genHdr2R3Example_fits
  exact ⟨b, _, r, h1, h2, rfl, rfl, rfl, rfl, rfl, rfl, rfl, rfl, rfl, rfl, rfl⟩

/-- **C63, violation.** General header 3 is not in the file: whatever it contains, the writer appends
the same 32 bytes, which are those of general header 2. -/
theorem C63_header3_missing (h2 : GenHdr2) (h3 h3' : GenHdr3) :
    writeGenHdr23 h2 h3 = writeGenHdr23 h2 h3' ∧
      ∃ b, writeGenHdr23 h2 h3 = .ok b ∧ b.length = 32 := by
  refine ⟨by rw [writeGenHdr23_eq, writeGenHdr23_eq], _, writeGenHdr23_eq h2 h3, ?_⟩
  simp [genHdr2R3Bytes]

/-! ## Channel set headers -/

/-- The block for a channel set header with `n` samples and descale multiplier `k`. -/
def chSetR3Bytes (c : ChSetR3) (n k : Nat) : Bytes :=
  bcdBytes 1 c.base.scanTypeNumber.toNat ++ (encInt .be 2 c.base.startTime ++
  (encInt .be 1 c.base.channelType ++ (encInt .be 4 c.base.startTime ++
  (encInt .be 4 c.base.endTime ++ (encInt .be 4 n ++ (encInt .be 4 k ++
  (encInt .be 3 c.base.numberOfChannels ++ (encInt .be 3 c.sampInt ++
  (encInt .be 1 c.base.arrayForming ++ (encInt .be 1 c.base.trcHdrExt ++
  ([BitVec.ofNat 8 (c.base.extHdrFlag * 16 + c.base.channelGain)] ++
  (encInt .be 1 c.base.vertStack ++ (encInt .be 1 c.base.streamerNo ++ ([0] ++
  (encInt .be 4 c.base.aliasFilterFreq ++ (encInt .be 4 c.base.aliasFilterSlope ++
  (encInt .be 4 c.base.lowCutFilterFreq ++ (encInt .be 4 c.base.lowCutFilterSlope ++
  (encInt .be 4 c.base.firstNotchFilter ++ (encInt .be 4 c.base.secondNotchFilter ++
  (encInt .be 4 c.base.thirdNotchFilter ++ (encInt .be 1 c.filterPhase ++
  (encInt .be 1 c.physicalUnit ++ ([0, 0] ++ (encInt .be 4 c.filterDelayOf ++
  (c.description ++ [0]))))))))))))))))))))))))))

theorem dblToU_whole {k : Nat} (hk : k < 2 ^ 32) : dblToU 4 (dblOfInt k) = .ok (k : Int) := by
  refine dblToInt_nonneg (hasVal_ofNat (m := k) (by omega)) ?_ ?_ (by omega) ?_
  · norm_num
  · norm_num
  · norm_num
    omega

theorem wrFlagsR3_ok {h : ChSet} {n : Nat} (d : Bytes) (h1 : h.extHdrFlag < 16)
    (h2 : h.channelGain < 16) :
    wrFlagsR3 h ⟨d, List.replicate (n + 1) 0⟩
      = .ok ((), ⟨d ++ [BitVec.ofNat 8 (h.extHdrFlag * 16 + h.channelGain)], List.replicate n 0⟩) := by
  unfold wrFlagsR3 wrPoke wrOr
  rw [wr_bind, List.replicate_succ]
  simp only [ok_bind]
  have : chr ((h.extHdrFlag * 16 : Nat) : Int) ||| chr ((h.channelGain : Nat) : Int)
      = BitVec.ofNat 8 (h.extHdrFlag * 16 + h.channelGain) := by
    apply BitVec.eq_of_toNat_eq
    rw [BitVec.toNat_or, BitVec.toNat_ofNat, chr_toNat (k := h.channelGain) (by omega)]
    have e : (chr ((h.extHdrFlag * 16 : Nat) : Int)).toNat = h.extHdrFlag * 16 := by
      rw [chr_toNat (by omega)]
    rw [e, or_nibs (by omega)]
    omega
  rw [this]

theorem rdFlagsR3_ok (a b : Nat) (r : Bytes) (ha : a < 16) (hb : b < 16) :
    rdFlagsR3 ([BitVec.ofNat 8 (a * 16 + b)] ++ r) = .ok ((if a < 8 then a else a + 240, b), r) := by
  unfold rdFlagsR3
  rw [List.singleton_append, rd_bind, readU8_cons, ok_bind, rd_pure, BitVec.toNat_ofNat,
    Nat.mod_eq_of_lt (show a * 16 + b < 2 ^ 8 by omega)]
  have e1 : (a * 16 + b) / 16 = a := by omega
  have e2 : (a * 16 + b) % 16 = b := by omega
  rw [e1, e2]
  by_cases h : a < 8
  · rw [if_pos h, if_neg (by omega)]
  · rw [if_neg h, if_pos (by omega)]

theorem writeChSetR3_eq {c : ChSetR3} {n k : Nat}
    (g1 : 0 ≤ c.base.scanTypeNumber ∧ c.base.scanTypeNumber < 100) (hflag : c.base.extHdrFlag < 16)
    (hgain : c.base.channelGain < 16) (hdesc : c.description.length = 27) (hn : c.base.numberOfSamples = some n) (hk : dblToU 4 c.base.descaleMultiplier = .ok (k : Int)) :
    writeChSetR3 c = .ok (chSetR3Bytes c n k) := by
  unfold writeChSetR3 wrBlock wrChSetR3
  simp only [writeU24_eq, writeU16_eq, writeU32_eq, chr_eq]
  have e : c.base.scanTypeNumber = ((c.base.scanTypeNumber.toNat : Nat) : Int) := by omega
  rw [e, wr_bind, wrBcd_even (m := 1) _ (by decide) (by omega) (by decide) (by decide) (by decide), ok_bind]
  rw [wr_bind, wrEnc _ (by decide), ok_bind]
  rw [wr_bind, wrEnc _ (by decide), ok_bind]
  rw [wr_bind, wrEnc _ (by decide), ok_bind]
  rw [wr_bind, wrEnc _ (by decide), ok_bind]
  rw [wr_bind]
  unfold samplesOf
  rw [hn, ok_bind]
  rw [wr_bind, wrEnc _ (by decide), ok_bind]
  rw [wr_bind, hk, ok_bind, pure_eq_ok, ok_bind]
  rw [wr_bind, wrEnc _ (by decide), ok_bind]
  rw [wr_bind, wrEnc _ (by decide), ok_bind]
  rw [wr_bind, wrEnc _ (by decide), ok_bind]
  rw [wr_bind, wrEnc _ (by decide), ok_bind]
  rw [wr_bind, wrEnc _ (by decide), ok_bind]
  rw [wr_bind, wrFlagsR3_ok _ hflag hgain, ok_bind]
  rw [wr_bind, wrEnc _ (by decide), ok_bind]
  rw [wr_bind, wrEnc _ (by decide), ok_bind]
  rw [wr_bind, wrSkip_ok _ (by decide), ok_bind]
  rw [wr_bind, wrEnc _ (by decide), ok_bind]
  rw [wr_bind, wrEnc _ (by decide), ok_bind]
  rw [wr_bind, wrEnc _ (by decide), ok_bind]
  rw [wr_bind, wrEnc _ (by decide), ok_bind]
  rw [wr_bind, wrEnc _ (by decide), ok_bind]
  rw [wr_bind, wrEnc _ (by decide), ok_bind]
  rw [wr_bind, wrEnc _ (by decide), ok_bind]
  rw [wr_bind, wrEnc _ (by decide), ok_bind]
  rw [wr_bind, wrEnc _ (by decide), ok_bind]
  rw [wr_bind, wrSkip_ok _ (by decide), ok_bind]
  rw [wr_bind, wrEnc _ (by decide), ok_bind]
  rw [wrPut_ok _ (by rw [hdesc]; decide), ok_bind, hdesc]
  simp [chSetR3Bytes, pure_eq_ok, List.replicate]

/-- **C65.** A channel set header with a whole descale multiplier written for revision 3 is read back
as `chSetStoredR3` says. Missing: the number of the channel set, the alias filter slope, the low cut
filter frequency, filter delays above 255 and header extension flags above 7 do not come back; see
the counterexamples below. -/
theorem C65_read_partial (c : ChSetR3) (hf : ChSetFitsR3 c) :
    ∃ b r, writeChSetR3 c = .ok b ∧ b.length = 96 ∧ readChSetR3X b = .ok (chSetStoredR3 c, r) := by
  obtain ⟨n, hn, en⟩ := hf.samples
  obtain ⟨k, hk, ek⟩ := hf.descale
  have g1 := hf.scanTypeNumber
  refine ⟨_, [0], writeChSetR3_eq hf.scanTypeNumber hf.extHdrFlag hf.channelGain hf.description
    en (by rw [ek]; exact dblToU_whole hk), ?_, ?_⟩
  · simp [chSetR3Bytes, hf.description]
  · unfold readChSetR3X chSetR3Bytes
    rw [rd_bind, rdBcd_even _ (by decide) (by decide), ok_bind]
    rw [rd_bind, rdU16_enc, ok_bind]
    rw [rd_bind, rdU8_enc, ok_bind]
    rw [rd_bind, readU32_eq, rdNat_encInt, ok_bind]
    rw [rd_bind, rdNat_encInt, ok_bind]
    rw [rd_bind, rdNat_encInt, ok_bind]
    rw [rd_bind, rdNat_encInt, ok_bind]
    rw [rd_bind, rdU24_enc, ok_bind]
    rw [rd_bind, rdU24_enc, ok_bind]
    rw [rd_bind, rdU8_enc, ok_bind]
    rw [rd_bind, rdU8_enc, ok_bind]
    rw [rd_bind, rdFlagsR3_ok _ _ _ hf.extHdrFlag hf.channelGain, ok_bind]
    rw [rd_bind, rdU8_enc, ok_bind]
    rw [rd_bind, rdU8_enc, ok_bind]
    rw [rd_bind, rdSkip_ok _ _ 1 rfl, ok_bind]
    rw [rd_bind, rdNat_encInt, ok_bind]
    rw [rd_bind, rdNat_encInt, ok_bind]
    rw [rd_bind, rdNat_encInt, ok_bind]
    rw [rd_bind, rdNat_encInt, ok_bind]
    rw [rd_bind, rdNat_encInt, ok_bind]
    rw [rd_bind, rdNat_encInt, ok_bind]
    rw [rd_bind, rdNat_encInt, ok_bind]
    rw [rd_bind, rdU8_enc, ok_bind]
    rw [rd_bind, rdU8_enc, ok_bind]
    rw [rd_bind, rdSkip_ok _ _ 2 rfl, ok_bind]
    rw [rd_bind, rdNat_encInt, ok_bind]
    rw [rd_bind, rdBytes_append hf.description, ok_bind, rd_pure]
    have g4 := hf.startTime
    have g2 := hf.channelType
    have g5 := hf.endTime
    have g6 := hf.numberOfChannels
    have g7 := hf.sampInt
    have g8 := hf.arrayForming
    have g9 := hf.trcHdrExt
    have g10 := hf.vertStack
    have g11 := hf.streamerNo
    have g12 := hf.aliasFilterFreq
    have g13 := hf.aliasFilterSlope
    have g14 := hf.lowCutFilterFreq
    have g15 := hf.lowCutFilterSlope
    have g16 := hf.firstNotchFilter
    have g17 := hf.secondNotchFilter
    have g18 := hf.thirdNotchFilter
    have g19 := hf.filterPhase
    have g20 := hf.physicalUnit
    have g22 : c.filterDelayOf < 256 := Nat.mod_lt _ (by decide)
    have u1 : ∀ v : Nat, v < 2 ^ 8 → toU 1 (v : Int) = v := fun v h => toU_of_nat_lt (n := 1) (by omega)
    have u3 : ∀ v : Nat, v < 2 ^ 24 → toU 3 (v : Int) = v := fun v h => toU_of_nat_lt (n := 3) (by omega)
    have u4 : ∀ v : Nat, v < 2 ^ 32 → toU 4 (v : Int) = v := fun v h => toU_of_nat_lt (n := 4) (by omega)
    have eu : toU 2 (c.base.startTime : Int) = c.base.startTime % 2 ^ 16 := by
      rw [toU_natCast]
      norm_num
    rw [u1 _ g2, u4 _ g4, u4 _ g5, u4 _ hn, u4 _ hk, u3 _ g6, u3 _ g7, u1 _ g8, u1 _ g9, u1 _ g10,
      u1 _ g11, u4 _ g12, u4 _ g13, u4 _ g14, u4 _ g15, u4 _ g16, u4 _ g17, u4 _ g18, u1 _ g19,
      u1 _ g20, u4 _ (by omega), eu]
    have es : ((c.base.scanTypeNumber.toNat % 10 ^ (2 * 1) : Nat) : Int) = c.base.scanTypeNumber := by
      omega
    rw [es]
    have b1 := hf.subscans
    have b2 := hf.extChSetNum
    rcases c with ⟨base, _, _, _, _, _⟩
    rcases base with ⟨⟩
    simp only at *
    subst en ek b1 b2
    rfl

/-- A channel set header with a value in every member. -/
def chSetR3Example : ChSetR3 :=
  let base : ChSet :=
    { scanTypeNumber := 1, channelSetNumber := 2, channelType := 0x10, startTime := 100000,
      endTime := 6000000, descaleMultiplier := dblOfInt 5, numberOfChannels := 960,
      subscansPerChSet := 0, channelGain := 3, aliasFilterFreq := 200, aliasFilterSlope := 72,
      lowCutFilterFreq := 3, lowCutFilterSlope := 12, firstNotchFilter := 50, secondNotchFilter := 60,
      thirdNotchFilter := 70, extChSetNum := 0, extHdrFlag := 9, trcHdrExt := 2, vertStack := 1,
      streamerNo := 4, arrayForming := 1, numberOfSamples := some 3001 }
  { base, sampInt := 2000, filterPhase := 1, physicalUnit := 2, filterDelay := 300,
    description := List.replicate 27 65 }

theorem chSetR3Example_fits : ChSetFitsR3 chSetR3Example where
  scanTypeNumber := by decide
  channelSetNumber := by decide
  channelType := by decide
  startTime := by decide
  endTime := by decide
  samples := ⟨3001, by decide, rfl⟩
  descale := ⟨5, by decide, rfl⟩
  numberOfChannels := by decide
  subscans := rfl
  channelGain := by decide
  aliasFilterFreq := by decide
  aliasFilterSlope := by decide
  lowCutFilterFreq := by decide
  lowCutFilterSlope := by decide
  firstNotchFilter := by decide
  secondNotchFilter := by decide
  thirdNotchFilter := by decide
  extChSetNum := rfl
  extHdrFlag := by decide
  trcHdrExt := by decide
  vertStack := by decide
  streamerNo := by decide
  arrayForming := by decide
  sampInt := by decide
  filterPhase := by decide
  physicalUnit := by decide
  filterDelay := by decide
  description := rfl

example : ChSetFitsR3 chSetR3Example := chSetR3Example_fits

/-- **C65, counterexample.** Five members of this header come back wrong. -/
theorem C65_members_wrong :
    ∃ b m r, writeChSetR3 chSetR3Example = .ok b ∧ readChSetR3X b = .ok (m, r) ∧
      m.base.channelSetNumber = 34464 ∧ chSetR3Example.base.channelSetNumber = 2 ∧
      m.base.aliasFilterSlope = 3 ∧ chSetR3Example.base.aliasFilterSlope = 72 ∧
      m.base.lowCutFilterFreq = 72 ∧ chSetR3Example.base.lowCutFilterFreq = 3 ∧
      m.base.extHdrFlag = 249 ∧ chSetR3Example.base.extHdrFlag = 9 ∧
      m.filterDelay = 44 ∧ chSetR3Example.filterDelay = 300 := by
  obtain ⟨b, r, h1, _, h2⟩ := C65_read_partial chSetR3Example chSetR3Example_fits
  exact ⟨b, _, r, h1, h2, by decide +kernel, rfl, rfl, rfl, rfl, rfl, by decide +kernel, rfl, by decide +kernel, rfl⟩

/-- **C65, violation.** The fraction of the descale multiplier is dropped: a header with multiplier
`k / 1024` gives the same block as one with the whole number below it. -/
theorem C65_fraction_lost (c : ChSetR3) (k : Nat) (hk : k < 2 ^ 42) (hf : ChSetFitsR3 c) :
    writeChSetR3 { c with base := { c.base with descaleMultiplier := dyadic k 10 } }
      = writeChSetR3 { c with base := { c.base with descaleMultiplier := dblOfInt (k / 1024 : Nat) } } := by
  obtain ⟨n, hn, en⟩ := hf.samples
  have e1 : dblToU 4 (dyadic k 10) = .ok ((k / 1024 : Nat) : Int) := by
    have hv := hasVal_toDbl (s := false) (m := k) (e := -10) (by omega) (by decide) (by decide)
    have e : (2 : ℚ) ^ (-10 : Int) = 1 / 1024 := by norm_num
    refine dblToInt_nonneg hv ?_ ?_ (by omega) ?_
    · rw [e]
      have : ((1024 * (k / 1024) : Nat) : ℚ) ≤ (k : ℚ) := by exact_mod_cast (by omega)
      push_cast at this ⊢
      linarith
    · rw [e]
      have : ((k : Nat) : ℚ) < ((1024 * (k / 1024) + 1024 : Nat) : ℚ) := by exact_mod_cast (by omega)
      push_cast at this ⊢
      linarith
    · have : k / 1024 < 2 ^ 32 := by omega
      norm_num
      omega
  have w1 := writeChSetR3_eq
    (c := { c with base := { c.base with descaleMultiplier := dyadic k 10 } })
    hf.scanTypeNumber hf.extHdrFlag hf.channelGain hf.description en e1
  have w2 := writeChSetR3_eq
    (c := { c with base := { c.base with descaleMultiplier := dblOfInt (k / 1024 : Nat) } })
    hf.scanTypeNumber hf.extHdrFlag hf.channelGain hf.description en
    (dblToU_whole (k := k / 1024) (by omega))
  rw [w1, w2]
  simp only [chSetR3Bytes, ChSetR3.filterDelayOf]

/-- A multiplier that is not a whole number: 2.5. -/
example : (2560 : Nat) < 2 ^ 42 ∧ 2560 / 1024 = 2 := by decide

/-- **C65, violation.** A negative descale multiplier and a header without a number of samples (from
the constructor for older revisions) are undefined behaviour. -/
theorem C65_undefined :
    writeChSetR3 { chSetR3Example with base :=
      { chSetR3Example.base with descaleMultiplier := dblOfInt (-1) } } = isUb .floatToInt ∧
    writeChSetR3 { chSetR3Example with base :=
      { chSetR3Example.base with numberOfSamples := none } } = isUb .emptyOptional := by
  have e : dblToU 4 (dblOfInt (-1)) = isUb .floatToInt := by decide +kernel
  constructor
  · unfold writeChSetR3 wrBlock wrChSetR3
    simp only [e]
    rfl
  · unfold writeChSetR3 wrBlock wrChSetR3 samplesOf
    rfl

end Sedaman.Props
