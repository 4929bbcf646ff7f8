import Verif.Props.RawIO
import Verif.Spec.BinHeader

/-!
# Lemmas about the binary header
-/

namespace Sedaman

open Spec

/-! ## One step of the cursor -/

theorem step_i32 {α} (bo : ByteOrder) (v : Int) (h : IntKind.i32.InRange v) (rest : Bytes)
    (f : Int → Rd α) : (readI32 bo >>= f) (writeI32 bo v ++ rest) = f v rest := by
  have := Props.C04_roundtrip bo .i32 v h rest
  simp only [IntKind.read, IntKind.write] at this
  rw [rd_bind, this]; rfl

theorem step_i16 {α} (bo : ByteOrder) (v : Int) (h : IntKind.i16.InRange v) (rest : Bytes)
    (f : Int → Rd α) : (readI16 bo >>= f) (writeI16 bo v ++ rest) = f v rest := by
  have := Props.C04_roundtrip bo .i16 v h rest
  simp only [IntKind.read, IntKind.write] at this
  rw [rd_bind, this]; rfl

theorem step_u8 {α} (v : Int) (h : IntKind.u8.InRange v) (rest : Bytes)
    (f : Nat → Rd α) : (readU8 >>= f) (writeU8 v ++ rest) = f v.toNat rest := by
  rw [rd_bind, writeU8_eq .le, readU8_eq .le, rdNat_encInt, ok_bind]
  have h' : 0 ≤ v ∧ v < 256 := h
  have : toU 1 v = v.toNat := by unfold toU; omega
  rw [this]

theorem step_u64 {α} (bo : ByteOrder) (v : Int) (h : IntKind.u64.InRange v) (rest : Bytes)
    (f : Nat → Rd α) : (readU64 bo >>= f) (writeU64 bo v ++ rest) = f v.toNat rest := by
  rw [rd_bind, writeU64_eq, readU64_eq, rdNat_encInt, ok_bind]
  have h' : 0 ≤ v ∧ v < 18446744073709551616 := h
  have : toU 8 v = v.toNat := by unfold toU; omega
  rw [this]

theorem step_u64_i64 {α} (bo : ByteOrder) (v : Int) (rest : Bytes)
    (f : Int → Rd α) : (readI64 bo >>= f) (writeU64 bo v ++ rest) = f (toS 8 (toU 8 v)) rest := by
  rw [rd_bind, writeU64_eq, readI64_eq, rdInt_encInt, ok_bind]

theorem step_dbl {α} (bo : ByteOrder) (d : Dbl) (rest : Bytes)
    (f : Dbl → Rd α) : (readIeeeDouble bo >>= f) (writeIeeeDouble bo d ++ rest) = f d rest := by
  have h := d.isLt
  unfold readIeeeDouble writeIeeeDouble
  rw [rd_bind, rd_bind, writeU64_eq, readU64_eq, rdNat_encInt, ok_bind]
  have : toU 8 (d.toNat : Int) = d.toNat := toU_of_nat_lt (by simpa using h)
  rw [this, rd_pure, ok_bind]
  simp

theorem step_skip {α} (a : Bytes) (n : Nat) (h : a.length = n) (rest : Bytes)
    (f : Bytes → Rd α) : (rdBytes n >>= f) (a ++ rest) = f a rest := by
  rw [rd_bind]
  subst h
  unfold rdBytes
  rw [if_pos (by simp), ok_bind, List.take_left, List.drop_left]

/-! ## Segments -/

/-- The binary header as the list of its consecutive pieces. -/
def binSegs (bo : ByteOrder) (h : BinHeader) : List Bytes := [
  writeI32 bo h.jobId,
  writeI32 bo h.lineNum,
  writeI32 bo h.reelNum,
  writeI16 bo h.trPerEns,
  writeI16 bo h.auxPerEns,
  writeI16 bo h.sampInt,
  writeI16 bo h.sampIntOrig,
  writeI16 bo h.sampPerTr,
  writeI16 bo h.sampPerTrOrig,
  writeI16 bo h.formatCode,
  writeI16 bo h.ensFold,
  writeI16 bo h.sortCode,
  writeI16 bo h.vertSumCode,
  writeI16 bo h.swFreqAtStart,
  writeI16 bo h.swFreqAtEnd,
  writeI16 bo h.swLength,
  writeI16 bo h.swTypeCode,
  writeI16 bo h.swChTrNum,
  writeI16 bo h.taperAtStart,
  writeI16 bo h.taperAtEnd,
  writeI16 bo h.taperType,
  writeI16 bo h.corrTraces,
  writeI16 bo h.binGainRecov,
  writeI16 bo h.ampRecovMeth,
  writeI16 bo h.measureSystem,
  writeI16 bo h.impulseSigPol,
  writeI16 bo h.vibPolCode,
  writeI32 bo h.extTrPerEns,
  writeI32 bo h.extAuxPerEns,
  writeI32 bo h.extSampPerTr,
  writeIeeeDouble bo h.extSampInt,
  writeIeeeDouble bo h.extSampIntOrig,
  writeI32 bo h.extSampPerTrOrig,
  writeI32 bo h.extEnsFold,
  writeI32 bo h.endianness,
  List.replicate 200 0,
  writeU8 h.revMajor,
  writeU8 h.revMinor,
  writeI16 bo h.fixedTrLength,
  writeI16 bo h.extTextHeadersNum,
  writeI32 bo h.maxNumAddTrHeaders,
  writeI16 bo h.timeBasisCode,
  writeU64 bo h.numOfTrInFile,
  writeU64 bo h.byteOffOfFirstTr,
  writeI32 bo h.numOfTrailerStanza,
  List.replicate 68 0]

theorem binHeaderBytes_segs (bo : ByteOrder) (h : BinHeader) :
    binHeaderBytes bo h = (binSegs bo h).flatten := by
  unfold binHeaderBytes binSegs
  simp only [List.flatten_cons, List.flatten_nil, List.append_nil]

theorem binSegs_lengths (bo : ByteOrder) (h : BinHeader) :
    (binSegs bo h).map List.length =
      [4, 4, 4, 2, 2, 2, 2, 2, 2, 2, 2, 2, 2, 2, 2, 2, 2, 2, 2, 2, 2, 2, 2, 2, 2, 2, 2, 4, 4, 4, 8, 8, 4, 4, 4, 200, 1, 1, 2, 2, 4, 2, 8, 8, 4, 68] := by
  unfold binSegs
  simp only [List.map_cons, List.map_nil, writeI32_eq, writeI16_eq, writeU64_eq, writeIeeeDouble,
    writeU8_eq bo, encInt_length, List.length_replicate]

/-- The piece with index `k` is found at the sum of the lengths before it. -/
theorem flatten_slice (ss : List Bytes) (k : Nat) (s : Bytes) (hk : ss[k]? = some s) :
    ((ss.flatten).drop ((ss.map List.length).take k).sum).take s.length = s := by
  induction ss generalizing k with
  | nil => simp at hk
  | cons a ss ih =>
    cases k with
    | zero =>
      simp only [List.getElem?_cons_zero, Option.some.injEq] at hk
      subst hk; simp
    | succ k =>
      simp only [List.getElem?_cons_succ] at hk
      simp only [List.map_cons, List.take_succ_cons, List.sum_cons, List.flatten_cons]
      rw [← List.drop_drop, List.drop_left]
      exact ih k hk

theorem bin_slice (bo : ByteOrder) (h : BinHeader) (k off w : Nat) (s : Bytes)
    (hk : (binSegs bo h)[k]? = some s) (hw : s.length = w)
    (ho : ([4, 4, 4, 2, 2, 2, 2, 2, 2, 2, 2, 2, 2, 2, 2, 2, 2, 2, 2, 2, 2, 2, 2, 2, 2, 2, 2, 4, 4, 4, 8, 8, 4, 4, 4, 200, 1, 1, 2, 2, 4, 2, 8, 8, 4, 68].take k).sum = off) :
    ((binHeaderBytes bo h).drop off).take w = s := by
  rw [binHeaderBytes_segs, ← ho, ← binSegs_lengths bo h, ← hw]
  exact flatten_slice _ k s hk

@[simp] theorem binHeaderBytes_length (bo : ByteOrder) (h : BinHeader) :
    (binHeaderBytes bo h).length = 400 := by
  rw [binHeaderBytes_segs, List.length_flatten, binSegs_lengths]
  rfl

/-- The cursor part of the reader on what the writer stored. -/
theorem parse_written (bo : ByteOrder) (h init : BinHeader) (hw : BinHeader.WF h) (rest : Bytes)
    (hi : init.endianness = h.endianness) (hz : init.maxNumAddTrHeaders = 0 ∧
      init.timeBasisCode = 0 ∧ init.numOfTrInFile = 0 ∧ init.byteOffOfFirstTr = 0 ∧
      init.numOfTrailerStanza = 0) :
    ∃ r, parseBinHeader bo init (binHeaderBytes bo h ++ rest) = .ok (visible h, r) := by
  unfold BinHeader.WF at hw
  obtain ⟨h0, h1, h2, h3, h4, h5, h6, h7, h8, h9, h10, h11, h12, h13, h14, h15, h16, h17, h18, h19, h20, h21, h22, h23, h24, h25, h26, h27, h28, h29, h30, h31, h32, h33, h34, h35, h36, h37, h38, h39, h40, h41⟩ := hw
  unfold parseBinHeader binHeaderBytes
  simp only [List.append_assoc]
  rw [step_i32 _ _ h0]
  rw [step_i32 _ _ h1]
  rw [step_i32 _ _ h2]
  rw [step_i16 _ _ h3]
  rw [step_i16 _ _ h4]
  rw [step_i16 _ _ h5]
  rw [step_i16 _ _ h6]
  rw [step_i16 _ _ h7]
  rw [step_i16 _ _ h8]
  rw [step_i16 _ _ h9]
  rw [step_i16 _ _ h10]
  rw [step_i16 _ _ h11]
  rw [step_i16 _ _ h12]
  rw [step_i16 _ _ h13]
  rw [step_i16 _ _ h14]
  rw [step_i16 _ _ h15]
  rw [step_i16 _ _ h16]
  rw [step_i16 _ _ h17]
  rw [step_i16 _ _ h18]
  rw [step_i16 _ _ h19]
  rw [step_i16 _ _ h20]
  rw [step_i16 _ _ h21]
  rw [step_i16 _ _ h22]
  rw [step_i16 _ _ h23]
  rw [step_i16 _ _ h24]
  rw [step_i16 _ _ h25]
  rw [step_i16 _ _ h26]
  rw [step_i32 _ _ h27]
  rw [step_i32 _ _ h28]
  rw [step_i32 _ _ h29]
  rw [step_dbl]
  rw [step_dbl]
  rw [step_i32 _ _ h30]
  rw [step_i32 _ _ h31]
  rw [← List.append_assoc (writeI32 bo h.endianness), step_skip _ 204 (by
    rw [List.length_append, writeI32_eq, encInt_length, List.length_replicate])]
  rw [step_u8 _ h33, step_u8 _ h34, step_i16 _ _ h35, step_i16 _ _ h36]
  have r0 : 0 ≤ h.revMajor ∧ h.revMajor < 256 := h33
  have r1 : 0 ≤ h.revMinor ∧ h.revMinor < 256 := h34
  have r2 : 0 ≤ h.numOfTrInFile ∧ h.numOfTrInFile < 18446744073709551616 := h39
  have r3 : 0 ≤ h.byteOffOfFirstTr ∧ h.byteOffOfFirstTr < 18446744073709551616 := h40
  unfold visible
  by_cases hm : 1 < h.revMajor
  · rw [if_pos (by omega), if_pos hm]
    rw [step_i32 _ _ h37, step_i16 _ _ h38, step_u64_i64, step_u64 _ _ h40, step_i32 _ _ h41]
    rw [rd_pure]
    have e2 : ((toU 8 (toS 8 (toU 8 h.numOfTrInFile)) : Nat) : Int) = h.numOfTrInFile := by
      rw [toU_toS]
      unfold toU; omega
    rw [e2, Int.toNat_of_nonneg r0.1, Int.toNat_of_nonneg r1.1, Int.toNat_of_nonneg r3.1, hi]
    exact ⟨_, rfl⟩
  · rw [if_neg (by omega), if_neg hm]
    rw [rd_pure, Int.toNat_of_nonneg r0.1, Int.toNat_of_nonneg r1.1, hi, hz.1, hz.2.1, hz.2.2.1,
      hz.2.2.2.1, hz.2.2.2.2]
    exact ⟨_, rfl⟩

end Sedaman
