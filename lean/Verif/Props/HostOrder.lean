import Verif.Lemmas.HostOrder
import Verif.Props.RawIO

/-!
# Property C90: computers of either byte order

The other theorems are about a little-endian computer. Here `h` is the byte order of the computer, so
that the two cases can be compared.
-/

namespace Sedaman.Props

open Spec

/-- **C90.** For a little-endian computer these are the functions the other theorems are about. -/
theorem C90_little (k : IntKind) (s : RawSet) :
    k.readOn .le s = k.read (fileOrder .le s) ∧
    (∀ v, k.writeOn .le s v = k.write (fileOrder .le s) v) := by
  constructor
  · cases k <;> cases s <;> rfl
  · intro v
    cases k <;> cases s <;> rfl

/-- **C90** (part). SEG-Y: whatever the byte order of the computer and that of the file, the marker
makes the library read every integer of 1, 2, 4 or 8 bytes as the byte order of the file demands.
Missing: integers of three bytes, and files without marker, on a big-endian computer. -/
theorem C90_segy_reads_partial (h o : ByteOrder) (k : IntKind) (hk : k.size ≠ 3) (bs rest : Bytes)
    (hl : bs.length = k.size) :
    ∃ s, segySet (hostMarker h (markerBytes o)) = .ok s ∧
      k.readOn h s (bs ++ rest) =
        .ok (if k.signed then decInt o bs else (decNat o bs : Int), rest) := by
  obtain ⟨s, hs, ho⟩ := segySet_marker h o
  refine ⟨s, hs, ?_⟩
  rw [kind_readOn_eq h s k hk, ho]
  exact C05_value_read o k bs rest hl

/-- A little-endian file on a big-endian computer. -/
example : segySet (hostMarker .be [4, 3, 2, 1]) = .ok .swapped ∧
    IntKind.i32.readOn .be .swapped [0xfe, 0xff, 0xff, 0xff] = .ok (-2, []) ∧
    IntKind.u16.readOn .be .swapped [0x34, 0x12] = .ok (0x1234, []) := by decide +kernel

/-- **C90** (part). The same for samples: the reader selected for a format gives on every computer
what it gives on a little-endian one for a file of that byte order, unless a sample has three
bytes (formats 7 and 15). -/
theorem C90_segy_samples_partial (h o : ByteOrder) (format : Int) (h7 : format ≠ 7)
    (h15 : format ≠ 15) :
    ∃ s, segySet (hostMarker h (markerBytes o)) = .ok s ∧
      sampleReaderH h s format = (sampleReader format).map fun r => r o := by
  obtain ⟨s, hs, ho⟩ := segySet_marker h o
  refine ⟨s, hs, ?_⟩
  unfold sampleReaderH sampleReader
  split <;> first
    | exact absurd rfl h7
    | exact absurd rfl h15
    | (simp only [readU16H_eq, readI16H_eq, readU32H_eq, readI32H_eq, readU64H_eq, readI64H_eq,
        readU8H_eq h .le, readI8H_eq h .le, readU8_eq .le, readI8_eq .le, ho]; rfl)

/-- **C90** (part). The same for writing samples, with the set of writers `s` of the computer. -/
theorem C90_segy_sample_writers_partial (est : LogEst) (h : ByteOrder) (s : RawSet) (format : Int)
    (h7 : format ≠ 7) (h15 : format ≠ 15) :
    sampleWriterH est h s format = (sampleWriter est format).map fun w => w (fileOrder h s) := by
  unfold sampleWriterH sampleWriter
  split <;> first
    | exact absurd rfl h7
    | exact absurd rfl h15
    | (simp only [writeU16H_eq, writeI16H_eq, writeU32H_eq, writeI32H_eq, writeU64H_eq, writeI64H_eq,
        writeU8H_eq h .le, writeI8H_eq h .le, writeU8_eq .le, writeI8_eq .le]; rfl)

/-- The number 1 as a single, written by a big-endian computer in its own order. -/
example : (do let w ← sampleWriterH (.strict fun _ => 0) .be .native 5; w (dblOfInt 1)) =
    .ok [0x3f, 0x80, 0, 0] := by decide +kernel

/-- An IBM number, 1.0, of a big-endian file on a big-endian computer. -/
example : (do let r ← sampleReaderH .be .native 1; r [0x41, 0x10, 0, 0, 9]) =
    .ok (dblOfInt 1, [9]) := by decide +kernel

/-- **C90** (part). A SEG-Y file whose binary header has the marker 0x01020304 when it is written is
read correctly on every computer, whichever computer wrote it. -/
theorem C90_segy_exchange_partial (h h' : ByteOrder) (k : IntKind) (hk : k.size ≠ 3) (v : Int)
    (hv : k.InRange v) (rest : Bytes) :
    ∃ s s', segySet 0x01020304 = .ok s ∧
      segySet (hostMarker h' (IntKind.i32.writeOn h s 0x01020304)) = .ok s' ∧
      k.readOn h' s' (k.writeOn h s v ++ rest) = .ok (v, rest) := by
  obtain ⟨s', hs', ho⟩ := segySet_marker h' h
  refine ⟨.native, s', rfl, ?_, ?_⟩
  · rw [kind_writeOn_eq h .native .i32 (by decide), kind_write_eq]
    exact hs'
  · rw [kind_readOn_eq h' s' k hk, ho, kind_writeOn_eq h .native k hk]
    exact C04_roundtrip h k v hv rest

/-- Written on a big-endian computer, read on a little-endian one. -/
example : IntKind.i32.writeOn .be .native 0x01020304 = [1, 2, 3, 4] ∧
    segySet (hostMarker .le [1, 2, 3, 4]) = .ok .swapped ∧
    IntKind.i16.readOn .le .swapped (IntKind.i16.writeOn .be .native (-3)) = .ok (-3, []) := by
  decide +kernel

/-- **C90.** What one computer writes with a set it reads back with the same set, for all kinds of
integers, those of three bytes included. -/
theorem C90_same_host (h : ByteOrder) (s : RawSet) (k : IntKind) (v : Int) (hv : k.InRange v)
    (rest : Bytes) : k.readOn h s (k.writeOn h s v ++ rest) = .ok (v, rest) := by
  by_cases hk : k.size = 3
  · have go : ∀ (w : Bytes), w.length = 3 → 2 ≤ w.length := by intro w hw; omega
    cases k <;> first
      | exact absurd hk (by decide)
      | skip
    · have hl : (writeU24 (setOrder s) v).length = 3 := by rw [writeU24_eq, encInt_length]
      have e := C04_roundtrip (setOrder s) .u24 v hv rest
      simp only [IntKind.readOn, IntKind.writeOn, IntKind.read, IntKind.write, asInt] at e ⊢
      rw [writeU24H_flip, flip2_append (go _ hl), readU24H_flip' h s (by
        rw [flip2_length, List.length_append]; omega), flip2_flip2]
      exact e
    · have hl : (writeI24 (setOrder s) v).length = 3 := by rw [writeI24_eq, encInt_length]
      have e := C04_roundtrip (setOrder s) .i24 v hv rest
      simp only [IntKind.readOn, IntKind.writeOn, IntKind.read, IntKind.write] at e ⊢
      rw [writeI24H_flip, flip2_append (go _ hl), readI24H_flip' h s (by
        rw [flip2_length, List.length_append]; omega), flip2_flip2]
      exact e
  · rw [kind_readOn_eq h s k hk, kind_writeOn_eq h s k hk]
    exact C04_roundtrip _ k v hv rest

example : IntKind.i24.readOn .be .native (IntKind.i24.writeOn .be .native (-3)) = .ok (-3, []) := by
  decide +kernel

/-- **C90** fails for integers of three bytes: a big-endian computer reads them wrongly, from files
of either byte order, ... -/
theorem C90_segy_three_bytes_fail :
    (∃ s, segySet (hostMarker .be (markerBytes .be)) = .ok s ∧
      IntKind.u24.readOn .be s [1, 2, 3] = .ok (0x030102, []) ∧ decNat .be [1, 2, 3] = 0x010203) ∧
    (∃ s, segySet (hostMarker .be (markerBytes .le)) = .ok s ∧
      IntKind.u24.readOn .be s [1, 2, 3] = .ok (0x020103, []) ∧ decNat .le [1, 2, 3] = 0x030201) :=
  ⟨⟨.native, by decide +kernel, by decide +kernel, by decide +kernel⟩,
   ⟨.swapped, by decide +kernel, by decide +kernel, by decide +kernel⟩⟩

/-- ... and what it writes differs from what a little-endian computer writes in files of the same
byte order. -/
theorem C90_segy_three_bytes_written :
    IntKind.u24.writeOn .be .native 0x010203 = [2, 3, 1] ∧
    IntKind.u24.writeOn .le .swapped 0x010203 = [1, 2, 3] ∧
    fileOrder .be .native = fileOrder .le .swapped := by decide +kernel

/-- **C90** fails for files without marker, which are in big-endian order: a big-endian computer
reads and writes them in little-endian order. -/
theorem C90_segy_no_marker_fails (h : ByteOrder) :
    segySet (hostMarker h [0, 0, 0, 0]) = .ok .swapped ∧
    IntKind.u16.readOn .le .swapped [0x12, 0x34] = .ok (0x1234, []) ∧
    IntKind.u16.readOn .be .swapped [0x12, 0x34] = .ok (0x3412, []) ∧
    IntKind.u16.writeOn .le .swapped 0x1234 = [0x12, 0x34] ∧
    IntKind.u16.writeOn .be .swapped 0x1234 = [0x34, 0x12] := by
  cases h <;> decide +kernel

/-- **C90** fails for files written with the marker 0x04030201: on every computer the file says that
it is in the byte order of the computer that wrote it, and it is in the other one. -/
theorem C90_segy_other_marker_fails (h : ByteOrder) :
    segySet 0x04030201 = .ok .swapped ∧
    IntKind.i32.writeOn h .swapped 0x04030201 = markerBytes h ∧
    fileOrder h .swapped = other h := by
  cases h <;> decide +kernel

/-- **C90** (part). SEG-D: on every computer every integer of 1, 2, 4 or 8 bytes is read in
big-endian order. Missing: integers of three bytes on a big-endian computer. -/
theorem C90_segd_reads_partial (h : ByteOrder) (k : IntKind) (hk : k.size ≠ 3) (bs rest : Bytes)
    (hl : bs.length = k.size) :
    k.readOn h (segdSet h) (bs ++ rest) =
      .ok (if k.signed then decInt .be bs else (decNat .be bs : Int), rest) := by
  have ho : fileOrder h (segdSet h) = .be := by cases h <;> rfl
  rw [kind_readOn_eq h _ k hk, ho]
  exact C05_value_read .be k bs rest hl

example : IntKind.u32.readOn .be (segdSet .be) [0, 0, 1, 2] = .ok (0x0102, []) := by decide +kernel

/-- **C90** (part). SEG-D: on every computer integers are written in big-endian order, except on a
big-endian computer integers of three bytes and signed integers of four. -/
theorem C90_segd_writes_partial (h : ByteOrder) (k : IntKind) (hk : k.size ≠ 3)
    (hi : h = .be → k ≠ .i32) (v : Int) : k.writeSegdOn h v = .ok (encInt .be k.size v) := by
  have ho : fileOrder h (segdSet h) = .be := by cases h <;> rfl
  have e := kind_writeOn_eq h (segdSet h) k hk v
  rw [ho, kind_write_eq] at e
  rw [← e]
  cases k <;> first
    | rfl
    | (cases h
       · rfl
       · exact absurd rfl (hi rfl))

example : IntKind.i16.writeSegdOn .be (-2) = .ok [0xff, 0xfe] := by decide +kernel

/-- **C90** fails for SEG-D on a big-endian computer: integers of three bytes are read and written
with their bytes in another order, and writing a signed integer of four bytes throws. -/
theorem C90_segd_fails (v : Int) :
    IntKind.u24.readOn .be (segdSet .be) [1, 2, 3] = .ok (0x030102, []) ∧
    IntKind.u24.readOn .le (segdSet .le) [1, 2, 3] = .ok (0x010203, []) ∧
    IntKind.u24.writeSegdOn .be 0x010203 = .ok [2, 3, 1] ∧
    IntKind.u24.writeSegdOn .le 0x010203 = .ok [1, 2, 3] ∧
    IntKind.i32.writeSegdOn .be v = .error (.exn .badFunctionCall) ∧
    IntKind.i32.writeSegdOn .le v = .ok (encInt .be 4 v) := by
  refine ⟨by decide +kernel, by decide +kernel, by decide +kernel, by decide +kernel, rfl, ?_⟩
  exact C90_segd_writes_partial .le .i32 (by decide) (by intro h; cases h) v

/-- **C90** (part). SEG-D samples in little-endian order with four and eight bytes (formats 9038,
9058 and 9080) are read alike on both kinds of computers, as little-endian numbers. -/
theorem C90_segd_little_partial (h : ByteOrder) :
    (∃ r, segdLittleReader h 9038 = .ok r ∧ r = (do pure (dblOfInt (← readI32 .le)) : Rd Dbl)) ∧
    (∃ r, segdLittleReader h 9058 = .ok r ∧ r = readIeeeFloat .le) ∧
    (∃ r, segdLittleReader h 9080 = .ok r ∧ r = readIeeeDouble .le) := by
  cases h
  · refine ⟨⟨_, rfl, ?_⟩, ⟨_, rfl, ?_⟩, ⟨_, rfl, ?_⟩⟩
    · rw [readI32_eq, ← readSH_eq]
    · unfold readIeeeFloat; rw [readU32_eq, ← readUH_eq]
    · unfold readIeeeDouble; rw [readU64_eq, ← readUH_eq]
  · have e32 : (do pure (swapSH .be 4 (← readI32H .be (segdSet .be))) : Rd Int) = readI32 .le := by
      rw [show readI32H .be (segdSet .be) = readSH .be 4 from rfl, readSH_swap, readI32_eq]; rfl
    have u32 : (do pure (swapUH .be 4 (← readU32H .be (segdSet .be))) : Rd Nat) = readU32 .le := by
      rw [show readU32H .be (segdSet .be) = readUH .be 4 from rfl, readUH_swap, readU32_eq]; rfl
    have u64 : (do pure (swapUH .be 8 (← readU64H .be (segdSet .be))) : Rd Nat) = readU64 .le := by
      rw [show readU64H .be (segdSet .be) = readUH .be 8 from rfl, readUH_swap, readU64_eq]; rfl
    refine ⟨⟨_, rfl, ?_⟩, ⟨_, rfl, ?_⟩, ⟨_, rfl, ?_⟩⟩
    · rw [← e32]; exact rd_map_map _ _ dblOfInt
    · unfold readIeeeFloat; rw [← u32]; exact rd_map_map _ _ fun n => sglToDbl (BitVec.ofNat 32 n)
    · unfold readIeeeDouble; rw [← u64]; exact rd_map_map _ _ (BitVec.ofNat 64)

/-- The number -2 in format 9038 on a big-endian computer. -/
example : (do let r ← segdLittleReader .be 9038; r [0xfe, 0xff, 0xff, 0xff]) =
    .ok (dblOfInt (-2), []) := by decide +kernel

/-- **C90** (part). Formats 9058 and 9080 are written alike on both kinds of computers. -/
theorem C90_segd_little_writes_partial (h : ByteOrder) :
    (∃ w, segdLittleWriter h 9058 = .ok w ∧ ∀ d, w d = .ok (encInt .le 4 ((dblToSgl d).toNat : Int))) ∧
    (∃ w, segdLittleWriter h 9080 = .ok w ∧ ∀ d, w d = .ok (encInt .le 8 (d.toNat : Int))) := by
  cases h
  · exact ⟨⟨_, rfl, fun d => congrArg _ (writeIH_eq .le 4 _)⟩,
      ⟨_, rfl, fun d => congrArg _ (writeIH_eq .le 8 _)⟩⟩
  · have key : ∀ (n u : Nat), u < 256 ^ n →
        writeIH .be n (toU n ((swapUH .be n u : Nat) : Int)) = encInt .le n (u : Int) := by
      intro n u hu
      have e : toU n ((u : Nat) : Int) = u := toU_of_nat_lt hu
      have k := writeIH_swapU .be n (u : Int)
      rw [e] at k
      rw [writeIH_eq, encInt_toU, ← writeIH_eq]
      exact k
    refine ⟨⟨_, rfl, fun d => congrArg _ (key 4 _ (dblToSgl d).isLt)⟩,
      ⟨_, rfl, fun d => congrArg _ (key 8 _ d.isLt)⟩⟩

example : (do let w ← segdLittleWriter .be 9058; w (dblOfInt 1)) = .ok [0, 0, 0x80, 0x3f] := by
  decide +kernel

/-- **C90.** For a little-endian computer the readers and writers of these formats are those the
theorems about SEG-D files are about. -/
theorem C90_segd_little_is_model (est : PackEst) (format : Int)
    (hf : format ∈ [9036, 9038, 9058, 9080]) :
    (segdReader format).map Prod.snd = segdLittleReader .le format ∧
    (segdWriter est format).map Prod.snd = (segdLittleWriter .le format).map SampleWr.bytes := by
  simp only [List.mem_cons, List.not_mem_nil, or_false] at hf
  rcases hf with rfl | rfl | rfl | rfl
  · exact ⟨rfl, rfl⟩
  · exact ⟨rfl, rfl⟩
  · refine ⟨rfl, congrArg (fun w => Except.ok (SampleWr.bytes w)) (funext fun d => ?_)⟩
    show Except.ok (writeU32 .le _) = Except.ok (writeIH .le 4 _)
    rw [writeU32_eq, writeIH_eq]
  · refine ⟨rfl, congrArg (fun w => Except.ok (SampleWr.bytes w)) (funext fun d => ?_)⟩
    show Except.ok (writeU64 .le _) = Except.ok (writeIH .le 8 _)
    rw [writeU64_eq, writeIH_eq]

/-- **C90** fails for format 9036 (three bytes): neither kind of computer reads the number 1. -/
theorem C90_segd_9036_fails :
    (do let r ← segdLittleReader .le 9036; r [1, 0, 0]) = .ok (dblOfInt 256, []) ∧
    (do let r ← segdLittleReader .be 9036; r [1, 0, 0]) = .ok (dblOfInt 65536, []) := by
  decide +kernel

/-- **C90** fails for writing format 9038: a big-endian computer throws, a little-endian one writes
the sample. -/
theorem C90_segd_9038_fails :
    (do let w ← segdLittleWriter .le 9038; w (dblOfInt 1)) = .ok [1, 0, 0, 0] ∧
    (do let w ← segdLittleWriter .be 9038; w (dblOfInt 1)) = .error (.exn .badFunctionCall) := by
  decide +kernel

end Sedaman.Props
