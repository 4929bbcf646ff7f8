import Verif.Lemmas.SegdSample
import Verif.Props.Samples

/-!
# C50: SEG-D samples
-/

namespace Sedaman.Props

open Spec

/-- **C50.** Writer and reader accept the same format codes with the same number of bits per sample,
and both throw for any other code. -/
theorem C50_codes (est : PackEst) (fmt : Int) :
    (fmt ∈ segdFormats ∧ (∃ r, segdReader fmt = .ok (segdBits fmt, r)) ∧
      ∃ w, segdWriter est fmt = .ok (segdBits fmt, w)) ∨
    (fmt ∉ segdFormats ∧ segdReader fmt = throwExn .unsupportedFormat ∧
      segdWriter est fmt = throwExn .unsupportedFormat) := by
  by_cases h : fmt ∈ segdFormats
  · exact .inl ⟨h, segdReader_bits h, segdWriter_bits est h⟩
  · exact .inr ⟨h, segdReader_error h, segdWriter_error est h⟩

example : segdReader 8059 = throwExn .unsupportedFormat ∧ (9036 : Int) ∈ segdFormats := by
  exact ⟨rfl, by decide⟩

/-- **C50.** A trace of a format outside the list is neither written nor read. -/
theorem C50_unsupported (est : PackEst) (fmt : Int) (h : fmt ∉ segdFormats)
    (descale : Dbl) (xs : List Dbl) (m : SampMem) (n : Nat) (s : Bytes) :
    writeSamplesD est fmt descale xs m = throwExn .unsupportedFormat ∧
      readSamplesD fmt descale n s = throwExn .unsupportedFormat := by
  unfold writeSamplesD readSamplesD
  rw [segdReader_error h, segdWriter_error est h]
  exact ⟨rfl, rfl⟩

/-- **C50.** Double precision: every bit pattern comes back. -/
theorem C50_double_exact (est : PackEst) (fmt : Int) (hf : fmt = 8080 ∨ fmt = 9080)
    (d : Dbl) : SampleBack est fmt d d := by
  rcases hf with rfl | rfl
  · exact ⟨_, _, _, rfl, rfl, rfl, by
      unfold writeIeeeDouble; rw [writeU64_eq, encInt_length]; rfl, ieee_double_rt .be d⟩
  · exact ⟨_, _, _, rfl, rfl, rfl, by
      unfold writeIeeeDouble; rw [writeU64_eq, encInt_length]; rfl, ieee_double_rt .le d⟩

/-- **C50.** Single precision: what comes back is the sample rounded to single precision. -/
theorem C50_single (est : PackEst) (fmt : Int) (hf : fmt = 8058 ∨ fmt = 9058)
    (d : Dbl) : SampleBack est fmt d (sglToDbl (dblToSgl d)) := by
  rcases hf with rfl | rfl
  · exact ⟨_, _, _, rfl, rfl, rfl, by
      unfold writeIeeeFloat; rw [writeU32_eq, encInt_length]; rfl, ieee_float_rt .be d⟩
  · exact ⟨_, _, _, rfl, rfl, rfl, by
      unfold writeIeeeFloat; rw [writeU32_eq, encInt_length]; rfl, ieee_float_rt .le d⟩

/-- **C50.** Single precision: a sample with a single precision value comes back exactly. -/
theorem C50_single_exact (est : PackEst) (fmt : Int) (hf : fmt = 8058 ∨ fmt = 9058)
    (s : Sgl) (hs : s.val ≠ .nan) : SampleBack est fmt (sglToDbl s) (sglToDbl s) := by
  have := C50_single est fmt hf (sglToDbl s)
  rwa [dblToSgl_sglToDbl (by cases h : s.val <;> simp_all [FVal.isNan])] at this

/-- **C50.** Single precision: any other sample within range comes back as the nearest single precision
number, ties to even. -/
theorem C50_single_nearest (est : PackEst) (fmt : Int)
    (hf : fmt = 8058 ∨ fmt = 9058) (d : Dbl) (x : ℚ) (hd : dblRat d = some x)
    (hr : |x| < (2 ^ 24 - 1 / 2) * 2 ^ 104) :
    ∃ s : Sgl, ∃ v : ℚ, SampleBack est fmt d (sglToDbl s) ∧ sglRat s = some v ∧
      dblRat (sglToDbl s) = some v ∧ ∀ (y : Sgl) (u : ℚ), sglRat y = some u →
        |x - v| ≤ |x - u| ∧ (|x - v| = |x - u| → u ≠ v → s.toNat % 2 = 0) := by
  obtain ⟨w, r, bs, s, v, h1, h2, h3, h4, h5, h6, h7⟩ :=
    C11_single_nearest (.strict fun _ => 0) .be d x hd hr
  refine ⟨s, v, ?_, h5, h6, h7⟩
  have hb := C50_single est fmt hf d
  have e : sglToDbl (dblToSgl d) = sglToDbl s := by
    have h8 := h4 []
    cases h1; cases h2; cases h3
    have h9 := ieee_float_rt .be d []
    replace h8 := h9.symm.trans h8
    simpa using h8
  rwa [e] at hb

example : SampleBack (fun _ _ => 0) 9058 0x3FF8000000000000 0x3FF8000000000000 := by
  have := C50_single_exact (fun _ _ => 0) 9058 (.inr rfl) 0x3FC00000 (by decide +kernel)
  rwa [show sglToDbl 0x3FC00000 = 0x3FF8000000000000 by decide +kernel] at this

/-- **C50.** Little-endian 32-bit integers: a sample within range comes back without its fraction. -/
theorem C50_i32_le (est : PackEst) (d : Dbl) (x : ℚ) (hd : dblRat d = some x)
    (n : Int) (hn : Truncates x n) (h1 : -2 ^ 31 ≤ n) (h2 : n < 2 ^ 31) :
    SampleBack est 9038 d (dblOfInt n) ∧ dblRat (dblOfInt n) = some (n : ℚ) := by
  refine ⟨⟨_, _, writeI 4 n, rfl, rfl, ?_, ?_, fun rest => ?_⟩, dblRat_ofInt (by omega)⟩
  · have : dblToS 4 d = .ok n := dblToInt_rat hd hn (by norm_num; omega) (by norm_num; omega)
    rw [this]; rfl
  · rw [writeI_eq, encInt_length]; rfl
  · rw [rd_bind, writeI_eq, readS_eq, rdInt_encInt, toS_toU (by unfold FitsS; norm_num; omega)]
    rfl

example : SampleBack (fun _ _ => 0) 9038 0xC008000000000000 0xC008000000000000 := by
  have h := (C50_i32_le (fun _ _ => 0) 0xC008000000000000 (-3)
    (by unfold dblRat
        rw [show Dbl.val 0xC008000000000000 = .fin true 6755399441055744 (-51) by decide +kernel]
        simp only [ratOf, if_true, Option.some.injEq]; norm_num) (-3)
    (by unfold Truncates; norm_num) (by decide) (by decide)).1
  rwa [show dblOfInt (-3) = 0xC008000000000000 by decide +kernel] at h

/-- **C50 (part).** Big-endian 24 and 32-bit integers: a non-negative sample within range comes back
without its fraction. Missing: negative samples, see `C50_negative_undefined`. -/
theorem C50_integer_partial (est : PackEst) (fmt : Int) (bits : Nat)
    (hf : (fmt = 8036 ∧ bits = 24) ∨ (fmt = 8038 ∧ bits = 32)) (d : Dbl) (x : ℚ)
    (hd : dblRat d = some x) (n : Int) (hn : Truncates x n) (h1 : 0 ≤ n) (h2 : n < 2 ^ (bits - 1)) :
    SampleBack est fmt d (dblOfInt n) ∧ dblRat (dblOfInt n) = some (n : ℚ) := by
  rcases hf with ⟨rfl, rfl⟩ | ⟨rfl, rfl⟩ <;> norm_num at h2
  · refine ⟨⟨_, _, writeI24 .be n, rfl, rfl, ?_, ?_, fun rest => ?_⟩, dblRat_ofInt (by omega)⟩
    · have : dblToU 4 d = .ok n := dblToInt_rat hd hn h1 (by norm_num; omega)
      rw [this]; rfl
    · rw [writeI24_eq, encInt_length]; rfl
    · rw [rd_bind, writeI24_eq, readI24_eq, rdInt_encInt, toS_toU (by unfold FitsS; norm_num; omega)]
      rfl
  · refine ⟨⟨_, _, writeI32 .be n, rfl, rfl, ?_, ?_, fun rest => ?_⟩, dblRat_ofInt (by omega)⟩
    · have : dblToU 4 d = .ok n := dblToInt_rat hd hn h1 (by norm_num; omega)
      rw [this]; rfl
    · rw [writeI32_eq, encInt_length]; rfl
    · rw [rd_bind, writeI32_eq, readI32_eq, rdInt_encInt, toS_toU (by unfold FitsS; norm_num; omega)]
      rfl

example : Truncates (8388607 + 1 / 2) 8388607 ∧ (8388607 : Int) < 2 ^ (24 - 1) := by
  unfold Truncates; norm_num

/-- **C50 (counterexample).** A sample of -1 or less in a big-endian integer format makes the writer
convert a negative number to `uint32_t`, which is undefined. -/
theorem C50_negative_undefined (est : PackEst) (fmt : Int)
    (hf : fmt = 8036 ∨ fmt = 8038) (d : Dbl) (x : ℚ) (hd : dblRat d = some x) (hx : x ≤ -1) :
    ∃ w, segdWriter est fmt = .ok (segdBits fmt, .bytes w) ∧ w d = isUb .floatToInt := by
  rcases hf with rfl | rfl
  · refine ⟨_, rfl, ?_⟩
    simp only [dblToU_neg hd hx]; rfl
  · refine ⟨_, rfl, ?_⟩
    simp only [dblToU_neg hd hx]; rfl

example : dblRat 0xBFF0000000000000 = some (-1) := by
  unfold dblRat
  rw [show Dbl.val 0xBFF0000000000000 = .fin true 4503599627370496 (-52) by decide +kernel]
  simp only [ratOf, if_true, Option.some.injEq]; norm_num

/-- **C50 (counterexample).** Little-endian 24-bit integers (9036): the sample 1 comes back as 256, and
the sample -1 as 4294967295. Samples that need more than 16 bits make the writer undefined. -/
theorem C50_i24_le_wrong (est : PackEst) :
    SampleBack est 9036 (dblOfInt 1) (dblOfInt 256) ∧
      SampleBack est 9036 (dblOfInt (-1)) (dblOfInt 4294967295) ∧
      (∃ w, segdWriter est 9036 = .ok (24, .bytes w) ∧ w (dblOfInt 32768) = isUb .floatToInt) := by
  refine ⟨⟨_, _, [1, 0, 0], rfl, rfl, ?_, rfl, fun rest => ?_⟩,
    ⟨_, _, [255, 255, 255], rfl, rfl, ?_, rfl, fun rest => ?_⟩, _, rfl, ?_⟩
  · decide +kernel
  · rw [List.cons_append, List.cons_append, List.cons_append, List.nil_append, read9036_cons]
    refine congrArg Except.ok (congrArg (·, rest) ?_)
    decide +kernel
  · decide +kernel
  · rw [List.cons_append, List.cons_append, List.cons_append, List.nil_append, read9036_cons]
    refine congrArg Except.ok (congrArg (·, rest) ?_)
    decide +kernel
  · decide +kernel

/-- **C50 (counterexample).** Reading any sample of the packed formats 8015, 8024, 8044 and 8048 is
undefined; those of 8022 and 8042 are read without moving to the next sample. -/
theorem C50_packed_reader (s : Bytes) :
    (∀ fmt ∈ [8015, 8024, 8044, 8048], ∃ r, segdReader fmt = .ok (segdBits fmt, r) ∧
      r s = isUb .outOfBounds) ∧
    (∀ fmt ∈ [8022, 8042], ∃ r, segdReader fmt = .ok (segdBits fmt, r) ∧
      ∀ d t, r s = .ok (d, t) → t = s) := by
  constructor
  · intro fmt hf
    simp only [List.mem_cons, List.not_mem_nil, or_false] at hf
    rcases hf with rfl | rfl | rfl | rfl <;> exact ⟨_, rfl, rfl⟩
  · intro fmt hf
    simp only [List.mem_cons, List.not_mem_nil, or_false] at hf
    rcases hf with rfl | rfl
    · refine ⟨_, rfl, fun d t h => ?_⟩
      cases s with
      | nil => cases h
      | cons b s => simp only [read8022] at h; cases h; rfl
    · refine ⟨_, rfl, fun d t h => ?_⟩
      cases s with
      | nil => cases h
      | cons b s => simp only [read8042] at h; cases h; rfl

/-- **C50.** A whole trace, scaled down by the channel set's power of two when written and up again when
read: if the scaled samples are exact and survive their format, the trace comes back sample for sample,
and exactly its bytes are consumed. The sample data must stay below 2^32 bits, see
`C50_size_wraps`. -/
theorem C50_trace_samples_partial (est : PackEst) (fmt : Int) (k : Int) (h1 : -1074 ≤ k)
    (h2 : k ≤ 1023) (xs : List Dbl) (hf : fmt ∈ segdByteFormats)
    (hx : ∀ x ∈ xs, ∃ y, DividesExactly x k y ∧ SampleBack est fmt y y)
    (hl : xs.length * segdBits fmt < 2 ^ 32) :
    ∃ bs, (∀ m, ∃ m', writeSamplesD est fmt (pow2 k) xs m = .ok (bs, m')) ∧
      8 * bs.length = xs.length * segdBits fmt ∧
      ∀ rest, readSamplesD fmt (pow2 k) xs.length (bs ++ rest) = .ok (xs, rest) := by
  have hmem : fmt ∈ segdFormats := by
    revert fmt; intro fmt hf _ _
    simp only [segdByteFormats, List.mem_cons, List.not_mem_nil, or_false] at hf
    rcases hf with h | h | h | h | h | h | h | h <;> subst h <;> decide
  obtain ⟨r, hr⟩ := segdReader_bits hmem
  obtain ⟨w, hw⟩ := segdWriter_bytes est hf
  obtain ⟨n, hn⟩ : ∃ n, segdBits fmt = 8 * n := by
    simp only [segdByteFormats, List.mem_cons, List.not_mem_nil, or_false] at hf
    rcases hf with h | h | h | h | h | h | h | h <;> subst h
    exacts [⟨3, rfl⟩, ⟨4, rfl⟩, ⟨4, rfl⟩, ⟨8, rfl⟩, ⟨3, rfl⟩, ⟨4, rfl⟩, ⟨4, rfl⟩, ⟨8, rfl⟩]
  have hx' : ∀ x, ∃ y bs, x ∈ xs → ddiv x (pow2 k) = y ∧ dmul y (pow2 k) = x ∧ w y = .ok bs ∧
      bs.length = n ∧ ∀ rest, r (bs ++ rest) = .ok (y, rest) := by
    intro x
    by_cases hm : x ∈ xs
    · obtain ⟨y, hd, w', r', bs, e1, e2, e3, e4, e5⟩ := hx x hm
      rw [hw] at e1; rw [hr] at e2
      simp only [Except.ok.injEq, Prod.mk.injEq, true_and, SampleWr.bytes.injEq] at e1 e2
      subst e1 e2
      obtain ⟨d1, d2⟩ := ddiv_exact hd h1 h2
      exact ⟨y, bs, fun _ => ⟨d1, d2, e3, by omega, e5⟩⟩
    · exact ⟨x, [], fun h => absurd h hm⟩
  choose v f hv using hx'
  have hlen : (xs.flatMap f).length = xs.length * n := by
    clear hl hx
    induction xs with
    | nil => simp
    | cons x t ih =>
      rw [List.flatMap_cons, List.length_append, (hv x (by simp)).2.2.2.1,
        ih (fun y hy => hv y (by simp [hy])), List.length_cons, Nat.add_mul]
      omega
  have hsz : xs.length * segdBits fmt / 8 = xs.length * n := by
    rw [hn, ← Nat.mul_assoc, Nat.mul_comm xs.length 8, Nat.mul_assoc, Nat.mul_div_cancel_left _ (by decide)]
  refine ⟨xs.flatMap f, fun m => ⟨⟨m.pending, xs.flatMap f⟩, ?_⟩, by rw [hlen, hn]; ring, fun rest => ?_⟩
  · unfold writeSamplesD
    rw [hw, ok_bind]
    simp only
    rw [hsz, wrSamples_ok (f := f) n xs m.pending [] _ (fun x hm => ?_)
      (by rw [resizeTo_length]), ok_bind]
    · simp only [List.drop_of_length_le (Nat.le_of_eq (resizeTo_length (xs.length * n) m.buf)), pure_eq_ok,
        List.nil_append, List.append_nil]
    · obtain ⟨d1, _, d3, d4, _⟩ := hv x hm
      rw [d1]; exact ⟨d3, d4⟩
  · unfold readSamplesD
    rw [hr, ok_bind]
    simp only
    rw [Nat.mod_eq_of_lt hl, hsz, if_pos (by rw [List.length_append, hlen]; omega), ok_bind]
    simp only
    rw [List.take_left' hlen, List.drop_left' hlen]
    have := rdSamples_ok (r := r) (f := f) (v := v) (descale := pow2 k) xs []
      (fun x hm => ⟨(hv x hm).2.2.2.2, (hv x hm).2.1⟩)
    rw [List.append_nil] at this
    rw [this, ok_bind]; rfl

/-- The samples 12 and -0.5 with a scale of 2^2 in double precision. -/
example : DividesExactly 0x4028000000000000 2 0x4008000000000000 ∧
    DividesExactly 0xBFE0000000000000 2 0xBFC0000000000000 := by
  constructor
  · refine ⟨12, ?_, ?_, by decide +kernel⟩
    · unfold dblRat
      rw [show Dbl.val 0x4028000000000000 = .fin false 6755399441055744 (-49) by decide +kernel]
      simp only [ratOf, Option.some.injEq]; norm_num
    · unfold dblRat
      rw [show Dbl.val 0x4008000000000000 = .fin false 6755399441055744 (-51) by decide +kernel]
      simp only [ratOf, Option.some.injEq]; norm_num
  · refine ⟨-1 / 2, ?_, ?_, by decide +kernel⟩
    · unfold dblRat
      rw [show Dbl.val 0xBFE0000000000000 = .fin true 4503599627370496 (-53) by decide +kernel]
      simp only [ratOf, if_true, Option.some.injEq]; norm_num
    · unfold dblRat
      rw [show Dbl.val 0xBFC0000000000000 = .fin true 4503599627370496 (-55) by decide +kernel]
      simp only [ratOf, if_true, Option.some.injEq]; norm_num

/-- **C50 (counterexample).** The reader computes the size of the sample data in 32 bits: 2^26 double
precision samples give an empty buffer, and the first sample is read past its end. -/
theorem C50_size_wraps (descale : Dbl) (s : Bytes) :
    readSamplesD 8080 descale (2 ^ 26) s = isUb .outOfBounds := by
  have key : ∀ m, rdSamples (readIeeeDouble .be) descale (m + 1) [] = isUb .outOfBounds := by
    intro m; rfl
  unfold readSamplesD
  rw [show segdReader 8080 = .ok (64, readIeeeDouble .be) from rfl, ok_bind]
  simp only
  rw [show 2 ^ 26 * 64 % 2 ^ 32 / 8 = 0 by decide, if_pos (Nat.zero_le _), ok_bind]
  simp only [List.take_zero]
  rw [show (2 ^ 26 : Nat) = (2 ^ 26 - 1) + 1 by decide, key]
  rfl

end Sedaman.Props
