import Verif.Lemmas.SampleFmt
import Verif.Props.RawIO

/-!
# Properties C09 to C12: sample formats of SEG-Y

`sampleReader fmt` and `sampleWriter est fmt` are the functions the library selects for a format
code; `est` is the C library's logarithm estimate and only matters for format 1.
-/

namespace Sedaman.Props

open Spec

/-! ## C09 -/

/-- **C09.** Reader and writer accept exactly the same codes and otherwise both throw
"unsupported format". -/
theorem C09_same_codes (est : LogEst) (fmt : Int) :
    ((∃ r, sampleReader fmt = .ok r) ∧ (∃ w, sampleWriter est fmt = .ok w) ∧ fmt ∈ supportedFormats) ∨
    (sampleReader fmt = throwExn .unsupportedFormat ∧
      sampleWriter est fmt = throwExn .unsupportedFormat ∧ fmt ∉ supportedFormats) := by
  by_cases h : fmt ∈ supportedFormats
  · obtain ⟨_, r, _, hr, _⟩ := reader_shape h
    obtain ⟨_, w, _, hw, _⟩ := writer_shape est h
    exact .inl ⟨⟨r, hr⟩, ⟨w, hw⟩, h⟩
  · exact .inr ⟨reader_error h, writer_error est h, h⟩

/-- **C09.** For an accepted code the size the library uses is the number of bytes a sample
takes when it is written and when it is read; the reader needs no more and looks at no more. -/
theorem C09_sizes (est : LogEst) (fmt : Int) (r : ByteOrder → Rd Dbl)
    (w : ByteOrder → Dbl → Out Bytes) (hr : sampleReader fmt = .ok r)
    (hw : sampleWriter est fmt = .ok w) :
    ∃ n, bytesPerSample fmt = some n ∧ 0 < n ∧
      (∀ bo d bs, w bo d = .ok bs → bs.length = n) ∧
      (∀ bo (bs : Bytes), bs.length = n → ∃ v, ∀ rest, r bo (bs ++ rest) = .ok (v, rest)) ∧
      (∀ bo (bs : Bytes), bs.length < n → r bo bs = isUb .outOfBounds) := by
  have h : fmt ∈ supportedFormats := by
    by_contra hc
    rw [reader_error hc] at hr
    cases hr
  obtain ⟨n, r', hn, hr', hsh⟩ := reader_shape h
  obtain ⟨n', w', hn', hw', hlen⟩ := writer_shape est h
  rw [hr] at hr'
  rw [hw] at hw'
  cases hr'
  cases hw'
  rw [hn] at hn'
  cases hn'
  have hpos : 0 < n := by
    have : ∀ f ∈ supportedFormats, ∃ n, bytesPerSample f = some n ∧ 0 < n := by decide
    obtain ⟨k, hk, hk0⟩ := this fmt h
    rw [hn] at hk
    cases hk
    exact hk0
  refine ⟨n, hn, hpos, hlen, fun bo bs hb => ?_, fun bo bs hb => ?_⟩
  · obtain ⟨v, hv⟩ := hsh bo
    refine ⟨v bs, fun rest => ?_⟩
    rw [hv, if_pos (by simp; omega), List.take_left' hb, List.drop_left' hb]
  · obtain ⟨v, hv⟩ := hsh bo
    rw [hv, if_neg (by omega)]

/-- Code 4 has a size in the table but is supported by neither side; code 7 takes 3 bytes. -/
example : sampleReader 4 = throwExn .unsupportedFormat ∧ bytesPerSample 7 = some 3 ∧
    (∃ r, sampleReader 7 = .ok r ∧ r .be [0xff, 0xff, 0xfe, 1] = .ok (0xC000000000000000, [1])) := by
  refine ⟨rfl, rfl, _, rfl, ?_⟩
  decide +kernel

/-! ## C10 -/

/-- **C10 (part).** A non-negative integer sample in the range of an integer format is read back
bit for bit. The full property also covers negative samples; see `C10_negative_undefined`. -/
theorem C10_integer_samples_partial (est : LogEst) (fmt : Int) (k : IntKind)
    (hk : intFormat fmt = some k) (bo : ByteOrder) (d : Dbl) (n : Int)
    (hd : dblRat d = some (n : ℚ)) (hz : d ≠ 0x8000000000000000) (hn : 0 ≤ n) (hr : k.InRange n) :
    ∃ w r bs, sampleWriter est fmt = .ok w ∧ sampleReader fmt = .ok r ∧ w bo d = .ok bs ∧
      ∀ rest, r bo (bs ++ rest) = .ok (d, rest) := by
  obtain ⟨hd1, hd2⟩ := dbl_of_int_value hd hz
  obtain ⟨m, rfl⟩ := Int.eq_ofNat_of_zero_le hn
  have hneg : decide ((m : Int) < 0) = false := decide_eq_false (by omega)
  rw [hneg] at hd2
  have hlt : m < 256 ^ paramSize k := by
    unfold IntKind.InRange at hr
    have h2 : (m : Int) < (2 : Int) ^ (8 * k.size) := by
      cases k <;> simp only [IntKind.signed, IntKind.size] at hr ⊢ <;> norm_num at hr ⊢ <;> omega
    have h3 : (2 : Int) ^ (8 * k.size) ≤ ((256 ^ paramSize k : Nat) : Int) := by
      cases k <;> decide
    have h4 : (m : Int) < ((256 ^ paramSize k : Nat) : Int) := lt_of_lt_of_le h2 h3
    exact_mod_cast h4
  refine ⟨_, _, k.write bo (m : Int), sampleWriter_int est hk, sampleReader_int hk, ?_, ?_⟩
  · simp only [LogEst.toU_ok (Is.toU (n := m) hd2 hlt), ok_bind]
    rfl
  · intro rest
    rw [rd_bind, C04_roundtrip bo k (m : Int) hr rest]
    simp only [ok_bind, rd_pure]
    rw [← hd1]

/-- The sample 1000 in format 3. -/
example : intFormat 3 = some .i16 ∧ dblRat 0x408F400000000000 = some ((1000 : Int) : ℚ) ∧
    IntKind.i16.InRange 1000 := by
  refine ⟨rfl, ?_, by decide⟩
  have h : Dbl.val 0x408F400000000000 = .fin false 8796093022208000 (-43) := by decide +kernel
  unfold dblRat
  rw [h]
  simp only [ratOf]
  norm_num

/-- **C10 fails for negative samples.** The writers of the signed formats take unsigned
parameters, so a sample of at most -1 is converted from `double` to an unsigned type: undefined
behaviour, in every integer format. -/
theorem C10_negative_undefined (est : LogEst) (hst : est.Strict) (fmt : Int) (k : IntKind)
    (hk : intFormat fmt = some k) (bo : ByteOrder) (d : Dbl) (x : ℚ)
    (hd : dblRat d = some x) (hx : x ≤ -1) :
    ∃ w, sampleWriter est fmt = .ok w ∧ w bo d = isUb .floatToInt := by
  refine ⟨_, sampleWriter_int est hk, ?_⟩
  simp only [LogEst.toU_ub hst (dblToU_neg hd hx)]
  rfl

/-- The sample -1 in format 2 (32-bit signed integers). -/
example : (do (← sampleWriter (.strict fun _ => 0) 2) .be 0xBFF0000000000000) = isUb .floatToInt := by
  decide +kernel

/-- **C10, reading.** Whatever wrote the file, an integer of at most 2^53 in magnitude stored in
an integer format is delivered as exactly that number, negative ones included. -/
theorem C10_read_exact (fmt : Int) (k : IntKind) (hk : intFormat fmt = some k) (bo : ByteOrder)
    (n : Int) (hr : k.InRange n) (hn : n.natAbs ≤ 2 ^ 53) (rest : Bytes) :
    ∃ r d, sampleReader fmt = .ok r ∧ r bo (encInt bo k.size n ++ rest) = .ok (d, rest) ∧
      dblRat d = some (n : ℚ) := by
  refine ⟨_, dblOfInt n, sampleReader_int hk, ?_, dblRat_ofInt hn⟩
  rw [rd_bind, ← kind_write_eq, C04_roundtrip bo k n hr rest]
  rfl

example : IntKind.i24.InRange (-8388608) ∧ encInt .le 3 (-8388608) = [0, 0, 0x80] := by
  decide +kernel

/-! ## C11 -/

/-- **C11.** Format 6 returns every double bit for bit. -/
theorem C11_double_exact (est : LogEst) (bo : ByteOrder) (d : Dbl) :
    ∃ w r bs, sampleWriter est 6 = .ok w ∧ sampleReader 6 = .ok r ∧ w bo d = .ok bs ∧
      ∀ rest, r bo (bs ++ rest) = .ok (d, rest) :=
  ⟨_, _, _, rfl, rfl, rfl, ieee_double_rt bo d⟩

/-- **C11.** A NaN pattern with a payload survives too. -/
example : writeIeeeDouble .be 0x7FF8000000000123 = [0x7f, 0xf8, 0, 0, 0, 0, 1, 0x23] := by
  decide +kernel

/-- **C11.** Format 5 returns a sample that is exactly a single (and not a NaN) unchanged. -/
theorem C11_single_exact (est : LogEst) (bo : ByteOrder) (s : Sgl) (hs : s.val ≠ .nan) :
    ∃ w r bs, sampleWriter est 5 = .ok w ∧ sampleReader 5 = .ok r ∧
      w bo (sglToDbl s) = .ok bs ∧ ∀ rest, r bo (bs ++ rest) = .ok (sglToDbl s, rest) := by
  refine ⟨_, _, _, rfl, rfl, rfl, fun rest => ?_⟩
  have := ieee_float_rt bo (sglToDbl s) rest
  rw [dblToSgl_sglToDbl (by cases h : s.val <;> simp_all [FVal.isNan])] at this
  exact this

/-- **C11.** The rational reading of the previous statement: a sample whose value is that of a
single comes back with the same value. -/
theorem C11_single_value (est : LogEst) (bo : ByteOrder) (s : Sgl) (x : ℚ)
    (hs : sglRat s = some x) :
    ∃ w r bs v, sampleWriter est 5 = .ok w ∧ sampleReader 5 = .ok r ∧
      w bo (sglToDbl s) = .ok bs ∧ (∀ rest, r bo (bs ++ rest) = .ok (v, rest)) ∧
      dblRat v = some x ∧ dblRat (sglToDbl s) = some x := by
  have hn : s.val ≠ .nan := by
    intro h; unfold sglRat at hs; rw [h] at hs; simp [ratOf] at hs
  obtain ⟨w, r, bs, h1, h2, h3, h4⟩ := C11_single_exact est bo s hn
  exact ⟨w, r, bs, _, h1, h2, h3, h4, dblRat_sglToDbl hs, dblRat_sglToDbl hs⟩

/-- **C11.** Every finite sample is returned as the nearest single: the value read back is that
of a single, no finite single is closer, and when another one is equally close the one returned
has an even last bit. The only condition is that the result is finite. -/
theorem C11_single_nearest (est : LogEst) (bo : ByteOrder) (d : Dbl) (x : ℚ)
    (hd : dblRat d = some x) (hr : |x| < (2 ^ 24 - 1 / 2) * 2 ^ 104) :
    ∃ w r bs, ∃ s : Sgl, ∃ v : ℚ, sampleWriter est 5 = .ok w ∧ sampleReader 5 = .ok r ∧
      w bo d = .ok bs ∧ (∀ rest, r bo (bs ++ rest) = .ok (sglToDbl s, rest)) ∧
      sglRat s = some v ∧ dblRat (sglToDbl s) = some v ∧
      ∀ (y : Sgl) (u : ℚ), sglRat y = some u →
        |x - v| ≤ |x - u| ∧ (|x - v| = |x - u| → u ≠ v → s.toNat % 2 = 0) := by
  unfold dblRat ratOf at hd
  split at hd
  · rename_i sg m e hv
    simp only [Option.some.injEq] at hd
    have hx : x = (if sg then -1 else 1) * ((m : ℚ) * 2 ^ e) := by
      rw [← hd]; cases sg <;> simp
    have habs : |x| = (m : ℚ) * 2 ^ e := by
      have : (0 : ℚ) ≤ (m : ℚ) * 2 ^ e := by positivity
      rw [hx, abs_mul, abs_of_nonneg this]; cases sg <;> simp
    have hov : encMag f32 m e < f32.infMag := by
      apply encMag_no_overflow f32_ok (by decide)
      rw [← habs]
      have e1 : f32.emin + ((2 ^ f32.ebits : Nat) : Int) - 3 = 104 := by decide
      rw [e1]
      exact hr
    have hsg : dblToSgl d = toSgl (.fin sg m e) := by unfold dblToSgl; rw [hv]
    obtain ⟨v, hvv⟩ := sglRat_of_lt (s := sg) hov
    refine ⟨_, _, _, dblToSgl d, v, rfl, rfl, rfl, fun rest => ieee_float_rt bo d rest, ?_, ?_, ?_⟩
    · rw [hsg]; exact hvv
    · apply dblRat_sglToDbl; rw [hsg]; exact hvv
    · intro y u hy
      rw [hsg, hx]
      exact toSgl_nearest hvv hy
  · cases hd

/-- One third is not a single: the double next to it is rounded to 0x3eaaaaab. -/
example : dblToSgl 0x3FD5555555555555 = 0x3eaaaaab := by decide +kernel

/-- A tie: 1 + 2^-24 lies half way between 1 and 1 + 2^-23 and goes to the even 1. -/
example : dblToSgl 0x3FF0000010000000 = 0x3f800000 := by decide +kernel

/-! ## C12 -/

/-- **C12.** Decoding four bytes gives exactly the value of the IBM word. -/
theorem C12_decode_value (bo : ByteOrder) (bs rest : Bytes) (hb : bs.length = 4) :
    ∃ r d, sampleReader 1 = .ok r ∧ r bo (bs ++ rest) = .ok (d, rest) ∧
      dblRat d = some (ibmValue (decNat bo bs)) := by
  refine ⟨_, ibmDecode (decNat bo bs), rfl, ?_, ?_⟩
  · simp only [readIbm, readU32_eq]
    rw [rd_map_nat, if_pos (by simp; omega), List.take_left' hb, List.drop_left' hb]
  · have hlt : decNat bo bs < 2 ^ 32 := by
      have := decNat_lt bo bs
      rw [hb] at this
      exact this
    rw [(ibmDecode_is hlt).rat]
    unfold ibmValue
    rw [sixteen_zpow]
    congr 1
    rw [← mul_assoc]
    have e1 : 4 * (((decNat bo bs / 2 ^ 24 % 128 : Nat) : Int) - 70)
        = 4 * ((decNat bo bs / 2 ^ 24 % 128 : Nat) : Int) - 280 := by ring
    rw [e1]
    congr 2
    by_cases h : 2 ^ 31 ≤ decNat bo bs
    · rw [if_pos h, if_pos (by simpa using h)]
    · rw [if_neg h, if_neg (by simpa using h)]

/-- -118.625 is 0xC276A000. -/
example : ibmDecode 0xC276A000 = 0xC05DA80000000000 := by decide +kernel

private theorem exponent_abs {d : Dbl} {x : ℚ} (hd : dblRat d = some x) :
    dblRat (dblAbs d) = some |x| := by
  unfold dblRat ratOf at hd
  split at hd
  · rename_i s m e hv
    simp only [Option.some.injEq] at hd
    have h := (dblAbs_is (d := d) (s := s) (n := m) (g := e) ⟨m, e, hv, rfl⟩).rat
    rw [h, ← hd]
    have : (0 : ℚ) ≤ (m : ℚ) * 2 ^ e := by positivity
    have e1 : (if s = true then (-1 : ℚ) else 1) * (m : ℚ) * 2 ^ e
      = (if s = true then (-1 : ℚ) else 1) * ((m : ℚ) * 2 ^ e) := by ring
    rw [e1, abs_mul, abs_of_nonneg this]
    cases s <;> simp
  · cases hd

private theorem estExact_of {est : LogEst} {d : Dbl} {x : ℚ} (hd : dblRat d = some x)
    (h : IbmExponent x (est (dblAbs d))) : EstExact est (dblAbs d) :=
  ⟨|x|, exponent_abs hd, h.1, h.2⟩

/-- **C12 (part).** When the logarithm estimate is exact, encoding the value of a normalised word
gives back the word. Missing: that the C library's `log` always gives the exact exponent; it does
not, see `C12_low_estimate_loses_value`. -/
theorem C12_encode_decode_partial (est : LogEst) (w : Nat) (hw : w < 2 ^ 32) (hn : ibmNormalised w)
    (hest : IbmExponent (ibmValue w) (est (dblAbs (ibmDecode w)))) :
    ibmEncode est (ibmDecode w) = .ok w := by
  have his := ibmDecode_is hw
  have hval : dblRat (ibmDecode w) = some (ibmValue w) := by
    obtain ⟨r, d, h1, h2, h3⟩ := C12_decode_value .le (encInt .le 4 w) [] (by simp)
    rw [decNat_encInt, toU_of_nat_lt (by simpa using hw)] at h3
    cases h1
    simp only [readIbm, readU32_eq, rd_bind, rdNat_encInt, toU_of_nat_lt (n := 4) (v := w) (by simpa using hw)] at h2
    cases h2
    exact h3
  have hE := estExact_of hval hest
  have hf : w % 2 ^ 24 < 2 ^ 24 := Nat.mod_lt _ (by decide)
  have hex : w / 2 ^ 24 % 128 < 128 := Nat.mod_lt _ (by decide)
  unfold ibmNormalised at hn
  obtain ⟨hl, hu⟩ := hest
  have habs : |ibmValue w| = ((w % 2 ^ 24 : Nat) : ℚ) * 2 ^ (4 * ((w / 2 ^ 24 % 128 : Nat) : Int) - 280) := by
    have h := (dblAbs_is his).rat
    rw [exponent_abs hval] at h
    simpa using h
  rw [habs, sixteen_zpow] at hl hu
  generalize htd : est (dblAbs (ibmDecode w)) = t at *
  have hw1 : (if decide (2 ^ 31 ≤ w) = true then 1 else 0) * 2 ^ 31 + w / 2 ^ 24 % 128 * 2 ^ 24 + w % 2 ^ 24 = w := by
    by_cases h : 2 ^ 31 ≤ w
    · rw [if_pos (by simpa using h)]; omega
    · rw [if_neg (by simpa using h)]; omega
  generalize hexd : w / 2 ^ 24 % 128 = ex at *
  generalize hfd : w % 2 ^ 24 = fr at *
  have hfr : (2 : ℚ) ^ (20 : Int) ≤ fr := by
    have : (2 : ℚ) ^ (20 : Int) = ((2 ^ 20 : Nat) : ℚ) := by norm_num
    rw [this]; exact_mod_cast hn
  have hfr' : (fr : ℚ) < (2 : ℚ) ^ (24 : Int) := by
    have : (2 : ℚ) ^ (24 : Int) = ((2 ^ 24 : Nat) : ℚ) := by norm_num
    rw [this]; exact_mod_cast hf
  have hpe : (0 : ℚ) < 2 ^ (4 * (ex : Int) - 280) := by positivity
  have ht : t = (ex : Int) := by
    have h1 : (2 : ℚ) ^ (4 * (t - 65)) < 2 ^ (24 + (4 * (ex : Int) - 280)) := by
      rw [zpow_add₀ (by norm_num)]
      exact lt_of_le_of_lt hl (mul_lt_mul_of_pos_right hfr' hpe)
    have h2 : (2 : ℚ) ^ (20 + (4 * (ex : Int) - 280)) < 2 ^ (4 * (t - 64)) := by
      rw [zpow_add₀ (by norm_num)]
      exact lt_of_le_of_lt (mul_le_mul_of_nonneg_right hfr (le_of_lt hpe)) hu
    have h1' := (zpow_lt_zpow_iff_right₀ (by norm_num : (1 : ℚ) < 2)).mp h1
    have h2' := (zpow_lt_zpow_iff_right₀ (by norm_num : (1 : ℚ) < 2)).mp h2
    omega
  obtain ⟨m, e, hv, hme⟩ := his
  have hm0 : m ≠ 0 := by
    intro h0
    rw [h0] at hme
    have : (0 : ℚ) < (fr : ℚ) * 2 ^ (4 * (ex : Int) - 280) := by
      have : (0 : ℚ) < fr := lt_of_lt_of_le (by positivity) hfr
      positivity
    simp at hme
    rcases hme with h | h
    · rw [h] at this; simp at this
    · exact absurd h (ne_of_gt hpe)
  obtain ⟨F, _, _, hF1, hF2, hFw⟩ := ibmEncode_spec hv hm0 hE (by rw [htd]; omega) (by rw [htd]; omega)
  rw [htd] at hF1 hF2 hFw
  have hx : (m : ℚ) * 2 ^ (e - 4 * t + 280) = fr := by
    have e1 : e - 4 * t + 280 = e + (-(4 * (ex : Int) - 280)) := by rw [ht]; ring
    rw [e1, zpow_add₀ (by norm_num), ← mul_assoc, hme, mul_assoc, ← zpow_add₀ (by norm_num)]
    simp
  rw [hx] at hF1 hF2
  have hFe : F = fr := by
    have a1 : F ≤ fr := by exact_mod_cast hF1
    have a2 : fr < F + 1 := by exact_mod_cast hF2
    omega
  rw [hFw, hFe, ht, Int.toNat_natCast]
  congr 1

/-- An exact estimate for 100.0, whose word is 0x42640000. -/
example : ibmNormalised 0x42640000 ∧ ibmEncode (.strict fun _ => 66) (ibmDecode 0x42640000) = .ok 0x42640000 := by
  constructor
  · unfold ibmNormalised; decide
  · decide +kernel

/-- **C12 (part).** When the estimate is exact and in the range of the format, encoding truncates
towards zero and loses less than one unit of the last of the 24 fraction bits. -/
theorem C12_error_below_one_unit_partial (est : LogEst) (d : Dbl) (x : ℚ) (hd : dblRat d = some x)
    (h0 : x ≠ 0) (hest : IbmExponent x (est (dblAbs d)))
    (ht0 : 0 ≤ est (dblAbs d)) (ht1 : est (dblAbs d) ≤ 127) :
    ∃ w, ibmEncode est d = .ok w ∧ w < 2 ^ 32 ∧ ibmNormalised w ∧
      |ibmValue w| ≤ |x| ∧ |x - ibmValue w| < (16 : ℚ) ^ (est (dblAbs d) - 70) := by
  have hE := estExact_of hd hest
  unfold dblRat ratOf at hd
  split at hd
  · rename_i s m e hv
    simp only [Option.some.injEq] at hd
    have hm0 : m ≠ 0 := by
      intro h; apply h0; rw [← hd, h]; simp
    obtain ⟨F, hFl, hFu, hF1, hF2, hFw⟩ := ibmEncode_spec hv hm0 hE ht0 ht1
    generalize est (dblAbs d) = t at *
    obtain ⟨k, rfl⟩ := Int.eq_ofNat_of_zero_le ht0
    simp only [Int.ofNat_eq_natCast, Int.toNat_natCast] at *
    refine ⟨_, hFw, ?_, ?_, ?_⟩
    · cases s
      · simp only [Bool.false_eq_true, if_false]; omega
      · simp only [if_true]; omega
    · unfold ibmNormalised
      cases s
      · simp only [Bool.false_eq_true, if_false]; omega
      · simp only [if_true]; omega
    · have hval : ibmValue ((if s then 1 else 0) * 2 ^ 31 + k * 2 ^ 24 + F)
          = (if s then -1 else 1) * ((F : ℚ) * 16 ^ ((k : Int) - 70)) := by
        unfold ibmValue
        have e1 : ((if s then 1 else 0) * 2 ^ 31 + k * 2 ^ 24 + F) % 2 ^ 24 = F := by
          cases s
          · simp only [Bool.false_eq_true, if_false]; omega
          · simp only [if_true]; omega
        have e2 : ((if s then 1 else 0) * 2 ^ 31 + k * 2 ^ 24 + F) / 2 ^ 24 % 128 = k := by
          cases s
          · simp only [Bool.false_eq_true, if_false]; omega
          · simp only [if_true]; omega
        rw [e1, e2, mul_assoc]
        cases s
        · simp only [Bool.false_eq_true, if_false]
          rw [if_neg (by omega)]
        · simp only [if_true]
          rw [if_pos (by omega)]
      have hx : x = (if s then -1 else 1) * ((m : ℚ) * 2 ^ e) := by
        rw [← hd, mul_assoc]
      have hscale : (m : ℚ) * 2 ^ e = (m : ℚ) * 2 ^ (e - 4 * (k : Int) + 280) * 16 ^ ((k : Int) - 70) := by
        rw [sixteen_zpow, mul_assoc, ← zpow_add₀ (by norm_num)]
        congr 2; ring
      have hu : (0 : ℚ) < 16 ^ ((k : Int) - 70) := by positivity
      rw [hval, hx, hscale]
      generalize (m : ℚ) * 2 ^ (e - 4 * (k : Int) + 280) = X at *
      generalize (16 : ℚ) ^ ((k : Int) - 70) = U at *
      have hF0 : (0 : ℚ) ≤ F := by positivity
      constructor
      · rw [abs_mul, abs_mul _ (X * U), abs_of_nonneg (a := (F : ℚ) * U) (by positivity),
          abs_of_nonneg (a := X * U) (mul_nonneg (le_trans hF0 hF1) (le_of_lt hu))]
        apply mul_le_mul_of_nonneg_left _ (abs_nonneg _)
        exact mul_le_mul_of_nonneg_right hF1 (le_of_lt hu)
      · rw [abs_sign, ← sub_mul, abs_mul, abs_of_pos hu, abs_of_nonneg (by linarith)]
        have : X - F < 1 := by linarith
        calc (X - F) * U < 1 * U := mul_lt_mul_of_pos_right this hu
          _ = U := one_mul U
  · cases hd

/-- 0.1 is not exact in either format; its IBM word is 0x40199999. -/
example : ibmEncode (.strict fun _ => 64) 0x3FB999999999999A = .ok 0x40199999 := by decide +kernel

/-- **C12 fails for zero.** Encoding the sample 0 (or -0) converts `log(0) = -inf` to an unsigned
integer: undefined behaviour. -/
theorem C12_zero_undefined (est : LogEst) (hst : est.Strict) (bo : ByteOrder) (d : Dbl) (hd : dblRat d = some 0) :
    ∃ w, sampleWriter est 1 = .ok w ∧ w bo d = isUb .floatToInt := by
  refine ⟨_, rfl, ?_⟩
  unfold dblRat ratOf at hd
  split at hd
  · rename_i s m e hv
    simp only [Option.some.injEq] at hd
    have hm : m = 0 := by
      have hp : (2 : ℚ) ^ e ≠ 0 := by positivity
      have hs : (if s then (-1 : ℚ) else 1) ≠ 0 := by cases s <;> simp
      have h1 := mul_eq_zero.mp hd
      rcases h1 with h1 | h1
      · rcases mul_eq_zero.mp h1 with h2 | h2
        · exact absurd h2 hs
        · exact_mod_cast h2
      · exact absurd h1 hp
    subst hm
    simp only [writeIbm, ibmEncode_zero hst hv]
    rfl
  · cases hd

example : dblRat 0 = some 0 := by
  have h : Dbl.val 0 = .fin false 0 (-1074) := by decide +kernel
  unfold dblRat; rw [h]; simp [ratOf]

private theorem pow16_facts {n : Nat} (hlt : n < 128) :
    dblAbs (pow2 (4 * ((n : Int) - 64))) = pow2 (4 * ((n : Int) - 64)) ∧
      dblNeg (pow2 (4 * ((n : Int) - 64))) = false ∧
      (∃ m e, (pow2 (4 * ((n : Int) - 64))).val = .fin false m e ∧ m ≠ 0) ∧
    dblToU 4 (dmul (ddivPow2 (pow2 (4 * ((n : Int) - 64))) (4 * ((n : Int) - 64))) (pow2 24)) = .ok ((2 ^ 24 : Nat) : Int) := by
  have his := is_pow2 (k := 4 * ((n : Int) - 64)) (by omega) (by omega)
  refine ⟨?_, dblNeg_is his (by decide), ?_, ?_⟩
  · rw [(dblAbs_is his).eq]; exact his.eq.symm
  · obtain ⟨m, e, hv, hme⟩ := his
    refine ⟨m, e, hv, ?_⟩
    intro h0
    rw [h0] at hme
    have : (0 : ℚ) < ((1 : Nat) : ℚ) * 2 ^ (4 * ((n : Int) - 64)) := by positivity
    rw [← hme] at this
    simp at this
  · have l1 : Nat.log2 1 = 0 := by decide
    have s1 := his.scale (k := -(4 * ((n : Int) - 64))) (by omega) (by omega) (by decide)
      (by omega) (by rw [l1]; omega)
    have s2 := s1.scale (k := 24) (by decide) (by decide) (by decide) (by omega) (by rw [l1]; omega)
    apply Is.toU (n := 2 ^ 24) _ (by decide)
    apply s2.congr
    have e1 : 4 * ((n : Int) - 64) + -(4 * ((n : Int) - 64)) + 24 = 24 := by ring
    rw [e1]
    norm_num

private theorem ibmExp_of {est : LogEst} {a : Dbl} {n m : Nat} {e : Int} (hn : n < 128)
    (kv : a.val = .fin false m e) (km : m ≠ 0) (e1 : est a = (n : Int)) :
    ibmExp est a = .ok n := by
  unfold ibmExp
  rw [kv]
  simp only
  rw [if_neg km, e1, if_pos ⟨by omega, by omega⟩, Int.toNat_natCast, and_7f, Nat.mod_eq_of_lt hn]

private theorem ibmEncode_of {est : LogEst} {a : Dbl} {n : Nat} {N : Int}
    (ka : dblAbs a = a) (kn : dblNeg a = false) (hexp : ibmExp est a = .ok n)
    (ku : dblToU 4 (dmul (ddivPow2 a (4 * ((n : Int) - 64))) (pow2 24)) = .ok N)
    (e2 : N.toNat % 2 ^ 24 = 0) : ibmEncode est a = .ok (n <<< 24) := by
  unfold ibmEncode
  simp only
  rw [kn, ka, hexp, ok_bind, LogEst.toU_ok ku, ok_bind, and_ffffff, e2, Nat.or_zero, if_neg (by decide),
    Nat.zero_shiftLeft, Nat.zero_or]
  rfl

private theorem ibmValue_shift (n : Nat) : ibmValue (n <<< 24) = 0 := by
  unfold ibmValue
  have e1 : n <<< 24 % 2 ^ 24 = 0 := by rw [Nat.shiftLeft_eq]; exact Nat.mul_mod_left _ _
  rw [e1, Nat.cast_zero, mul_zero, zero_mul]

private theorem two24_mod : ((2 ^ 24 : Nat) : Int).toNat % 2 ^ 24 = 0 := by
  rw [Int.toNat_natCast, Nat.mod_self]

/-- **C12 fails for inexact logarithms.** If the computed estimate for `16^k` is one too low, as
happens in IEEE double arithmetic for some `k`, the sample is written with a zero fraction: it
reads back as 0. -/
theorem C12_low_estimate_loses_value (est : LogEst) (k : Int) (h1 : -64 ≤ k) (h2 : k ≤ 63)
    (hlow : est (pow2 (4 * k)) = k + 64) :
    ∃ w, ibmEncode est (pow2 (4 * k)) = .ok w ∧ ibmValue w = 0 ∧
      dblRat (pow2 (4 * k)) = some ((16 : ℚ) ^ k) := by
  have hk : ∃ n : Nat, n < 128 ∧ k = (n : Int) - 64 := ⟨(k + 64).toNat, by omega, by omega⟩
  obtain ⟨n, hn, rfl⟩ := hk
  have hn0 : dblRat (pow2 (4 * ((n : Int) - 64))) = some ((16 : ℚ) ^ ((n : Int) - 64)) := by
    rw [(is_pow2 (by omega) (by omega)).rat, sixteen_zpow]; simp
  obtain ⟨ka, kn, ⟨m, e, kv, km⟩, ku⟩ := pow16_facts hn
  have e1 : est (pow2 (4 * ((n : Int) - 64))) = (n : Int) := by rw [hlow]; ring
  exact ⟨n <<< 24, ibmEncode_of ka kn (ibmExp_of hn kv km e1) ku two24_mod, ibmValue_shift n, hn0⟩

/-- The sample 16^-39 with an estimate one too low. -/
example : ibmEncode (.strict fun _ => 25) (pow2 (4 * (-39))) = .ok 0x19000000 := by decide +kernel

end Sedaman.Props
