import Verif.Lemmas.Platform
import Verif.Props.Copy
import Verif.Props.Convert

/-!
# C91: negative integers and zeros on computers that define their conversion
-/

namespace Sedaman.Props

open Spec

/-! ## The two computers -/

/-- **C91.** x86-64 wraps negative numbers and turns minus infinity into zero bits. -/
theorem C91_x86 (f : Dbl → Int) : WrapsNegative ⟨f, x86Conv⟩ ∧ LogOfZero ⟨f, x86Conv⟩ := by
  refine ⟨fun n hn d x v hd hv h1 h2 => ?_, 0, show x86Conv 4 _ = _ by decide +kernel, rfl⟩
  obtain ⟨m, e1, e2⟩ := trunc_rat hd
  have := truncates_unique hv e2
  subst this
  have hneg : ∃ m e, d.val = .fin true m e := by
    unfold dblRat ratOf at hd
    split at hd
    · rename_i s m e hval
      cases s
      · rw [hval] at e1
        unfold FVal.trunc at e1
        simp only [Bool.false_eq_true, if_false, Option.some.injEq] at e1
        omega
      · exact ⟨m, e, hval⟩
    · cases hd
  have key : ∀ k, -((256 ^ k : Nat) : Int) ≤ 2 * v → cvttsd2si k d = (v % ((256 ^ k : Nat) : Int)).toNat := by
    intro k hk
    unfold cvttsd2si
    rw [e1]
    exact if_pos ⟨hk, by
      have : (0 : Int) < ((256 ^ k : Nat) : Int) := by exact_mod_cast pow256_pos k
      omega⟩
  obtain ⟨m', e', hval⟩ := hneg
  simp only [List.mem_cons, List.not_mem_nil, or_false] at hn
  rcases hn with rfl | rfl | rfl | rfl
  · refine ⟨_, rfl, ?_⟩
    rw [key 4 (by norm_num at h1 ⊢; omega)]
    norm_num at h1 ⊢
    omega
  · refine ⟨_, rfl, ?_⟩
    rw [key 4 (by norm_num at h1 ⊢; omega)]
    norm_num at h1 ⊢
    omega
  · refine ⟨_, rfl, ?_⟩
    rw [key 8 (by norm_num at h1 ⊢; omega)]
    norm_num at h1 ⊢
    omega
  · refine ⟨cvttsd2si 8 d, ?_, ?_⟩
    · simp only [x86Conv, hval]
      rfl
    · rw [key 8 h1]
      norm_num at h1 ⊢
      omega

/-- **C91.** ARM64 turns negative numbers into zero, and minus infinity too. -/
theorem C91_arm (f : Dbl → Int) : NegativeToZero ⟨f, armConv⟩ ∧ LogOfZero ⟨f, armConv⟩ := by
  refine ⟨fun n hn d x hd hx => ?_, 0, show armConv 4 _ = _ by decide +kernel, rfl⟩
  have hneg : ∃ m e, d.val = .fin true m e := by
    unfold dblRat ratOf at hd
    split at hd
    · rename_i s m e hval
      cases s
      · simp only [Bool.false_eq_true, if_false, one_mul, Option.some.injEq] at hd
        have : (0 : ℚ) ≤ (m : ℚ) * 2 ^ e := by positivity
        linarith
      · exact ⟨m, e, hval⟩
    · cases hd
  obtain ⟨m, e, hval⟩ := hneg
  have : ∀ k, fcvtzu k d = 0 := by
    intro k
    unfold fcvtzu
    rw [hval]
  show armConv n d = some 0
  unfold armConv
  rw [this, this]
  split
  · rw [Nat.zero_mod]
  · rfl

/-- On one -5 becomes 65531, on the other 0. -/
example : x86Conv 2 (dblOfInt (-5)) = some 65531 ∧ armConv 2 (dblOfInt (-5)) = some 0 := by decide +kernel

/-! ## Samples -/

/-- **C91.** Where negative numbers wrap, a sample whose integer part is in the range of an integer format
comes back truncated to that integer, whatever its sign. -/
theorem C91_truncates (est : LogEst) (hw : WrapsNegative est) (fmt : Int) (k : IntKind) (hk : intFormat fmt = some k)
    (bo : ByteOrder) (d : Dbl) (x : ℚ) (v : Int) (hd : dblRat d = some x) (hv : Truncates x v) (hr : k.InRange v) :
    ComesBack est fmt bo d (dblOfInt v) := by
  obtain ⟨u, h1, h2⟩ := write_wraps hw (bo := bo) hd hv hr
  refine ⟨_, _, k.write bo v, sampleWriter_int est hk, sampleReader_int hk, ?_, ?_⟩
  · simp only [h1, ok_bind, h2]
    rfl
  · intro rest
    rw [rd_bind, C04_roundtrip bo k v hr rest]
    rfl

/-- -2.5 becomes -2 in format 3. -/
example (f : Dbl → Int) : ComesBack ⟨f, x86Conv⟩ 3 .be 0xC004000000000000 (dblOfInt (-2)) :=
  C91_truncates _ (C91_x86 f).1 3 .i16 rfl .be _ (-5 / 2) (-2) (by decide +kernel)
    ⟨by norm_num, by norm_num⟩ (by decide)

private theorem truncates_int (v : Int) : Truncates (v : ℚ) v := ⟨fun _ => ⟨le_refl _, by linarith⟩, fun _ => ⟨by linarith, le_refl _⟩⟩

/-- **C91.** Where negative numbers wrap, every integer in the range of an integer format survives, negative
ones included. -/
theorem C91_integer_samples (est : LogEst) (hw : WrapsNegative est) (fmt : Int) (k : IntKind)
    (hk : intFormat fmt = some k) (bo : ByteOrder) (d : Dbl) (v : Int) (hd : dblRat d = some (v : ℚ))
    (hz : d ≠ 0x8000000000000000) (hr : k.InRange v) : Survives est fmt bo d := by
  have := C91_truncates est hw fmt k hk bo d v v hd (truncates_int v) hr
  rw [← (dbl_of_int_value hd hz).1] at this
  exact this

/-- -8388608 in format 7 -/
example (f : Dbl → Int) : Survives ⟨f, x86Conv⟩ 7 .le (dblOfInt (-8388608)) :=
  C91_integer_samples _ (C91_x86 f).1 7 .i24 rfl .le _ (-8388608) (dblRat_ofInt (by decide)) (by decide +kernel)
    (by decide)

/-- **C91 fails on ARM64.** Where negative numbers become zero, a sample of at most -1 comes back as 0 from
every integer format, without any error. -/
theorem C91_negative_to_zero (est : LogEst) (hn : NegativeToZero est) (fmt : Int) (k : IntKind)
    (hk : intFormat fmt = some k) (bo : ByteOrder) (d : Dbl) (x : ℚ) (hd : dblRat d = some x) (hx : x ≤ -1) :
    ComesBack est fmt bo d 0 := by
  obtain ⟨v, e1, e2⟩ := trunc_rat hd
  have hv : v < 0 := by
    have := (e2.2 (by linarith)).1
    have h : (v : ℚ) < ((0 : Int) : ℚ) := by
      push_cast
      linarith
    exact_mod_cast h
  have h1 := toU_conv hd e2 hv (hn _ (paramSize_mem k) d x hd hx)
  rw [Nat.zero_mod] at h1
  have h0 : k.InRange 0 := by cases k <;> decide
  have hz : dblOfInt 0 = 0 := by decide +kernel
  refine ⟨_, _, k.write bo 0, sampleWriter_int est hk, sampleReader_int hk, ?_, ?_⟩
  · simp only [h1, ok_bind]
    rfl
  · intro rest
    rw [rd_bind, C04_roundtrip bo k 0 h0 rest]
    simp only [ok_bind, rd_pure, hz]

example (f : Dbl → Int) : ComesBack ⟨f, armConv⟩ 2 .be 0xBFF0000000000000 0 :=
  C91_negative_to_zero _ (C91_arm f).1 2 .i32 rfl .be _ (-1) (by decide +kernel) (by norm_num)

/-- **C91.** On both computers a zero in IBM format is written as four zero bytes and comes back as plus
zero. -/
theorem C91_ibm_zero (est : LogEst) (hz : LogOfZero est) (bo : ByteOrder) (d : Dbl) (hd : dblRat d = some 0) :
    (∃ w, sampleWriter est 1 = .ok w ∧ w bo d = .ok [0, 0, 0, 0]) ∧ ComesBack est 1 bo d 0 := by
  have henc : writeIbm est bo d = .ok [0, 0, 0, 0] := by
    unfold dblRat ratOf at hd
    split at hd
    · rename_i s m e hv
      simp only [Option.some.injEq] at hd
      have hm : m = 0 := by
        have hp : (2 : ℚ) ^ e ≠ 0 := by positivity
        have hs : (if s then (-1 : ℚ) else 1) ≠ 0 := by cases s <;> simp
        rcases mul_eq_zero.mp hd with h1 | h1
        · rcases mul_eq_zero.mp h1 with h2 | h2
          · exact absurd h2 hs
          · exact_mod_cast h2
        · exact absurd h1 hp
      subst hm
      simp only [writeIbm, ibmEncode_zero_conv hz hv, ok_bind]
      cases bo <;> decide +kernel
    · cases hd
  refine ⟨⟨_, rfl, henc⟩, _, _, [0, 0, 0, 0], rfl, rfl, henc, fun rest => ?_⟩
  simp only [readIbm, readU32_eq]
  rw [rd_map_nat, if_pos (by simp)]
  show Except.ok (ibmDecode (decNat bo [0, 0, 0, 0]), rest) = _
  have : ∀ bo, ibmDecode (decNat bo [0, 0, 0, 0]) = 0 := by
    intro bo
    cases bo <;> decide +kernel
  rw [this]

example (f : Dbl → Int) : ComesBack ⟨f, x86Conv⟩ 1 .be 0x8000000000000000 0 ∧ ComesBack ⟨f, armConv⟩ 1 .be 0 0 :=
  ⟨(C91_ibm_zero _ (C91_x86 f).2 .be _ (by decide +kernel)).2, (C91_ibm_zero _ (C91_arm f).2 .be _ (by decide +kernel)).2⟩

/-- **C91 fails for infinities in IBM format.** On x86-64 infinity is written as 0, on ARM64 as the largest
number of the format (which is less than 2^252); there is no error. -/
theorem C91_ibm_infinity (f : Dbl → Int) :
    ibmEncode ⟨f, x86Conv⟩ (toDbl (.inf false)) = .ok 0 ∧
    ibmEncode ⟨f, armConv⟩ (toDbl (.inf false)) = .ok 0x7FFFFFFF := by
  constructor <;> with_unfolding_all rfl

/-! ## Files -/

/-- **C91.** Where negative numbers wrap, the bytes of every sample of an integer format of at most four bytes
are written as they were read. -/
theorem C91_rewrites (est : LogEst) (hw : WrapsNegative est) (fmt : Int) (k : IntKind) (hk : ShortIntFormat fmt k)
    (bo : ByteOrder) (p : Bytes) (hp : p.length = k.size) : Rewrites est fmt bo p := by
  obtain ⟨hk, hk4⟩ := hk
  obtain ⟨v, hr, hv⟩ : ∃ v, k.InRange v ∧ encInt bo k.size v = p := by
    by_cases hs : k.signed = true
    · refine ⟨decInt bo p, ?_, by rw [← hp]; exact encInt_decInt bo p⟩
      have h1 := decNat_lt bo p
      rw [decInt_eq]
      unfold IntKind.InRange
      rw [if_pos hs]
      rw [hp] at h1 ⊢
      cases k <;> simp only [IntKind.signed, Bool.false_eq_true] at hs <;>
        simp only [IntKind.size, toS] at h1 ⊢ <;> norm_num at h1 ⊢ <;> split <;> omega
    · refine ⟨(decNat bo p : Nat), ?_, by rw [← hp]; exact encInt_decNat bo p⟩
      have h1 := decNat_lt bo p
      unfold IntKind.InRange
      rw [if_neg hs]
      rw [hp] at h1
      cases k <;> simp only [IntKind.size] at h1 ⊢ <;> norm_num at h1 ⊢ <;> omega
  have hsm : v.natAbs ≤ 2 ^ 53 := by
    unfold IntKind.InRange at hr
    cases k <;> first
      | exact absurd hk4 (by decide)
      | (simp only [IntKind.signed, IntKind.size] at hr; norm_num at hr ⊢; omega)
  obtain ⟨u, h1, h2⟩ := write_wraps hw (bo := bo) (dblRat_ofInt hsm) (truncates_int v) hr
  refine ⟨_, _, dblOfInt v, sampleWriter_int est hk, sampleReader_int hk, fun rest => ?_, ?_⟩
  · rw [rd_bind, ← hv, ← kind_write_eq, C04_roundtrip bo k v hr rest]
    rfl
  · simp only [h1, ok_bind, h2]
    rw [kind_write_eq, hv]
    rfl

example (f : Dbl → Int) : Rewrites ⟨f, x86Conv⟩ 3 .be [0xff, 0xfe] :=
  C91_rewrites _ (C91_x86 f).1 3 .i16 ⟨rfl, by decide⟩ .be _ rfl

/-- **C91.** Four zero bytes in IBM format are written as they were read. -/
theorem C91_rewrites_zero (est : LogEst) (hz : LogOfZero est) (bo : ByteOrder) : Rewrites est 1 bo [0, 0, 0, 0] := by
  obtain ⟨⟨w, h1, h2⟩, w', r, bs, h3, h4, h5, h6⟩ := C91_ibm_zero est hz bo 0 (by decide +kernel)
  rw [h1] at h3
  cases h3
  rw [h2] at h5
  cases h5
  exact ⟨w, r, 0, h1, h4, h6, h2⟩

/-- **C91 fails for other forms of zero.** A word with exponent bits and no fraction, and minus zero, are
written as plus zero. -/
theorem C91_other_zeros (est : LogEst) (hz : LogOfZero est) :
    SampleOf 1 .be [0xc0, 0, 0, 0] 0x8000000000000000 ∧ SampleOf 1 .be [0x40, 0, 0, 0] 0 ∧
    ∃ w, sampleWriter est 1 = .ok w ∧ w .be 0x8000000000000000 = .ok [0, 0, 0, 0] ∧ w .be 0 = .ok [0, 0, 0, 0] := by
  refine ⟨sampleOf_value (by decide) (by decide +kernel), sampleOf_value (by decide) (by decide +kernel), ?_⟩
  obtain ⟨⟨w, h1, h2⟩, -⟩ := C91_ibm_zero est hz .be 0x8000000000000000 (by decide +kernel)
  obtain ⟨⟨w', h3, h4⟩, -⟩ := C91_ibm_zero est hz .be 0 (by decide +kernel)
  rw [h1] at h3
  cases h3
  exact ⟨w, h1, h2, h4⟩

/-- **C91.** Where negative numbers wrap, a fixed length revision 0 file of integers of at most four bytes is
copied byte for byte, whatever its samples are. The other conditions are those of C55. -/
theorem C91_copy_partial (est : LogEst) (hw : WrapsNegative est) (text bin : Bytes) (cs : List Bytes) (m : HdrMap)
    (b : HBlock) (bo : ByteOrder) (bh : BinHeader) (k : IntKind)
    (ht : text.length = 3200) (hl : bin.length = 400)
    (hm : decInt .le ((bin.drop 96).take 4) = 0 ∨ decInt .le ((bin.drop 96).take 4) = 0x01020304)
    (hz : ∀ i, i < 400 → ¬ BinCovered bin i → bin[i]? = some 0)
    (hf : fillBinHeader {} false bin = .ok (bo, bh)) (hfmt : ShortIntFormat bh.formatCode k)
    (hrev : bh.revMajor = 0) (hexts : bh.extTextHeadersNum = 0) (hext : bh.extSampPerTr = 0)
    (hmap : MapOk bh m b) (hint : ∀ f ∈ b.fields, ∃ k, intKind f.ty = some k)
    (hcs : ∀ c ∈ cs, c.length = 240 + k.size * (bh.sampPerTr % 65536).toNat ∧ ZeroOutside b.fields (c.take 240)) :
    ∃ r ts w0 w, openReader (text ++ bin ++ cs.flatten) none m = .ok r ∧ Visits r ts ∧ ts.length = cs.length ∧
      r.texts = [text] ∧ openRev0 text r.bh m = .ok w0 ∧ writeAll (writeTraceRev0 est) w0 ts = .ok w ∧
      w.file.data = text ++ bin ++ cs.flatten := by
  refine C55_copy_partial est text bin cs m b bo bh ht hl hm hz hf ?_ hrev hexts hext ?_ hmap hint ?_
  · obtain ⟨h, -⟩ := hfmt
    unfold intFormat at h
    split at h <;> first | (rename_i he; rw [he]; decide) | cases h
  · intro hc
    rw [hc] at hfmt
    cases hfmt.1
  · intro c hc
    obtain ⟨h1, h2⟩ := hcs c hc
    have hks : 0 < k.size := by cases k <;> decide
    have hcut : ∀ (n : Nat) (bs : Bytes), bs.length = k.size * n →
        ∃ ps : List Bytes, ps.flatten = bs ∧ ps.length = n ∧ ∀ p ∈ ps, p.length = k.size := by
      intro n
      induction n with
      | zero =>
        intro bs hb
        have : bs = [] := List.length_eq_zero_iff.mp (by omega)
        exact ⟨[], by rw [this]; rfl, rfl, by simp⟩
      | succ n ih =>
        intro bs hb
        rw [Nat.mul_succ] at hb
        obtain ⟨ps, q1, q2, q3⟩ := ih (bs.drop k.size) (by rw [List.length_drop]; omega)
        refine ⟨bs.take k.size :: ps, by rw [List.flatten_cons, q1, List.take_append_drop], by simp [q2], ?_⟩
        intro p hp
        rcases List.mem_cons.mp hp with rfl | hp
        · rw [List.length_take]; omega
        · exact q3 p hp
    obtain ⟨ps, q1, q2, q3⟩ := hcut (bh.sampPerTr % 65536).toNat (c.drop 240) (by rw [List.length_drop]; omega)
    exact ⟨c.take 240, ps, by rw [q1, List.take_append_drop], by rw [List.length_take]; omega, h2, q2,
      fun p hp => C91_rewrites est hw _ k hfmt bo p (q3 p hp)⟩

/-- A file with the samples -1, 256, -32768 and 32767. -/
example (f : Dbl → Int) := C91_copy_partial ⟨f, x86Conv⟩ (C91_x86 f).1 exText exBin
  [List.replicate 8 0 ++ [7, 0, 0, 0] ++ List.replicate 228 0 ++ [0xff, 0xff, 0, 1],
   List.replicate 8 0 ++ [8, 1, 0, 0x80] ++ List.replicate 228 0 ++ [0, 0x80, 0xff, 0x7f]]
  exWMap exB .le { lineNum := 5, sampPerTr := 2, formatCode := 3, endianness := 0x01020304 } .i16
  (by decide +kernel) (by decide +kernel) (.inr (by decide +kernel))
  (fun i hi hc => by
    have h : ∀ i, i < 400 → (∃ f ∈ binLayout, f.byte ≤ i + 3201 ∧ i + 3201 < f.byte + f.width ∧ f.byte < 3507) ∨
        exBin[i]? = some 0 := by decide +kernel
    rcases h i hi with ⟨f, h1, h2, h3, h4⟩ | h
    · exact absurd ⟨f, h1, h2, h3, .inl h4⟩ hc
    · exact h)
  (by decide +kernel) ⟨rfl, by decide⟩ rfl rfl rfl (exMapOk _ rfl)
  (fun f hf => by
    simp only [exB, List.mem_cons, List.not_mem_nil, or_false] at hf
    rcases hf with rfl | rfl <;> exact ⟨_, rfl⟩)
  (by decide +kernel)

/-- **C91.** Where negative numbers wrap, samples read from a signed integer format of at most four bytes are
kept by every signed integer format that is at least as wide. -/
theorem C91_kept (est : LogEst) (hw : WrapsNegative est) (a b : Int) (ka kb : IntKind) (ha : ShortIntFormat a ka)
    (hb : intFormat b = some kb) (hsa : ka.signed = true) (hsb : kb.signed = true) (hab : ka.size ≤ kb.size)
    (boA boB : ByteOrder) (bs : Bytes) (x : Dbl) (hx : SampleOf a boA bs x) : Survives est b boB x := by
  obtain ⟨ha, ha4⟩ := ha
  obtain ⟨n, hr, rfl⟩ := sampleOf_int ha hx
  have hr' : kb.InRange n := by
    unfold IntKind.InRange at hr ⊢
    rw [if_pos hsa] at hr
    rw [if_pos hsb]
    have hpos : 0 < ka.size := by cases ka <;> decide
    have : (2 : Int) ^ (8 * ka.size - 1) ≤ 2 ^ (8 * kb.size - 1) := pow_le_pow_right₀ (by norm_num) (by omega)
    omega
  have hsm : n.natAbs ≤ 2 ^ 53 := by
    unfold IntKind.InRange at hr
    cases ka <;> first
      | exact absurd ha4 (by decide)
      | (simp only [IntKind.signed, IntKind.size] at hr; norm_num at hr ⊢; omega)
  have := C91_truncates est hw b kb hb boB (dblOfInt n) n n (dblRat_ofInt hsm) (truncates_int n) hr'
  exact this

example (f : Dbl → Int) : Survives ⟨f, x86Conv⟩ 2 .le (dblOfInt (-5)) :=
  C91_kept _ (C91_x86 f).1 3 2 .i16 .i32 ⟨rfl, by decide⟩ rfl rfl rfl (by decide) .be .le [0xff, 0xfb] _
    (sampleOf_value (by decide) (by decide +kernel))

/-- **C91.** Where negative numbers wrap, traces whose samples are integers in the range of the sample format
are read back with the samples that were written, negative ones included. The other conditions are those of
C20. -/
theorem C91_roundtrip_partial (est : LogEst) (hw : WrapsNegative est) (text : Bytes) (bh : BinHeader) (m : HdrMap)
    (b : HBlock) (ts : List Trace) (k : IntKind) (hk : intFormat bh.formatCode = some k)
    (ht : text.length = 3200) (hbh : HeaderOk bh) (hm : MapOk bh m b)
    (hrev : bh.revMajor = 0) (hexts : bh.extTextHeadersNum = 0) (hext : bh.extSampPerTr = 0)
    (hts : ∀ t ∈ ts, (∀ f ∈ b.fields, ∃ v, headerInt t.header f.name v ∧
        FieldStorable est (orderOfMarker bh.endianness) f.ty v) ∧
      (t.samples.length : Int) = bh.sampPerTr % 65536 ∧
      ∀ x ∈ t.samples, x ≠ 0x8000000000000000 ∧ ∃ v : Int, dblRat x = some (v : ℚ) ∧ k.InRange v) :
    ∃ w0 w r backs, openRev0 text bh m = .ok w0 ∧ writeAll (writeTraceRev0 est) w0 ts = .ok w ∧
      openReader w.file.data none m = .ok r ∧ Visits r backs ∧
      backs.map (·.samples) = ts.map (·.samples) := by
  have hs : ∀ t ∈ ts, ∀ x ∈ t.samples, Survives est bh.formatCode (orderOfMarker bh.endianness) x := by
    intro t ht' x hx
    obtain ⟨h1, v, h2, h3⟩ := (hts t ht').2.2 x hx
    exact C91_integer_samples est hw _ k hk _ x v h2 h1 h3
  obtain ⟨w0, w, r, backs, h1, h2, h3, _, _, h6, h7⟩ := C20_roundtrip_partial est text bh m b ts ht hbh hm hrev
    hexts hext (by intro hc; rw [hc] at hk; cases hk) (fun t ht' => by
      obtain ⟨a1, a2, a3⟩ := hts t ht'
      exact ⟨⟨a1, fun x hx => ⟨x, hs t ht' x hx⟩, by omega⟩, a2⟩)
  exact ⟨w0, w, r, backs, h1, h2, h3, h7, C20_exact est _ _ _ _ _ h6 hs⟩

end Sedaman.Props
