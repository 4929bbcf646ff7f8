import Verif.Lemmas.E2E
import Verif.Props.OSEGY
import Verif.Props.Samples

/-!
# C20-C24, C28: files that are written and read back
-/

namespace Sedaman.Props

open Spec

theorem bps_exists {fmt : Int} (h : fmt ∈ supportedFormats) : ∃ n, bytesPerSample fmt = some n := by
  obtain ⟨n, _, h, -⟩ := reader_shape h
  exact ⟨n, h⟩

theorem fmt_ne {bh : BinHeader} (h : HeaderOk bh) (rev0 : Bool) : fmtOr rev0 bh = bh := by
  unfold fmtOr
  rw [if_neg]
  intro c
  have := h.format
  rw [c] at this
  exact absurd this (by decide)

theorem order_ok {bh : BinHeader} (h : HeaderOk bh) :
    byteOrderOf bh.endianness = .ok (orderOfMarker bh.endianness) := by
  rcases h.marker with e | e <;> rw [e] <;> rfl

theorem spt_fixed {bh : BinHeader} {bps : Nat} (hb : 1 ≤ bps ∧ bps ≤ 8)
    (hext : bh.extSampPerTr = 0 ∨ bh.extSampPerTr = bh.sampPerTr % 65536) :
    samplesPerTrace bh = bh.sampPerTr % 65536 ∧
    0 ≤ samplesPerTrace bh * bps ∧ samplesPerTrace bh * bps < 2 ^ 31 := by
  have h1 : samplesPerTrace bh = bh.sampPerTr % 65536 := by
    unfold samplesPerTrace
    rw [toU2_eq]
    split
    · rename_i h
      exact hext.resolve_left h
    · rfl
  refine ⟨h1, ?_⟩
  rw [h1]
  generalize hx : bh.sampPerTr % 65536 = x
  have h0 : 0 ≤ x ∧ x < 65536 := by omega
  obtain ⟨n, rfl⟩ := Int.eq_ofNat_of_zero_le h0.1
  rw [← Int.natCast_mul]
  have : n * bps ≤ n * 8 := Nat.mul_le_mul (Nat.le_refl _) hb.2
  omega

theorem spt_var {bh : BinHeader} {bps : Nat} (hb : 1 ≤ bps ∧ bps ≤ 8)
    (hext : 0 ≤ bh.extSampPerTr ∧ bh.extSampPerTr < 2 ^ 28) :
    0 ≤ samplesPerTrace bh * bps ∧ samplesPerTrace bh * bps < 2 ^ 31 := by
  have h0 : 0 ≤ samplesPerTrace bh ∧ samplesPerTrace bh < 2 ^ 28 := by
    unfold samplesPerTrace
    rw [toU2_eq]
    split <;> omega
  obtain ⟨n, hn⟩ := Int.eq_ofNat_of_zero_le h0.1
  rw [hn] at h0 ⊢
  rw [← Int.natCast_mul]
  have : n * bps ≤ n * 8 := Nat.mul_le_mul (Nat.le_refl _) hb.2
  omega

theorem visible_low {bh : BinHeader} (h : bh.revMajor ≤ 1) : (visible bh).maxNumAddTrHeaders = 0 ∧
    (visible bh).byteOffOfFirstTr = 0 ∧ (visible bh).numOfTrailerStanza = 0 := by
  unfold visible
  rw [if_neg (by omega)]
  exact ⟨rfl, rfl, rfl⟩

/-! ## Examples -/

/-- The block of `exWMap`, two traces for it and the binary header used in the examples. -/
def exB : HBlock := ⟨"SEG00000", [⟨8, "FFID", .i32⟩, ⟨114, "SAMP_NUM", .i16⟩]⟩
def exT1 : Trace := ⟨[("FFID", .int 7), ("SAMP_NUM", .int 2), ("OTHER", .dbl d1)], [d1, d2]⟩
def exT2 : Trace := ⟨[("SAMP_NUM", .int 3)], [d3, d2, d1]⟩

theorem exMapOk (bh : BinHeader) (h : bh.maxNumAddTrHeaders = 0) : MapOk bh exWMap exB := by
  refine ⟨rfl, ?_, by decide +kernel, by decide +kernel⟩
  exact C13_accepts_safe_maps bh exWMap (fun _ h' => absurd h h') (by decide +kernel)

theorem exSurvives (bo : ByteOrder) : ∀ x ∈ [d1, d2, d3], Survives (.strict fun _ => 0) 3 bo x := by
  intro x hx
  simp only [List.mem_cons, List.not_mem_nil, or_false] at hx
  rcases hx with rfl | rfl | rfl
  · exact C10_integer_samples_partial _ 3 .i16 rfl bo d1 1 (by decide +kernel) (by decide) (by decide) (by decide)
  · exact C10_integer_samples_partial _ 3 .i16 rfl bo d2 2 (by decide +kernel) (by decide) (by decide) (by decide)
  · exact C10_integer_samples_partial _ 3 .i16 rfl bo d3 3 (by decide +kernel) (by decide) (by decide) (by decide)

theorem exStorable (bo : ByteOrder) : Storable (.strict fun _ => 0) 3 bo exB.fields exT1 ∧
    Storable (.strict fun _ => 0) 3 bo exB.fields exT2 := by
  refine ⟨⟨?_, fun x hx => ⟨x, exSurvives bo x ?_⟩, by decide⟩, ⟨?_, fun x hx => ⟨x, exSurvives bo x ?_⟩, by decide⟩⟩
  · intro f hf
    simp only [exB, List.mem_cons, List.not_mem_nil, or_false] at hf
    rcases hf with rfl | rfl
    · exact ⟨7, .inl rfl, nofun⟩
    · exact ⟨2, .inl rfl, nofun⟩
  · simp only [exT1, List.mem_cons, List.not_mem_nil, or_false] at hx ⊢
    tauto
  · intro f hf
    simp only [exB, List.mem_cons, List.not_mem_nil, or_false] at hf
    rcases hf with rfl | rfl
    · exact ⟨0, .inr ⟨by decide, rfl⟩, nofun⟩
    · exact ⟨3, .inl rfl, nofun⟩
  · simp only [exT2, List.mem_cons, List.not_mem_nil, or_false] at hx ⊢
    tauto

/-! ## C20 -/

/-- **C20.** With an explicit binary header of a revision 0 file (no revision, no extended text
headers, no extended number of samples) `OSEGYRev0` accepts every sequence of storable traces of the
announced length, and `ISEGY` returns from the file the text header, the binary header and the traces
in order: `has_trace` is true before each of them and false after the last one, each has the samples
as they come back in the sample format (see `C20_exact` and what follows it) and the values of the
header. -/
theorem C20_roundtrip_partial (est : LogEst) (text : Bytes) (bh : BinHeader) (m : HdrMap) (b : HBlock)
    (ts : List Trace) (ht : text.length = 3200) (hbh : HeaderOk bh) (hm : MapOk bh m b)
    (hrev : bh.revMajor = 0) (hexts : bh.extTextHeadersNum = 0) (hext : bh.extSampPerTr = 0)
    (hexplicit : bh ≠ { formatCode := 1 })
    (hts : ∀ t ∈ ts, Storable est bh.formatCode (orderOfMarker bh.endianness) b.fields t ∧
      (t.samples.length : Int) = bh.sampPerTr % 65536) :
    ∃ w0 w r backs, openRev0 text bh m = .ok w0 ∧ writeAll (writeTraceRev0 est) w0 ts = .ok w ∧
      openReader w.file.data none m = .ok r ∧ r.texts = [text] ∧ r.bh = visible bh ∧
      List.Forall₂ (TraceBack est bh.formatCode (orderOfMarker bh.endianness) b.fields) ts backs ∧ Visits r backs := by
  obtain ⟨bps, hbps⟩ := bps_exists hbh.format
  have hb := bps_small hbps
  obtain ⟨s1, s2⟩ := spt_fixed (bh := bh) hb (.inl hext)
  obtain ⟨v1, v2, v3⟩ := visible_low (bh := bh) (by omega)
  obtain ⟨w, r, backs, h1, h2, h3, h4, h5, h6, h7, h8, -, h9, h10⟩ := roundtrip (est := est) (rev := .r0)
    (rev0 := true) (by simp) (text := text) (exts := []) (trl := []) (trl' := []) (bh := bh) (m := m) (b := b)
    (ts := ts) (bps := bps) [] hbh hm ht (by simp) (by simp) (fun _ => rfl) hbps
    (by
      unfold memHeader
      rw [if_pos rfl, fmt_ne hbh]
      exact hexplicit)
    (by simp) v1 (.inl (by rw [hexts]; rfl)) (.inl v2) s2
    (fun t ht' => by
      obtain ⟨a1, a2⟩ := hts t ht'
      refine ⟨a1, ?_, ?_⟩
      · unfold Announced
        rw [if_pos (.inl rfl)]
        exact a2
      · rw [if_pos (by unfold fixedLength; rw [hrev]; simp), s1, ← a2, ← Int.natCast_mul]
        rfl)
    (fun cs _ pre _ => by
      rw [readTrailers_none v3]
      simp only [List.append_nil])
  refine ⟨_, w, r, backs, openRev0_of hm.accepted ht (order_ok hbh) (by rw [fmt_ne hbh]; exact hbh.format)
    (by rw [fmt_ne hbh]; exact hbps), h1, ?_, h6, h7, h9, h10⟩
  rw [List.append_nil] at h5
  exact h5

/-- Two traces of two samples, little endian. -/
example := C20_roundtrip_partial (.strict fun _ => 0) exText { formatCode := 3, sampPerTr := 2, endianness := 0x01020304 } exWMap exB
  [exT1, exT1] (by decide +kernel) ⟨by decide, .inr rfl, by decide⟩ (exMapOk _ rfl) rfl rfl rfl (by decide)
  (fun t ht => by
    simp only [List.mem_cons, List.not_mem_nil, or_false, or_self] at ht
    subst ht
    exact ⟨(exStorable _).1, rfl⟩)

/-- **C20.** Traces whose samples keep their value in the sample format come back with exactly the
samples that were written. (Also for C21, C22 and C28.) -/
theorem C20_exact (est : LogEst) (fmt : Int) (bo : ByteOrder) (fields : List HField) (ts backs : List Trace)
    (h : List.Forall₂ (TraceBack est fmt bo fields) ts backs)
    (hs : ∀ t ∈ ts, ∀ x ∈ t.samples, Survives est fmt bo x) : backs.map (·.samples) = ts.map (·.samples) := by
  induction h with
  | nil => rfl
  | cons a _ ih =>
    rw [List.map_cons, List.map_cons, samples_same a.1 (hs _ List.mem_cons_self),
      ih fun t ht => hs t (List.mem_cons_of_mem _ ht)]

example := C20_exact (.strict fun _ => 0) 3 .be [] [⟨[], [d1, d2]⟩, ⟨[], [d3]⟩] [⟨[], [d1, d2]⟩, ⟨[], [d3]⟩]
  (.cons ⟨.cons (exSurvives .be d1 (by decide)) (.cons (exSurvives .be d2 (by decide)) .nil), by
      simp [HeaderBack, Header.keys]⟩
    (.cons ⟨.cons (exSurvives .be d3 (by decide)) .nil, by simp [HeaderBack, Header.keys]⟩ .nil))
  (fun t ht x hx => exSurvives .be x (by
    simp only [List.mem_cons, List.not_mem_nil, or_false] at ht ⊢
    rcases ht with rfl | rfl <;> simp only [List.mem_cons, List.not_mem_nil, or_false] at hx <;> tauto))

/-- **C20.** What a sample comes back as is determined by the sample. -/
theorem C20_comes_unique (est : LogEst) (fmt : Int) (bo : ByteOrder) (x y z : Dbl)
    (h : ComesBack est fmt bo x y) (h' : ComesBack est fmt bo x z) : y = z := comes_unique h h'

/-- **C20.** In format 6 every sample survives. -/
theorem C20_double (est : LogEst) (bo : ByteOrder) (x : Dbl) : Survives est 6 bo x := C11_double_exact est bo x

/-- **C20.** In format 5 every sample comes back; one with a finite value in the range of the format
comes back as the nearest single. -/
theorem C20_single (est : LogEst) (bo : ByteOrder) (d : Dbl) :
    (∃ y, ComesBack est 5 bo d y) ∧
    ∀ x, dblRat d = some x → |x| < (2 ^ 24 - 1 / 2) * 2 ^ 104 →
      ∃ s : Sgl, ∃ v : ℚ, ComesBack est 5 bo d (sglToDbl s) ∧ dblRat (sglToDbl s) = some v ∧ sglRat s = some v ∧
        ∀ (y : Sgl) (u : ℚ), sglRat y = some u →
          |x - v| ≤ |x - u| ∧ (|x - v| = |x - u| → u ≠ v → s.toNat % 2 = 0) := by
  refine ⟨comes_of_write (by decide) rfl rfl, fun x hx hr => ?_⟩
  obtain ⟨w, r, bs, s, v, h1, h2, h3, h4, h5, h6, h7⟩ := C11_single_nearest est bo d x hx hr
  exact ⟨s, v, ⟨w, r, bs, h1, h2, h3, h4⟩, h6, h5, h7⟩

/-- 0.1 in format 5 -/
example : ComesBack (.strict fun _ => 0) 5 .be 0x3FB999999999999A 0x3FB99999A0000000 := by
  refine ⟨_, _, _, rfl, rfl, rfl, fun rest => ?_⟩
  rw [ieee_float_rt]
  have : sglToDbl (dblToSgl 0x3FB999999999999A) = 0x3FB99999A0000000 := by decide +kernel
  rw [this]

/-- **C20 (part).** In format 1, when the logarithm estimate is exact and in the range of the format,
a sample that is not zero comes back truncated, less than one unit of the last of its 24 bits off. -/
theorem C20_ibm_partial (est : LogEst) (bo : ByteOrder) (d : Dbl) (x : ℚ) (hd : dblRat d = some x) (h0 : x ≠ 0)
    (hest : IbmExponent x (est (dblAbs d))) (ht0 : 0 ≤ est (dblAbs d)) (ht1 : est (dblAbs d) ≤ 127) :
    ∃ y v, ComesBack est 1 bo d y ∧ dblRat y = some v ∧ |v| ≤ |x| ∧
      |x - v| < (16 : ℚ) ^ (est (dblAbs d) - 70) := by
  obtain ⟨w, h1, h2, h3, h4, h5⟩ := C12_error_below_one_unit_partial est d x hd h0 hest ht0 ht1
  have hl : (writeU32 bo w).length = 4 := by rw [writeU32_eq]; simp
  obtain ⟨r, y, g1, g2, g3⟩ := C12_decode_value bo (writeU32 bo w) [] hl
  have hdec : decNat bo (writeU32 bo w) = w := by
    rw [writeU32_eq, decNat_encInt, toU_of_nat_lt (by simpa using h2)]
  rw [hdec] at g3
  refine ⟨y, ibmValue w, ⟨_, r, writeU32 bo w, rfl, g1, ?_, fun rest => ?_⟩, g3, h4, h5⟩
  · show writeIbm est bo d = _
    unfold writeIbm
    rw [h1]
    rfl
  · obtain ⟨r', y', k1, k2, k3⟩ := C12_decode_value bo (writeU32 bo w) rest hl
    have e := Except.ok.inj g1
    subst e
    have e := Except.ok.inj k1
    subst e
    rw [k2]
    simp only [readIbm, readU32_eq] at g2 k2
    rw [rd_map_nat, if_pos (by simp [hl]), List.take_left' hl] at g2 k2
    have a := Except.ok.inj g2
    have b := Except.ok.inj k2
    simp only [Prod.mk.injEq] at a b
    rw [← a.1, ← b.1]

/-- 5 in format 1 with the exponent field 65 -/
theorem exIbm5 (bo : ByteOrder) : ∃ y v, ComesBack (.strict fun _ => 65) 1 bo (dblOfInt 5) y ∧ dblRat y = some v ∧
    |v| ≤ |(5 : ℚ)| ∧ |(5 : ℚ) - v| < (16 : ℚ) ^ ((65 : Int) - 70) :=
  C20_ibm_partial (.strict fun _ => 65) bo (dblOfInt 5) 5 (dblRat_ofInt (by decide)) (by norm_num)
    ⟨by norm_num [LogEst.strict], by norm_num [LogEst.strict]⟩ (by decide) (by decide)

/-- A block with an IBM and a single precision field and a trace with a sample that format 5 rounds. -/
def exFB : HBlock := ⟨"SEG00000", [⟨8, "FFID", .i32⟩, ⟨120, "GAIN", .ibm⟩, ⟨124, "SHIFT", .ieeeSingle⟩]⟩
def exFT : Trace := ⟨[("FFID", .int 7), ("GAIN", .int 5)], [0x3FB999999999999A, d1]⟩

example := C20_roundtrip_partial (.strict fun _ => 65) exText { formatCode := 5, sampPerTr := 2 } [exFB] exFB
  [exFT, exFT] (by decide +kernel) ⟨by decide, .inl rfl, by decide⟩
  ⟨rfl, C13_accepts_safe_maps _ [exFB] (by decide) (by decide +kernel), by decide +kernel, by decide +kernel⟩
  rfl rfl rfl (by decide)
  (fun t ht => by
    simp only [List.mem_cons, List.not_mem_nil, or_false, or_self] at ht
    subst ht
    refine ⟨⟨?_, fun x _ => (C20_single _ _ x).1, by decide⟩, rfl⟩
    intro f hf
    simp only [exFB, List.mem_cons, List.not_mem_nil, or_false] at hf
    rcases hf with rfl | rfl | rfl
    · exact ⟨7, .inl rfl, nofun⟩
    · obtain ⟨y, -, h, -⟩ := exIbm5 (orderOfMarker 0)
      exact ⟨5, .inl rfl, fun _ => ⟨y, h⟩⟩
    · exact ⟨0, .inr ⟨by decide, rfl⟩, nofun⟩)

/-- **C20 (part).** In an integer format a sample of which the integer part is not negative and in the
range of the format comes back truncated to that integer. (Negative samples: `C10_negative_undefined`.) -/
theorem C20_integer_partial (est : LogEst) (fmt : Int) (k : IntKind) (hk : intFormat fmt = some k)
    (bo : ByteOrder) (d : Dbl) (x : ℚ) (n : Nat) (hd : dblRat d = some x) (hx : 0 ≤ x) (hn : Truncates x n)
    (hr : k.InRange n) : ComesBack est fmt bo d (dblOfInt n) := by
  have hlt : n < 256 ^ paramSize k := by
    unfold IntKind.InRange at hr
    have h2 : (n : Int) < (2 : Int) ^ (8 * k.size) := by
      cases k <;> simp only [IntKind.signed, IntKind.size] at hr ⊢ <;> norm_num at hr ⊢ <;> omega
    have h3 : (2 : Int) ^ (8 * k.size) ≤ ((256 ^ paramSize k : Nat) : Int) := by
      cases k <;> decide
    exact_mod_cast lt_of_lt_of_le h2 h3
  have hu : dblToU (paramSize k) d = .ok (n : Int) := by
    unfold dblRat ratOf at hd
    split at hd
    · rename_i s m e hv
      simp only [Option.some.injEq] at hd
      have ht : d.val.trunc = some (n : Int) := by
        rw [hv]
        obtain ⟨a, h3, h4, h5⟩ := trunc_fin s m e
        rw [h3]
        have hpos : (0 : ℚ) ≤ (m : ℚ) * 2 ^ e := by positivity
        obtain ⟨t1, t2⟩ := hn.1 hx
        push_cast at t1 t2
        cases s
        · simp only [Bool.false_eq_true, if_false, one_mul] at hd ⊢
          rw [hd] at h4 h5
          have q1 : (a : ℚ) < ((n + 1 : Nat) : ℚ) := by push_cast; linarith
          have q2 : (n : ℚ) < ((a + 1 : Nat) : ℚ) := by push_cast; linarith
          have q1 : a < n + 1 := by exact_mod_cast q1
          have q2 : n < a + 1 := by exact_mod_cast q2
          rw [show a = n by omega]
        · simp only [if_true] at hd ⊢
          have hz : (m : ℚ) * 2 ^ e = 0 := by linarith
          rw [hz] at h4 h5
          have q1 : (a : ℚ) < ((1 : Nat) : ℚ) := by push_cast; linarith
          have q2 : (n : ℚ) < ((1 : Nat) : ℚ) := by push_cast; linarith
          have q1 : a < 1 := by exact_mod_cast q1
          have q2 : n < 1 := by exact_mod_cast q2
          rw [show a = 0 by omega, show n = 0 by omega]
          rfl
      unfold dblToU dblToInt
      rw [ht]
      have : (n : Int) < ((256 ^ paramSize k : Nat) : Int) := by exact_mod_cast hlt
      simp only
      rw [if_pos (by omega)]
    · cases hd
  refine ⟨_, _, k.write bo (n : Int), sampleWriter_int est hk, sampleReader_int hk, ?_, ?_⟩
  · simp only [LogEst.toU_ok hu, ok_bind]
    rfl
  · intro rest
    rw [rd_bind, C04_roundtrip bo k (n : Int) hr rest]
    rfl

/-- 2.5 in format 3 -/
example : ComesBack (.strict fun _ => 0) 3 .be 0x4004000000000000 (dblOfInt 2) :=
  C20_integer_partial _ 3 .i16 rfl .be _ (5 / 2) 2 (by decide +kernel) (by norm_num)
    ⟨by norm_num, by norm_num⟩ (by decide)

/-! ## C21 -/

private theorem rev12 (est : LogEst) (rev : Rev) (hr : rev ≠ .r0) (text : Bytes) (exts trl trl' : List Bytes)
    (bh : BinHeader) (m : HdrMap) (b : HBlock) (ts : List Trace) (bps : Nat) (tail : Bytes)
    (hl : ∀ x ∈ text :: exts, x.length = 3200)
    (hn : exts.length < 65536) (hbh : HeaderOk bh) (hm : MapOk bh m b) (hrev : 1 ≤ bh.revMajor)
    (hdecl : TextsDeclared bh exts) (hext : ExtendedOk bh)
    (hmax : (visible bh).maxNumAddTrHeaders = 0) (hmax2 : rev = .r2 → bh.maxNumAddTrHeaders = 0)
    (hbps : bytesPerSample bh.formatCode = some bps)
    (hoff : (visible bh).byteOffOfFirstTr = 0 ∨
      (visible bh).byteOffOfFirstTr = ((3600 + 3200 * exts.length : Nat) : Int))
    (hts : ∀ t ∈ ts, Storable est bh.formatCode (orderOfMarker bh.endianness) b.fields t ∧
      LengthKnown bh b.fields t)
    (htr : ∀ cs, List.Forall₂ (Chunk est (orderOfMarker bh.endianness) bh.formatCode b.fields) ts cs →
      ∀ pre : Bytes, pre.length = 3600 + 3200 * exts.length →
      readTrailers (orderOfMarker bh.endianness) (visible bh) (samplesPerTrace (visible bh)) bps
        ⟨pre ++ (cs.flatten ++ tail), pre.length⟩ = .ok (trl', (pre ++ cs.flatten).length)) :
    ∃ w r backs, writeAll (rev.write est)
        (openedWriter false text exts trl bh m (orderOfMarker bh.endianness) bps) ts = .ok w ∧
      w.bh = memHeader false (exts.length + 1) bh ∧ w.trailers = trl ∧ WInv w ∧
      openReader (w.file.data ++ tail) none m = .ok r ∧ r.texts = text :: exts ∧ r.bh = visible bh ∧
      r.trailers = trl' ∧ r.endData = w.file.data.length ∧ List.Forall₂ (TraceBack est bh.formatCode (orderOfMarker bh.endianness) b.fields) ts backs ∧ Visits r backs := by
  have hb := bps_small hbps
  have hfl : fixedLength bh = decide (bh.fixedTrLength ≠ 0) := by
    unfold fixedLength
    have : decide (bh.revMajor = 0) = false := decide_eq_false (by omega)
    rw [this, Bool.or_false]
  unfold ExtendedOk at hext
  refine roundtrip (rev0 := false) (by simpa using hr) tail hbh hm (hl text List.mem_cons_self)
    (fun x hx => hl x (List.mem_cons_of_mem _ hx)) hn (by simp) hbps ?_ hmax2 hmax hdecl hoff ?_ ?_ htr
  · unfold memHeader
    rw [if_neg (by simp), fmt_ne hbh]
    intro c
    have := congrArg BinHeader.revMajor c
    simp only at this
    omega
  · by_cases hf : bh.fixedTrLength ≠ 0
    · rw [if_pos hf] at hext
      exact (spt_fixed hb hext).2
    · rw [if_neg hf] at hext
      exact spt_var hb hext
  · intro t ht
    obtain ⟨a1, a2⟩ := hts t ht
    refine ⟨a1, ?_, ?_⟩
    · unfold Announced
      unfold LengthKnown at a2
      by_cases hf : bh.fixedTrLength ≠ 0
      · rw [if_pos hf] at a2
        rw [if_pos (.inr hf)]
        exact a2
      · rw [if_neg hf] at a2
        rw [if_neg (fun c => c.elim hr hf)]
        exact a2.1
    · rw [hfl]
      unfold LengthKnown at a2
      by_cases hf : bh.fixedTrLength ≠ 0
      · rw [if_pos hf] at a2 hext
        rw [if_pos (decide_eq_true hf), (spt_fixed (bh := bh) hb hext).1, ← a2, ← Int.natCast_mul]
        rfl
      · rw [if_neg hf] at a2
        rw [if_neg (by simpa using hf)]
        unfold LengthKnown
        rw [if_neg (by simp)]
        exact a2

/-- **C21.** The same for `OSEGYRev1`: fixed length files and files of traces of any different
lengths, with extended text headers that the binary header declares. -/
theorem C21_roundtrip_partial (est : LogEst) (text : Bytes) (exts : List Bytes) (bh : BinHeader) (m : HdrMap)
    (b : HBlock) (ts : List Trace) (hl : ∀ x ∈ text :: exts, x.length = 3200)
    (hn : exts.length < 65536) (hbh : HeaderOk bh) (hm : MapOk bh m b) (hrev : bh.revMajor = 1)
    (hdecl : TextsDeclared bh exts) (hext : ExtendedOk bh)
    (hts : ∀ t ∈ ts, Storable est bh.formatCode (orderOfMarker bh.endianness) b.fields t ∧
      LengthKnown bh b.fields t) :
    ∃ w0 w r backs, openRev1 (text :: exts) bh m = .ok w0 ∧ writeAll (writeTraceRev1 est) w0 ts = .ok w ∧
      openReader w.file.data none m = .ok r ∧ r.texts = text :: exts ∧ r.bh = visible bh ∧
      List.Forall₂ (TraceBack est bh.formatCode (orderOfMarker bh.endianness) b.fields) ts backs ∧ Visits r backs := by
  obtain ⟨bps, hbps⟩ := bps_exists hbh.format
  obtain ⟨v1, v2, v3⟩ := visible_low (bh := bh) (by omega)
  obtain ⟨w, r, backs, h1, -, -, -, h5, h6, h7, h8, -, h9, h10⟩ := rev12 est .r1 (by simp) text exts [] [] bh m b
    ts bps [] hl hn hbh hm (by omega) hdecl hext v1 (by simp) hbps (.inl v2) hts
    (fun cs _ pre _ => by
      rw [readTrailers_none v3]
      simp only [List.append_nil])
  rw [List.append_nil] at h5
  exact ⟨_, w, r, backs, openRev1_of hm.accepted hl (order_ok hbh) (by rw [fmt_ne hbh]; exact hbh.format)
    (by rw [fmt_ne hbh]; exact hbps), h1, h5, h6, h7, h9, h10⟩

/-- Traces of two and three samples and one extended text header. -/
example := C21_roundtrip_partial (.strict fun _ => 0) exText [exText] { formatCode := 3, revMajor := 1, extTextHeadersNum := 1 }
  exWMap exB [exT1, exT2] (by decide +kernel) (by decide) ⟨by decide, .inl rfl, by decide⟩ (exMapOk _ rfl) rfl
  (.inl rfl) (by unfold ExtendedOk; decide)
  (fun t ht => by
    simp only [List.mem_cons, List.not_mem_nil, or_false] at ht
    rcases ht with rfl | rfl
    · exact ⟨(exStorable _).1, rfl, _, .tail _ (.head _), rfl, _, rfl, by decide⟩
    · exact ⟨(exStorable _).2, rfl, _, .tail _ (.head _), rfl, _, rfl, by decide⟩)

/-- **C20 and C21 fail for the third accepted marker.** A file written with marker `0x04030201` cannot
be opened again: the reader takes the marker for the little endian one, so the sample format makes no
sense. -/
theorem C20_swapped_marker_fails : (do
      let w ← openRev0 exText { formatCode := 3, endianness := 0x04030201, sampPerTr := 2 } exWMap
      let w ← writeTraceRev0 (.strict fun _ => 0) w exT1
      openReader w.file.data none exWMap) = throwExn .unsupportedFormat := by decide +kernel

theorem C21_swapped_marker_fails : (do
      let w ← openRev1 [exText] { formatCode := 3, endianness := 0x04030201, revMajor := 1 } exWMap
      let w ← writeTraceRev1 (.strict fun _ => 0) w exT1
      openReader w.file.data none exWMap) = throwExn .unsupportedFormat := by decide +kernel

/-! ## C22 -/

private theorem close_none {w : Writer} (h : w.bh.numOfTrailerStanza = 0) :
    closeRev2 w = .ok w.file.data := by
  unfold closeRev2
  rw [seekEnd_zero, ok_bind, if_neg (by rw [h]; simp)]
  rfl

/-- **C22.** The same for `OSEGYRev2` without additional trace headers and without trailer stanzas:
the reader reports all 44 members of the binary header, also those that exist in revision 2 only. The
offset of the first trace is left out or right. -/
theorem C22_roundtrip_partial (est : LogEst) (text : Bytes) (exts : List Bytes) (bh : BinHeader) (m : HdrMap)
    (b : HBlock) (ts : List Trace) (hl : ∀ x ∈ text :: exts, x.length = 3200)
    (hn : exts.length < 65536) (hbh : HeaderOk bh) (hm : MapOk bh m b) (hrev : 2 ≤ bh.revMajor)
    (hdecl : TextsDeclared bh exts) (hext : ExtendedOk bh)
    (hadd : bh.maxNumAddTrHeaders = 0) (hstz : bh.numOfTrailerStanza = 0)
    (hoff : bh.byteOffOfFirstTr = 0 ∨ bh.byteOffOfFirstTr = 3600 + 3200 * exts.length)
    (hts : ∀ t ∈ ts, Storable est bh.formatCode (orderOfMarker bh.endianness) b.fields t ∧
      LengthKnown bh b.fields t) :
    ∃ w0 w data r backs, openRev2 (text :: exts) bh [] m = .ok w0 ∧
      writeAll (writeTraceRev2 est) w0 ts = .ok w ∧ closeRev2 w = .ok data ∧
      openReader data none m = .ok r ∧ r.texts = text :: exts ∧ r.bh = bh ∧ r.trailers = [] ∧
      List.Forall₂ (TraceBack est bh.formatCode (orderOfMarker bh.endianness) b.fields) ts backs ∧ Visits r backs := by
  obtain ⟨bps, hbps⟩ := bps_exists hbh.format
  have hv : visible bh = bh := by
    unfold visible
    rw [if_pos (by omega)]
  obtain ⟨w, r, backs, h1, h2, -, -, h5, h6, h7, h8, -, h9, h10⟩ := rev12 est .r2 (by simp) text exts [] [] bh m b
    ts bps [] hl hn hbh hm (by omega) hdecl hext (by rw [hv, hadd]) (fun _ => hadd) hbps
    (by rw [hv]; exact hoff.imp id (fun h => by rw [h]; rfl)) hts
    (fun cs _ pre _ => by
      rw [readTrailers_none (by rw [hv, hstz])]
      simp only [List.append_nil])
  rw [List.append_nil] at h5
  rw [hv] at h7
  refine ⟨_, w, _, r, backs, openRev2_of hm.accepted hl (by simp) (order_ok hbh)
    (by rw [fmt_ne hbh]; exact hbh.format) (by rw [fmt_ne hbh]; exact hbps), h1, close_none ?_, h5, h6, h7, h8,
    h9, h10⟩
  rw [h2]
  unfold memHeader
  rw [if_neg (by simp), fmt_ne hbh]
  exact hstz

example := C22_roundtrip_partial (.strict fun _ => 0) exText [exText]
  { formatCode := 3, revMajor := 2, extTextHeadersNum := 1, byteOffOfFirstTr := 6800, numOfTrInFile := 2 }
  exWMap exB [exT1, exT2] (by decide +kernel) (by decide) ⟨by decide, .inl rfl, by decide⟩ (exMapOk _ rfl)
  (by decide) (.inl rfl) (by unfold ExtendedOk; decide) rfl rfl (.inr rfl)
  (fun t ht => by
    simp only [List.mem_cons, List.not_mem_nil, or_false] at ht
    rcases ht with rfl | rfl
    · exact ⟨(exStorable _).1, rfl, _, .tail _ (.head _), rfl, _, rfl, by decide⟩
    · exact ⟨(exStorable _).2, rfl, _, .tail _ (.head _), rfl, _, rfl, by decide⟩)

theorem C22_swapped_marker_fails : (do
      let w ← openRev2 [exText] { formatCode := 3, endianness := 0x04030201, revMajor := 2 } [] exWMap
      let w ← writeTraceRev2 (.strict fun _ => 0) w exT1
      openReader w.file.data none exWMap) = throwExn .unsupportedFormat := by decide +kernel

/-! ## C23 -/

/-- C23 with the bytes of the file. -/
theorem delimited (est : LogEst) (text : Bytes) (exts init : List Bytes) (last : Bytes)
    (bh : BinHeader) (m : HdrMap) (b : HBlock) (ts : List Trace)
    (hl : ∀ x ∈ text :: exts, x.length = 3200) (hn : exts.length < 65536)
    (htl : ∀ x ∈ init ++ [last], x.length = 3200) (hinit : ∀ x ∈ init, isEndText x = false)
    (hlast : isEndText last = true)
    (hbh : HeaderOk bh) (hm : MapOk bh m b) (hrev : 2 ≤ bh.revMajor)
    (hdecl : TextsDeclared bh exts) (hext : ExtendedOk bh) (hvar : bh.fixedTrLength = 0)
    (hadd : bh.maxNumAddTrHeaders = 0) (hstz : bh.numOfTrailerStanza = -1)
    (hnum : bh.numOfTrInFile = ts.length) (hne : ts ≠ [])
    (hoff : bh.byteOffOfFirstTr = 0 ∨ bh.byteOffOfFirstTr = 3600 + 3200 * exts.length)
    (hfield : ⟨114, "SAMP_NUM", .i16⟩ ∈ b.fields)
    (hts : ∀ t ∈ ts, Storable est bh.formatCode (orderOfMarker bh.endianness) b.fields t ∧
      t.header.get "SAMP_NUM" = some (.int t.samples.length) ∧ t.samples.length < 32768) :
    ∃ w0 w data r backs, openRev2 (text :: exts) bh (init ++ [last]) m = .ok w0 ∧
      writeAll (writeTraceRev2 est) w0 ts = .ok w ∧ closeRev2 w = .ok data ∧
      openReader data none m = .ok r ∧ r.texts = text :: exts ∧ r.bh = bh ∧
      r.trailers = init ++ [last] ∧ data = w.file.data ++ (init ++ [last]).flatten ∧
      r.endData = w.file.data.length ∧
      List.Forall₂ (TraceBack est bh.formatCode (orderOfMarker bh.endianness) b.fields) ts backs ∧ Visits r backs := by
  obtain ⟨bps, hbps⟩ := bps_exists hbh.format
  have hv : visible bh = bh := by
    unfold visible
    rw [if_pos (by omega)]
  have hlen : 0 < ts.length := List.length_pos_iff.2 hne
  obtain ⟨w, r, backs, h1, h2, h3, h4, h5, h6, h7, h8, h11, h9, h10⟩ := rev12 est .r2 (by simp) text exts
    (init ++ [last]) (init ++ [last]) bh m b
    ts bps (init ++ [last]).flatten hl hn hbh hm (by omega) hdecl hext (by rw [hv, hadd]) (fun _ => hadd) hbps
    (by rw [hv]; exact hoff.imp id (fun h => by rw [h]; rfl))
    (fun t ht => by
      obtain ⟨a1, a2, a3⟩ := hts t ht
      refine ⟨a1, ?_⟩
      unfold LengthKnown
      rw [if_neg (by rw [hvar]; simp)]
      refine ⟨a2, _, hfield, rfl, .i16, rfl, ?_⟩
      rw [if_neg (by decide)]
      exact i16_range a3)
    (fun cs hcs pre hpre => by
      rw [hv]
      unfold readTrailers
      rw [if_pos hstz, hnum, if_neg (by omega), if_neg (by rw [hvar]; simp), hadd,
        show ((ts.length : Int)).toNat = ts.length by simp,
        skip_chunks hcs hm.safe hfield (fun t ht => (hts t ht).2) hbps, ok_bind]
      have hu := readUntilEnd_of init last (fun x hx => htl x (by simp [hx])) hinit (htl last (by simp)) hlast
        (pre ++ cs.flatten) []
        (File.records ⟨pre ++ (cs.flatten ++ (init ++ [last]).flatten), (pre ++ cs.flatten).length⟩) (by
          unfold File.records
          have := flatten_length_const 3200 htl
          simp only [List.length_append, List.length_singleton, textHeaderSize] at this ⊢
          omega)
      rw [List.append_nil, List.append_assoc] at hu
      rw [hu, ok_bind]
      rfl)
  have htr : closeRev2 w = .ok (w.file.data ++ (init ++ [last]).flatten) := by
    unfold closeRev2
    have hk : w.bh.numOfTrailerStanza = -1 := by
      rw [h2]
      unfold memHeader
      rw [if_neg (by simp), fmt_ne hbh]
      exact hstz
    rw [seekEnd_zero, ok_bind, if_pos (by rw [hk]; decide), h3,
      writeTexts_of (fun t ht => by rw [htl t ht]) rfl, ok_bind, textBytes_exact htl]
    rfl
  rw [hv] at h7
  exact ⟨_, w, _, r, backs, openRev2_of hm.accepted hl htl (order_ok hbh)
    (by rw [fmt_ne hbh]; exact hbh.format) (by rw [fmt_ne hbh]; exact hbps), h1, htr, h5, h6, h7, h8, rfl,
    h11, h9, h10⟩

/-- **C23**, the case that works: traces of variable length with the number of samples at its standard
place, the number of traces in the binary header, the number of stanzas given as -1 and the last
stanza, and no other, being the end stanza. The reader reports the stanzas, and the traces end before
them. -/
theorem C23_delimited_partial (est : LogEst) (text : Bytes) (exts init : List Bytes) (last : Bytes)
    (bh : BinHeader) (m : HdrMap) (b : HBlock) (ts : List Trace)
    (hl : ∀ x ∈ text :: exts, x.length = 3200) (hn : exts.length < 65536)
    (htl : ∀ x ∈ init ++ [last], x.length = 3200) (hinit : ∀ x ∈ init, isEndText x = false)
    (hlast : isEndText last = true)
    (hbh : HeaderOk bh) (hm : MapOk bh m b) (hrev : 2 ≤ bh.revMajor)
    (hdecl : TextsDeclared bh exts) (hext : ExtendedOk bh) (hvar : bh.fixedTrLength = 0)
    (hadd : bh.maxNumAddTrHeaders = 0) (hstz : bh.numOfTrailerStanza = -1)
    (hnum : bh.numOfTrInFile = ts.length) (hne : ts ≠ [])
    (hoff : bh.byteOffOfFirstTr = 0 ∨ bh.byteOffOfFirstTr = 3600 + 3200 * exts.length)
    (hfield : ⟨114, "SAMP_NUM", .i16⟩ ∈ b.fields)
    (hts : ∀ t ∈ ts, Storable est bh.formatCode (orderOfMarker bh.endianness) b.fields t ∧
      t.header.get "SAMP_NUM" = some (.int t.samples.length) ∧ t.samples.length < 32768) :
    ∃ w0 w data r backs, openRev2 (text :: exts) bh (init ++ [last]) m = .ok w0 ∧
      writeAll (writeTraceRev2 est) w0 ts = .ok w ∧ closeRev2 w = .ok data ∧
      openReader data none m = .ok r ∧ r.texts = text :: exts ∧ r.bh = bh ∧
      r.trailers = init ++ [last] ∧
      List.Forall₂ (TraceBack est bh.formatCode (orderOfMarker bh.endianness) b.fields) ts backs ∧ Visits r backs := by
  obtain ⟨w0, w, data, r, backs, h1, h2, h3, h4, h5, h6, h7, -, -, h8⟩ := delimited est text exts init last bh m b ts
    hl hn htl hinit hlast hbh hm hrev hdecl hext hvar hadd hstz hnum hne hoff hfield hts
  exact ⟨w0, w, data, r, backs, h1, h2, h3, h4, h5, h6, h7, h8⟩

/-- An end stanza. -/
def exEnd : Bytes := endText ++ List.replicate (3200 - endText.length) 0x40

example := C23_delimited_partial (.strict fun _ => 0) exText [] [exText] exEnd
  { formatCode := 3, revMajor := 2, numOfTrailerStanza := -1, numOfTrInFile := 2 }
  exWMap exB [exT1, exT2] (by decide +kernel) (by decide) (by decide +kernel) (by decide +kernel) (by decide +kernel)
  ⟨by decide, .inl rfl, by decide⟩ (exMapOk _ rfl)
  (by decide) (.inl rfl) (by unfold ExtendedOk; decide) rfl rfl rfl rfl (by simp) (.inl rfl) (by decide)
  (fun t ht => by
    simp only [List.mem_cons, List.not_mem_nil, or_false] at ht
    rcases ht with rfl | rfl
    · exact ⟨(exStorable _).1, rfl, by decide⟩
    · exact ⟨(exStorable _).2, rfl, by decide⟩)

/-- **C23 fails for a counted number of stanzas.** No file whose binary header announces a positive
number of trailer stanzas can be opened: the reader moves beyond the end of the file instead of
before it. -/
theorem C23_counted_never_opens (data : Bytes) (ub : Option BinHeader) (m : HdrMap) (r : Reader)
    (h : openReader data ub m = .ok r) : r.bh.numOfTrailerStanza ≤ 0 := by
  by_contra hc
  unfold openReader at h
  obtain ⟨_, -, h⟩ := bind_ok h
  obtain ⟨⟨text, f⟩, -, h⟩ := bind_ok h
  obtain ⟨⟨bin, f2⟩, -, h⟩ := bind_ok h
  obtain ⟨⟨bo, bh⟩, -, h⟩ := bind_ok h
  obtain ⟨_, -, h⟩ := bind_ok h
  split at h
  · cases h
  · obtain ⟨⟨exts, f3⟩, -, h⟩ := bind_ok h
    obtain ⟨f4, -, h⟩ := bind_ok h
    obtain ⟨⟨trl, ed⟩, ht, h⟩ := bind_ok h
    obtain ⟨f5, -, h⟩ := bind_ok h
    obtain ⟨size, -, h⟩ := bind_ok h
    obtain ⟨buf, -, h⟩ := bind_ok h
    have hr := Except.ok.inj h
    have hk : 0 < bh.numOfTrailerStanza := by
      rw [← hr] at hc
      simp only at hc
      omega
    unfold readTrailers at ht
    rw [if_neg (by omega)] at ht
    obtain ⟨off, h1, ht⟩ := bind_ok ht
    obtain ⟨f6, h2, ht⟩ := bind_ok ht
    obtain ⟨⟨recs, f7⟩, h3, -⟩ := bind_ok ht
    unfold mulInt32 at h1
    split at h1
    · have hoff := Except.ok.inj h1
      unfold File.seekEnd at h2
      obtain ⟨h4, rfl⟩ := seek_ok h2
      have : loopCount bh.numOfTrailerStanza ⟨f4.data, ((f4.data.length : Int) + off).toNat⟩ =
          bh.numOfTrailerStanza.toNat := by
        unfold loopCount
        rw [if_neg (by omega)]
      rw [this] at h3
      obtain ⟨k, hk'⟩ : ∃ k, bh.numOfTrailerStanza.toNat = k + 1 := ⟨bh.numOfTrailerStanza.toNat - 1, by omega⟩
      rw [hk'] at h3
      unfold readRecords at h3
      obtain ⟨⟨rec, f8⟩, h5, -⟩ := bind_ok h3
      unfold File.read at h5
      simp only at h5
      split at h5
      · rename_i hl
        rw [List.length_take, List.length_drop] at hl
        simp only [textHeaderSize] at hl hoff
        omega
      · cases h5
    · cases h1

/-- A file with one stanza written by the library, which the library cannot open. -/
theorem C23_counted_example : (do
      let bh : BinHeader := { formatCode := 3, revMajor := 2, numOfTrailerStanza := 1, numOfTrInFile := 1 }
      let w ← openRev2 [exText] bh [exEnd] exWMap
      let w ← writeTraceRev2 (.strict fun _ => 0) w exT1
      let data ← closeRev2 w
      openReader data none exWMap) = throwExn .iosFailure := by decide +kernel

/-- **C23 fails for fixed length files.** With -1 stanzas and fixed length traces the reader forgets
the 240 bytes of each trace header when it looks for the stanzas. -/
theorem C23_fixed_fails : (do
      let bh : BinHeader := { formatCode := 3, revMajor := 2, numOfTrailerStanza := -1, numOfTrInFile := 1,
                              fixedTrLength := 1, sampPerTr := 2 }
      let w ← openRev2 [exText] bh [exEnd] exWMap
      let w ← writeTraceRev2 (.strict fun _ => 0) w exT1
      let data ← closeRev2 w
      openReader data none exWMap) = throwExn .iosFailure := by decide +kernel

/-- **C23 fails when the number is not declared.** Stanzas given to a writer whose binary header says
0 are not written. -/
theorem C23_undeclared_dropped (w : Writer) (h : w.bh.numOfTrailerStanza = 0) :
    closeRev2 w = .ok w.file.data := close_none h

example : (do
      let w ← openRev2 [exText] { formatCode := 3, revMajor := 2 } [exEnd] exWMap
      pure (w.bh.numOfTrailerStanza, w.trailers.length)) = (Except.ok (0, 1) : Out (Int × Nat)) := by
  decide +kernel

/-! ## C24 -/

/-- **C24 fails.** What the writer stores: with `k` additional trace headers announced (`k` at least
1) a trace takes `k` blocks of 240 bytes altogether, that is `k - 1` additional ones. -/
theorem C24_writer_blocks (est : LogEst) (w0 w w' : Writer) (ts : List Trace) (t : Trace) (k : Nat)
    (ho : Opens .r2 w0) (hk : w0.bh.maxNumAddTrHeaders = k) (h1 : 1 ≤ k)
    (hw : Written (Rev.r2.write est) w0 ts w) (h : writeTraceRev2 est w t = .ok w') :
    ∃ n size, Announced .r2 w'.bh t n ∧ bytesPerSample w0.bh.formatCode = some size ∧
      w'.file.data.length = w.file.data.length + 240 * k + n * size := by
  obtain ⟨i1, i2, i3, i4, i5, i6, i7, i8⟩ := written_inv2 (opens_inv2 ho) hw
  obtain ⟨-, s, ha, -, -, -, -, n, hn, hl⟩ := step_full (rev := .r2) i1 h
  refine ⟨n, w.bps, hn, by rw [← i4]; exact i1.bps, ?_⟩
  have h0 : s.add.length = 240 * (k - 1) := by
    rw [ha, i5, hk, if_pos rfl]
    congr 1
    omega
  have hwa : s.wa.file.data.length = w.file.data.length := by
    obtain ⟨-, -, hc⟩ := autoHdrs_ok i1.inv s.auto
    split at hc
    · rename_i hau
      have := i1.inv.autoFirst hau.1
      rw [hc.2, List.length_append, List.length_take, binHeaderBytes_length]
      omega
    · rw [hc]
  rw [s.app.data, List.length_append, List.length_append, List.length_append, s.hdrLen, h0, hl, hwa]
  omega

/-- **C24 fails.** What the reader consumes: `k + 1` blocks of 240 bytes and the samples. -/
theorem C24_reader_blocks (data : Bytes) (ub : Option BinHeader) (m : HdrMap) (r r' : Reader) (t : Trace)
    (k size : Nat) (hr : Reachable data ub m r) (hk : r.bh.maxNumAddTrHeaders = k)
    (hs : bytesPerSample r.bh.formatCode = some size) (h : readTrace r = .ok (t, r')) :
    ∃ n, r'.file.pos = r.file.pos + 240 * (k + 1) + n ∧ t.samples.length = n / size := by
  have hi := inv_reachable hr
  obtain ⟨h0, n, buf, rd, rest, -, -, -, -, h5, rfl⟩ := readTrace_ok h
  have hsz : r.bps = size := by
    have := hi.bps
    rw [hs] at this
    exact (Option.some.inj this).symm
  refine ⟨n, ?_, ?_⟩
  · simp only [hdrBlocks]
    rw [hk]
    congr 2
  · rw [← hsz]
    exact decodeSamples_length h5

/-- **C24 fails.** Two traces written with one additional header announced: the reader takes the
samples of the first and part of the second trace for the additional header. -/
theorem C24_mismatch : (do
      let bh : BinHeader := { formatCode := 3, revMajor := 2, maxNumAddTrHeaders := 1,
                              fixedTrLength := 1, sampPerTr := 2 }
      let m : HdrMap := exWMap ++ [⟨"SEG00001", [⟨0, "EXTRA", .i32⟩]⟩]
      let w ← openRev2 [exText] bh [] m
      let w ← writeTraceRev2 (.strict fun _ => 0) w exT1
      let w ← writeTraceRev2 (.strict fun _ => 0) w exT1
      let data ← closeRev2 w
      let r ← openReader data none m
      let (t, r) ← readTrace r
      pure (t.header.get "EXTRA", t.samples, r.file.pos - 3600, data.length - 3600)) =
    (Except.ok (some (.int 65538), [0, 0], 484, 488) : Out (Option Value × List Dbl × Nat × Nat)) := by
  decide +kernel

end Sedaman.Props
