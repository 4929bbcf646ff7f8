import Verif.Lemmas.Memory
import Verif.Lemmas.MemoryD
import Verif.Props.ISEGY
import Verif.Props.SegdSafe

/-!
# C95: memory
-/

namespace Sedaman.Props

open Spec

private theorem bps_le {fmt : Int} {n : Nat} (h : bytesPerSample fmt = some n) : n ≤ 8 := by
  unfold bytesPerSample at h
  split at h <;> cases h <;> decide

private theorem records_le {n : Nat} {f f' : File} {recs : List Bytes} (h : readRecords n f = .ok (recs, f')) :
    recs.flatten.length ≤ f.data.length - f.pos := by
  obtain ⟨-, -, -, h⟩ := readRecords_ok h
  rw [h, List.length_take, List.length_drop]
  omega

private theorem until_le {n : Nat} {f f' : File} {recs : List Bytes} (h : readUntilEnd n f = .ok (recs, f')) :
    recs.flatten.length ≤ f.data.length - f.pos := by
  obtain ⟨-, -, h, -⟩ := readUntilEnd_ok h
  rw [h, List.length_take, List.length_drop]
  omega

private theorem ext_le {n : Int} {f f' : File} {recs : List Bytes} (h : readExtText n f = .ok (recs, f')) :
    recs.flatten.length ≤ f.data.length - f.pos := by
  unfold readExtText at h
  split at h
  · cases h; exact Nat.zero_le _
  · split at h
    · exact until_le h
    · exact records_le h

private theorem skipVar_data {bo : ByteOrder} {k : Int} {b : Nat} {f f' : File} (h : skipVarTrace bo k b f = .ok f') :
    f'.data = f.data := by
  unfold skipVarTrace at h
  obtain ⟨⟨b1, f1⟩, h1, h⟩ := bind_ok h
  obtain ⟨-, -, rfl⟩ := read_ok h1
  obtain ⟨n, -, h⟩ := bind_ok h
  split at h
  · obtain ⟨⟨b2, f2⟩, h2, h⟩ := bind_ok h
    obtain ⟨-, -, rfl⟩ := read_ok h2
    obtain ⟨_, -, h⟩ := bind_ok h
    obtain ⟨_, -, h⟩ := bind_ok h
    obtain ⟨f3, h3, h⟩ := bind_ok h
    unfold File.seekCur at h h3
    obtain ⟨-, rfl⟩ := seek_ok h3
    obtain ⟨-, rfl⟩ := seek_ok h
    rfl
  · unfold File.seekCur at h
    obtain ⟨-, rfl⟩ := seek_ok h
    rfl

private theorem skipVars_data {bo : ByteOrder} {k : Int} {b n : Nat} {f f' : File}
    (h : skipVarTraces bo k b n f = .ok f') : f'.data = f.data := by
  induction n generalizing f with
  | zero => cases h; rfl
  | succ n ih =>
    obtain ⟨f1, h1, h⟩ := bind_ok h
    rw [ih h, skipVar_data h1]

private theorem trailers_le {bo : ByteOrder} {bh : BinHeader} {spt : Int} {bps : Nat} {f : File} {recs : List Bytes}
    {p : Nat} (h : readTrailers bo bh spt bps f = .ok (recs, p)) : recs.flatten.length ≤ f.data.length := by
  unfold readTrailers at h
  split at h
  · split at h
    · cases h
    · split at h
      · obtain ⟨_, -, h⟩ := bind_ok h
        obtain ⟨f1, h1, h⟩ := bind_ok h
        obtain ⟨⟨recs, f2⟩, h2, h⟩ := bind_ok h
        cases h
        unfold File.seekCur at h1
        obtain ⟨-, rfl⟩ := seek_ok h1
        exact Nat.le_trans (until_le h2) (Nat.sub_le _ _)
      · obtain ⟨f1, h1, h⟩ := bind_ok h
        obtain ⟨⟨recs, f2⟩, h2, h⟩ := bind_ok h
        cases h
        rw [← skipVars_data h1]
        exact Nat.le_trans (until_le h2) (Nat.sub_le _ _)
  · obtain ⟨_, -, h⟩ := bind_ok h
    obtain ⟨f1, h1, h⟩ := bind_ok h
    obtain ⟨⟨recs, f2⟩, h2, h⟩ := bind_ok h
    cases h
    unfold File.seekEnd at h1
    obtain ⟨-, rfl⟩ := seek_ok h1
    exact Nat.le_trans (records_le h2) (Nat.sub_le _ _)

/-! ## SEG-Y -/

/-- **C95.** The text headers and trailer stanzas an open reader keeps are not larger than twice the file. -/
theorem C95_texts (data : Bytes) (ub : Option BinHeader) (m : HdrMap) (r : Reader)
    (h : openReader data ub m = .ok r) :
    r.texts.flatten.length + 400 ≤ data.length ∧ r.trailers.flatten.length ≤ data.length := by
  obtain ⟨exts, f2, rd, size, -, h1, -, -, -, h2, h3, -, h4, -, -, h5, -⟩ := openReader_ok h
  have h2 := ext_le h2
  have h4 := trailers_le h4
  rw [h5] at h4
  refine ⟨?_, h4⟩
  rw [h3, List.flatten_cons, List.length_append, List.length_take]
  simp only at h2
  omega

private theorem open_buf {data : Bytes} {ub : Option BinHeader} {m : HdrMap} {r : Reader}
    (h : openReader data ub m = .ok r) :
    r.bps ≤ 8 ∧ r.bufLen < 2 ^ 31 ∧ (r.bh.extSampPerTr = 0 → r.bufLen ≤ 65535 * 8) ∧ r.map = m ∧
      r.file.data = data := by
  obtain ⟨exts, f2, rd, size, -, -, -, -, h1, -, -, -, -, h2, -, h3, h4, h5, h6, h7⟩ := openReader_ok h
  have hb := bps_le h1
  obtain ⟨e1, e2, e3⟩ := mulInt32_ok h5
  have hs := toU_size (by omega) h6
  have hu := toU_nat_of_nonneg hs (by omega)
  refine ⟨hb, by omega, fun hz => ?_, h4, h3⟩
  have hspt : r.spt ≤ 65535 ∧ 0 ≤ r.spt := by
    rw [h2]
    unfold samplesPerTrace
    rw [if_neg (by rw [hz]; simp)]
    have := toU_lt 2 r.bh.sampPerTr
    constructor <;> omega
  have : r.spt * (r.bps : Int) ≤ 65535 * r.bps := Int.mul_le_mul_of_nonneg_right hspt.1 (Int.natCast_nonneg _)
  omega

private theorem asks_keep {Q : RS → Prop} (hQ : ∀ s a, Q s → Q (askIO s a).2) (s : RS) (as : List Ask) (h : Q s) :
    Q (afterAsks s as) := by
  induction as generalizing s with
  | nil => exact h
  | cons a as ih => exact ih _ (hQ s a h)

/-- **C95 (partial: without the 32-bit count of revision 2 in the binary header, and for traces of variable length
only if the trace headers have no such count either).** Whatever calls are made, and whether they throw or not,
the reader keeps at most twice the size of the file and half a megabyte. -/
theorem C95_small_partial (data : Bytes) (ub : Option BinHeader) (m : HdrMap) (r : Reader)
    (h : openReader data ub m = .ok r) (hx : r.bh.extSampPerTr = 0)
    (hm : fixedLength r.bh = true ∨ ShortCounts m) (as : List Ask) :
    held (afterAsks ⟨r, false⟩ as).r ≤ 2 * data.length + 524280 := by
  obtain ⟨h1, h2⟩ := C95_texts data ub m r h
  obtain ⟨hb, -, hb2, hmap, -⟩ := open_buf h
  have hb2 := hb2 hx
  have key : ∀ s a, (SameTexts r s.r ∧ SameFile r s.r ∧ s.r.bufLen ≤ 524280) →
      SameTexts r (askIO s a).2.r ∧ SameFile r (askIO s a).2.r ∧ (askIO s a).2.r.bufLen ≤ 524280 := by
    rintro s a ⟨k1, k2, k3⟩
    have hB : Stays fun _ n => n ≤ 524280 := fun _ _ _ _ => Iff.rfl
    cases a with
    | header =>
      obtain ⟨q1, q2, q3⟩ := keepsMem_header hB s
      exact ⟨k1.trans q1, k2.trans q2, q3 k3⟩
    | trace =>
      rcases hm with hm | hm
      · obtain ⟨q1, q2, q3⟩ := trace_fixed hB s (by rw [k2.bh]; exact hm)
        exact ⟨k1.trans q1, k2.trans q2, q3 k3⟩
      · obtain ⟨q1, q2, q3⟩ := trace_short s (by rw [k2.map, hmap]; exact hm) (by rw [k2.bps]; exact hb)
        refine ⟨k1.trans q1, k2.trans q2, Nat.le_trans q3 ?_⟩
        rw [k2.bps]
        exact Nat.max_le.2 ⟨k3, by omega⟩
  obtain ⟨q1, -, q3⟩ := asks_keep (Q := fun s => SameTexts r s.r ∧ SameFile r s.r ∧ s.r.bufLen ≤ 524280) key
    ⟨r, false⟩ as ⟨.refl _, .refl _, hb2⟩
  unfold held
  rw [q1.texts, q1.trailers]
  omega

/-- **C95 (partial: traces of fixed length).** In any case the reader keeps less than twice the size of the file
and 2^31 bytes. -/
theorem C95_fixed_partial (data : Bytes) (ub : Option BinHeader) (m : HdrMap) (r : Reader)
    (h : openReader data ub m = .ok r) (hm : fixedLength r.bh = true) (as : List Ask) :
    held (afterAsks ⟨r, false⟩ as).r < 2 * data.length + 2 ^ 31 := by
  obtain ⟨h1, h2⟩ := C95_texts data ub m r h
  obtain ⟨hb, hb2, -, -, -⟩ := open_buf h
  have key : ∀ s a, (SameTexts r s.r ∧ SameFile r s.r ∧ s.r.bufLen < 2 ^ 31) →
      SameTexts r (askIO s a).2.r ∧ SameFile r (askIO s a).2.r ∧ (askIO s a).2.r.bufLen < 2 ^ 31 := by
    rintro s a ⟨k1, k2, k3⟩
    have hB : Stays fun _ n => n < 2 ^ 31 := fun _ _ _ _ => Iff.rfl
    cases a with
    | header =>
      obtain ⟨q1, q2, q3⟩ := keepsMem_header hB s
      exact ⟨k1.trans q1, k2.trans q2, q3 k3⟩
    | trace =>
      obtain ⟨q1, q2, q3⟩ := trace_fixed hB s (by rw [k2.bh]; exact hm)
      exact ⟨k1.trans q1, k2.trans q2, q3 k3⟩
  obtain ⟨q1, -, q3⟩ := asks_keep (Q := fun s => SameTexts r s.r ∧ SameFile r s.r ∧ s.r.bufLen < 2 ^ 31) key
    ⟨r, false⟩ as ⟨.refl _, .refl _, hb2⟩
  unfold held
  rw [q1.texts, q1.trailers]
  omega

/-- **C95.** Whatever was called before: when `read_trace` returns a trace, the reader and the samples of the
trace (eight bytes each) together take at most eleven times the size of the file. -/
theorem C95_returned (data : Bytes) (ub : Option BinHeader) (m : HdrMap) (r : Reader)
    (h : openReader data ub m = .ok r) (as : List Ask) (t : Trace) (s' : RS)
    (ht : askIO (afterAsks ⟨r, false⟩ as) .trace = (.ok (.trace t), s')) :
    held s'.r + 8 * t.samples.length ≤ 11 * data.length := by
  obtain ⟨h1, h2⟩ := C95_texts data ub m r h
  obtain ⟨-, -, -, -, hd⟩ := open_buf h
  have hB : Stays fun _ _ => True := fun _ _ _ _ => Iff.rfl
  have key : ∀ s a, SameTexts r s.r → SameTexts r (askIO s a).2.r := by
    intro s a k
    cases a with
    | header => exact k.trans (keepsMem_header hB s).1
    | trace => exact k.trans (trace_rest s)
  have q := asks_keep (Q := fun s => SameTexts r s.r) key ⟨r, false⟩ as (.refl _)
  generalize afterAsks ⟨r, false⟩ as = s at *
  have q2 := key s .trace q
  rw [ht] at q2
  unfold askIO at ht
  simp only at ht
  rcases hc : rmReadTrace s with ⟨o, s1⟩
  rw [hc] at ht
  cases o with
  | error e => cases ht
  | ok t' =>
    cases ht
    obtain ⟨b1, b2⟩ := trace_returned hc
    rw [q2.data, hd] at b2
    unfold held
    rw [q2.texts, q2.trailers]
    show _ + s1.r.bufLen + _ ≤ _
    omega

/-- A file of 3600 bytes: one byte per sample and 2^31 - 1 samples per trace. -/
def hugeHeader : BinHeader := { formatCode := 8, revMajor := 2, fixedTrLength := 1, extSampPerTr := 2 ^ 31 - 1 }

/-- **C95 (counterexample).** Opening a file of 3600 bytes takes two gigabytes. -/
theorem C95_open_large : ∃ r, openReader (exFile hugeHeader []) none exMap = .ok r ∧
    (exFile hugeHeader []).length = 3600 ∧ held r ≥ 2 ^ 31 - 1 := by
  have hf : (fillBinHeader (initHeader none) false (binHeaderBytes .be hugeHeader)).map
      (fun p => (p.2.formatCode, p.2.extTextHeadersNum, p.2.byteOffOfFirstTr, p.2.numOfTrailerStanza,
        p.2.extSampPerTr)) = .ok (8, 0, 0, 0, 2 ^ 31 - 1) := by decide +kernel
  cases hb : fillBinHeader (initHeader none) false (binHeaderBytes .be hugeHeader) with
  | error e => rw [hb] at hf; cases hf
  | ok p =>
    obtain ⟨bo, bh⟩ := p
    rw [hb] at hf
    simp only [Except.map, Except.ok.injEq, Prod.mk.injEq] at hf
    obtain ⟨f1, f2, f3, f4, f5⟩ := hf
    have hspt : samplesPerTrace bh = 2 ^ 31 - 1 := by
      unfold samplesPerTrace
      rw [if_pos (by rw [f5]; decide), f5]
    have hl : (binHeaderBytes .be hugeHeader).length = 400 := by decide +kernel
    have := openReader_of (data := exFile hugeHeader []) (text := List.replicate 3200 0x40)
      (bin := binHeaderBytes .be hugeHeader) (ub := none) (m := exMap) (bo := bo) (bh := bh) (exts := []) (trl := [])
      (rest := []) (bps := 1) (first := 3600) (ed := (exFile hugeHeader []).length) rfl (List.length_replicate ..) hl
      (by decide +kernel) hb (by rw [f1]; decide) (by rw [f1]; rfl) (by rw [f2]; rfl) (.inl ⟨f3, rfl⟩)
      (readTrailers_none f4) (by rw [hspt]; decide)
    refine ⟨_, this, ?_, ?_⟩
    · unfold exFile
      rw [List.length_append, List.length_append, List.length_replicate, hl]
      rfl
    · unfold held
      simp only
      rw [hspt]
      have : ((2 ^ 31 - 1 : Int) * ((1 : Nat) : Int)).toNat = 2 ^ 31 - 1 := by decide
      rw [this]
      omega

/-- **C95 (counterexample).** Traces of variable length: the reader takes the memory for the samples the trace
header announces before it looks whether the file has them. When the file has fewer the call throws, and the reader
keeps the memory. -/
theorem C95_trace_large (r : Reader) (h h' : Header) (f : File) (n : Int) (hv : fixedLength r.bh = false)
    (hc : r.curr = r.file.pos) (hh : readTrcHeader r = .ok (h, f)) (hn : sampNum h = .ok (n, h'))
    (hbig : (f.data.length : Int) < n * r.bps) (hl : n * r.bps < 2 ^ 63) :
    (askIO ⟨r, false⟩ .trace).1 = .error (.exn .iosFailure) ∧
      ((askIO ⟨r, false⟩ .trace).2.r.bufLen : Int) = n * r.bps := by
  have hu : ((toU 8 (n * r.bps) : Nat) : Int) = n * r.bps := by
    unfold toU
    norm_num at hl ⊢
    omega
  have e : rmReadTrace ⟨r, false⟩ = (rmTrcHeader >>= fun hdr => rmLift (sampNum hdr) >>= fun p =>
      rmResize (toU 8 (p.1 * r.bps)) >>= fun _ => rmSamplesFix >>= fun xs => pure (⟨p.2, xs⟩ : Trace)) ⟨r, false⟩ := by
    show (rmTrcHeader >>= fun hdr => if fixedLength r.bh then _ else _) _ = _
    simp only [hv]
    rfl
  have h1 : rmTrcHeader ⟨r, false⟩ = (.ok h, ⟨r.moved f, false⟩) := by
    have := trc_agree r hc
    rw [hh] at this
    exact this
  have h2 : ∃ r2 : Reader, rmResize (toU 8 (n * r.bps)) ⟨r.moved f, false⟩ = (.ok (), ⟨r2, false⟩) ∧
      r2.bufLen = toU 8 (n * r.bps) ∧ r2.file = f := by
    by_cases hb : (r.moved f).bufLen = toU 8 (n * r.bps)
    · exact ⟨_, resize_same hb, hb, rfl⟩
    · refine ⟨_, resize_other hb (resizeVec_of_lt (by omega)), ?_, rfl⟩
      simp only [List.length_append, List.length_take, List.length_replicate]
      omega
  obtain ⟨r2, h2, h3, h4⟩ := h2
  have h5 : rmSamplesFix ⟨r2, false⟩ = (.error (.exn .iosFailure), ⟨r2, true⟩) := by
    unfold rmSamplesFix
    rw [rm_bind_ok (get_eq r2 false)]
    refine rm_bind_err ?_
    rw [fill_eq, read_fail (by omega) (by rw [h4]; omega)]
    rfl
  have h6 : rmReadTrace ⟨r, false⟩ = (.error (.exn .iosFailure), ⟨r2, true⟩) := by
    rw [e, rm_bind_ok h1, hn, rm_bind_ok (lift_ok _ _), rm_bind_ok h2, rm_bind_err h5]
  unfold askIO
  simp only [h6]
  exact ⟨rfl, by rw [h3]; exact hu⟩

/-- Revision 2, traces of variable length with one additional trace header, samples of eight bytes. -/
def hugeTraceFile : Bytes :=
  exFile { formatCode := 6, revMajor := 2, maxNumAddTrHeaders := 1 }
    (List.replicate 240 0 ++ (List.replicate 136 0 ++ writeI32 .be (2 ^ 31 - 1) ++ List.replicate 100 0))

/-- The file has 4080 bytes; the first trace header announces 2^31 - 1 samples: 16 gigabytes. -/
example : hugeTraceFile.length = 4080 ∧ ∃ r, openReader hugeTraceFile none defaultMap = .ok r ∧ held r = 3200 ∧
    (askIO ⟨r, false⟩ .trace).1 = .error (.exn .iosFailure) ∧
    ((askIO ⟨r, false⟩ .trace).2.r.bufLen : Int) = (2 ^ 31 - 1) * 8 := by
  refine ⟨by decide +kernel, ?_⟩
  have hv : (openReader hugeTraceFile none defaultMap).map (fun r => (held r, fixedLength r.bh, r.bps,
      decide (r.curr = r.file.pos))) = .ok (3200, false, 8, true) := by decide +kernel
  have hw : (openReader hugeTraceFile none defaultMap >>= fun r => do
      let (h, f) ← readTrcHeader r
      let (n, _) ← sampNum h
      pure (n, f.data.length)) = .ok (2 ^ 31 - 1, 4080) := by decide +kernel
  cases ho : openReader hugeTraceFile none defaultMap with
  | error e => rw [ho] at hv; cases hv
  | ok r =>
    rw [ho] at hv
    rw [ho, ok_bind] at hw
    simp only [Except.map, Except.ok.injEq, Prod.mk.injEq, decide_eq_true_eq] at hv
    obtain ⟨v1, v2, v3, v4⟩ := hv
    obtain ⟨⟨h, f⟩, hh, hw⟩ := bind_ok hw
    obtain ⟨⟨n, h'⟩, hn, hw⟩ := bind_ok hw
    have v5 : n = 2 ^ 31 - 1 := congrArg Prod.fst (Except.ok.inj hw)
    have v6 : f.data.length = 4080 := congrArg Prod.snd (Except.ok.inj hw)
    subst v5
    refine ⟨r, rfl, v1, ?_⟩
    have := C95_trace_large r h h' f (2 ^ 31 - 1) v2 v4 hh hn (by rw [v3, v6]; decide) (by rw [v3]; decide)
    rw [v3] at this
    exact this

/-- The conditions of `C95_small_partial` hold for a file with two traces. -/
example : ∃ r, openReader (exFile exRev1 (exBlock 1 2 ++ [0, 1, 0, 2] ++ exBlock 2 1 ++ [0, 3])) none exMap = .ok r ∧
    r.bh.extSampPerTr = 0 ∧ ShortCounts exMap := by
  have hv : (openReader (exFile exRev1 (exBlock 1 2 ++ [0, 1, 0, 2] ++ exBlock 2 1 ++ [0, 3])) none exMap).map
      (·.bh.extSampPerTr) = .ok 0 := by decide +kernel
  cases ho : openReader (exFile exRev1 (exBlock 1 2 ++ [0, 1, 0, 2] ++ exBlock 2 1 ++ [0, 3])) none exMap with
  | error e => rw [ho] at hv; cases hv
  | ok r =>
    rw [ho] at hv
    refine ⟨r, rfl, Except.ok.inj hv, ?_⟩
    unfold ShortCounts
    decide

/-- The condition on the map fails for the default map because of its second block. -/
example : ¬ShortCounts defaultMap ∧ ShortCounts (defaultMap.take 1) := by
  unfold ShortCounts
  decide +kernel

/-! ## SEG-D -/

/-- **C95.** The extended and external headers an open `ISEGD` keeps are not larger than twice the file. -/
theorem C95_segd_held (pw : Dbl → Dbl) (data : Bytes) (m : ExtMap) (s : ISegd) (h : ReachableD pw data m s) :
    heldSegd s ≤ 2 * data.length ∧ s.file.data = data := by
  induction h with
  | opened s h =>
    have := headers_held h
    obtain ⟨hd, -⟩ := readHeaders_ok h
    rw [hd] at this
    exact ⟨this, hd⟩
  | read s s' t _ _ ht ih =>
    obtain ⟨i1, i2⟩ := ih
    obtain ⟨p, -, -, ⟨-, rfl⟩ | ⟨-, -, rfl⟩ | ⟨-, -, h⟩⟩ := readTraceD_cases ht
    · exact ⟨i1, i2⟩
    · exact ⟨i1, i2⟩
    · have := headers_held h
      obtain ⟨hd, -⟩ := readHeaders_ok h
      rw [hd] at this
      simp only [ISegd.at, i2] at this hd
      exact ⟨this, hd⟩

/-- **C95 (partial: for formats 8022 and 8042, fewer than 2^29 samples).** A trace has no more samples than the
file has bytes. -/
theorem C95_segd_trace_partial (pw : Dbl → Dbl) (data : Bytes) (m : ExtMap) (s s' : ISegd) (t : Trace)
    (h : ReachableD pw data m s) (ht : readTraceD pw s = .ok (t, s'))
    (hf : s.gh1.formatCode ≠ 8022 ∧ s.gh1.formatCode ≠ 8042 ∨ t.samples.length < 2 ^ 29) :
    t.samples.length ≤ data.length := by
  obtain ⟨-, hd⟩ := C95_segd_held pw data m s h
  obtain ⟨p, hb, -⟩ := readTraceD_cases ht
  unfold readTraceBody at hb
  obtain ⟨⟨b, s1⟩, h1, hb⟩ := bind_ok hb
  obtain ⟨⟨hd1, r1⟩, -, hb⟩ := bind_ok hb
  obtain ⟨⟨hd2, s2⟩, h2, hb⟩ := bind_ok hb
  obtain ⟨⟨c, hd3⟩, -, hb⟩ := bind_ok hb
  obtain ⟨n, -, hb⟩ := bind_ok hb
  obtain ⟨⟨xs, s3⟩, h3, hb⟩ := bind_ok hb
  obtain ⟨-, -, e1⟩ := fill_ok h1
  obtain ⟨p2, e2, -⟩ := onRest_ok h2
  have hx : t.samples = xs := by cases hb; rfl
  subst e1
  subst e2
  obtain ⟨⟨ys, rest⟩, h4, h3⟩ := bind_ok h3
  cases h3
  simp only [ISegd.at] at h4
  rw [hx] at hf ⊢
  rw [hd] at h4
  have hlen := rdSamplesD_count h4
  obtain ⟨-, q2⟩ := readSamplesD_len h4 (by
    rcases hf with hf | hf
    · exact .inr hf
    · exact .inl (by omega))
  rw [List.length_drop] at q2
  omega

/-- **C95 (counterexample).** In formats 8022 and 8042 a trace of 2^29 + k samples is read from k bytes. -/
theorem C95_segd_large (fmt : Int) (hf : fmt = 8022 ∨ fmt = 8042) (descale : Dbl) (k : Nat) (b : Byte) (rest : Bytes)
    (h1 : 1 ≤ k) (h2 : k ≤ (b :: rest).length) (h3 : k < 2 ^ 29) :
    ∃ xs, readSamplesD fmt descale (2 ^ 29 + k) (b :: rest) = .ok (xs, (b :: rest).drop k) ∧
      xs.length = 2 ^ 29 + k := by
  have main : ∀ (r : Rd Dbl) (c : Byte → Dbl), segdReader fmt = .ok (8, r) → (∀ b t, r (b :: t) = .ok (c b, b :: t)) →
      ∃ xs, readSamplesD fmt descale (2 ^ 29 + k) (b :: rest) = .ok (xs, (b :: rest).drop k) ∧
        xs.length = 2 ^ 29 + k := by
    intro r c hr hc
    have key : ∀ n t, ∃ xs, rdSamples r descale n (b :: t) = .ok (xs, b :: t) ∧ xs.length = n := by
      intro n t
      induction n with
      | zero => exact ⟨[], rfl, rfl⟩
      | succ n ih =>
        obtain ⟨xs, e, hl⟩ := ih
        refine ⟨dmul (c b) descale :: xs, ?_, by rw [List.length_cons, hl]⟩
        unfold rdSamples
        rw [rd_bind, hc, ok_bind, rd_bind, e, ok_bind]
        rfl
    obtain ⟨xs, e, hl⟩ := key (2 ^ 29 + k) (rest.take (k - 1))
    refine ⟨xs, ?_, hl⟩
    unfold readSamplesD
    rw [hr, ok_bind]
    simp only
    rw [show (2 ^ 29 + k) * 8 % 2 ^ 32 / 8 = k by omega, if_pos h2, ok_bind]
    simp only
    have hk : k = (k - 1) + 1 := by omega
    have ht : (b :: rest).take k = b :: rest.take (k - 1) := by
      rw [hk, List.take_succ_cons]
      rfl
    rw [ht, e]
    rfl
  rcases hf with rfl | rfl
  · exact main _ _ rfl fun _ _ => rfl
  · exact main _ _ rfl fun _ _ => rfl

/-- The example file with format 8022 and 2^29 + 1 samples announced in the extension of its first trace. -/
def hugeSegd : Out ISegd :=
  segdFileExample >>= fun d =>
    openSegd ((((((d.set 3 0x22).set 265 1).set 276 0x20).set 277 0).set 278 0).set 279 1) [[⟨0, "SAMP_NUM", .u32⟩]]

/-- **C95 (counterexample).** A file of 376 bytes whose first trace has more than 2^29 samples: four gigabytes. -/
theorem C95_segd_file_large (pw : Dbl → Dbl) : ∃ s t s', hugeSegd = .ok s ∧ s.file.data.length = 376 ∧
    readTraceD pw s = .ok (t, s') ∧ t.samples.length = 2 ^ 29 + 1 := by
  have hv : hugeSegd.map (fun s => (s.gh1.formatCode, s.file.data.length, s.chansIn, s.chansRead)) =
      .ok (8022, 376, 2, 0) := by decide +kernel
  have hw : (hugeSegd >>= fun s => do
      let (h, s) ← nextHeader s
      let (c, h) ← s.chSetOf h
      let n ← sampNumD c h
      pure (n, s.file.pos)) = .ok (2 ^ 29 + 1, 308) := by decide +kernel
  cases ho : hugeSegd with
  | error e => rw [ho] at hv; cases hv
  | ok s =>
    rw [ho] at hv
    rw [ho, ok_bind] at hw
    simp only [Except.map, Except.ok.injEq, Prod.mk.injEq] at hv
    obtain ⟨v1, v2, v3, v4⟩ := hv
    obtain ⟨⟨h, s2⟩, hh, hw⟩ := bind_ok hw
    obtain ⟨⟨c, h2⟩, hc, hw⟩ := bind_ok hw
    obtain ⟨n, hn, hw⟩ := bind_ok hw
    have w1 : n = 2 ^ 29 + 1 := congrArg Prod.fst (Except.ok.inj hw)
    have w2 : s2.file.pos = 308 := congrArg Prod.snd (Except.ok.inj hw)
    subst w1
    obtain ⟨⟨b, s1⟩, h1, hh⟩ := bind_ok hh
    obtain ⟨⟨hd, r⟩, h3, hh⟩ := bind_ok hh
    have e1 := (fill_ok h1).2.2
    obtain ⟨p, e2, -⟩ := onRest_ok hh
    have g1 : s2.gh1 = s.gh1 := by rw [e2, e1]; rfl
    have g2 : s2.file.data = s.file.data := by rw [e2, e1]; rfl
    have g3 : s2.chansIn = 2 ∧ s2.chansRead = 0 := by rw [← v3, ← v4, e2, e1]; exact ⟨rfl, rfl⟩
    have hl : (s2.file.data.drop s2.file.pos).length = 68 := by rw [List.length_drop, g2, v2, w2]
    cases hr : s2.file.data.drop s2.file.pos with
    | nil => rw [hr] at hl; cases hl
    | cons b0 rest =>
      obtain ⟨xs, hx, hxl⟩ := C95_segd_large 8022 (.inl rfl) (pw c.descaleMultiplier) 1 b0 rest (by decide)
        (by rw [List.length_cons]; omega) (by decide)
      have hb : ∃ f, s2.onRest (readSamplesD s2.gh1.formatCode (pw c.descaleMultiplier) (2 ^ 29 + 1)) =
          .ok (xs, { s2 with file := f }) := by
        unfold ISegd.onRest
        simp only
        rw [hr, g1, v1, hx]
        exact ⟨_, rfl⟩
      obtain ⟨f, hb⟩ := hb
      have hbody : readTraceBody pw s = .ok (⟨h2, xs⟩, { s2 with file := f }) := by
        unfold readTraceBody
        rw [h1, ok_bind]
        simp only
        rw [h3, ok_bind]
        simp only at hh ⊢
        rw [hh, ok_bind]
        simp only
        rw [hc, ok_bind]
        simp only
        rw [hn, ok_bind, hb]
        rfl
      have hadv : ∃ s', ({ s2 with file := f } : ISegd).advance = .ok s' := by
        unfold ISegd.advance
        simp only
        rw [if_neg (by rw [g3.1, g3.2]; decide)]
        exact ⟨_, rfl⟩
      obtain ⟨s', hadv⟩ := hadv
      refine ⟨s, ⟨h2, xs⟩, s', rfl, v2, ?_, hxl⟩
      unfold readTraceD
      rw [hbody, ok_bind]
      simp only
      rw [hadv]
      rfl

/-- The example file: its headers and its first trace. -/
example : heldSegd segdOpened ≤ 2 * segdOpened.file.data.length ∧
    (readTraceD hostExample.pw segdOpened).map (·.1.samples.length) = .ok 2 := by decide +kernel

end Sedaman.Props
