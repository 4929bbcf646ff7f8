import Verif.Lemmas.Safe
import Verif.Props.ISEGY

/-!
# C69: files from elsewhere
-/

namespace Sedaman.Props

open Spec

/-- **C69 (part).** Whatever the bytes of the file are, opening it returns or throws, provided the
products of the binary header in effect fit into an `int`. -/
theorem C69_open_partial (data : Bytes) (ub : Option BinHeader) (m : HdrMap)
    (hs : ∀ bo bh, fillBinHeader (initHeader ub) ub.isSome ((data.drop 3200).take 400) = .ok (bo, bh) →
      SizesFit bh) : Defined (openReader data ub m) := by
  unfold openReader
  refine (defined_checkMap _ _).bind fun _ _ => ?_
  refine (defined_read _ _).bind fun p hp => ?_
  obtain ⟨text, f⟩ := p
  obtain ⟨-, -, rfl⟩ := read_ok hp
  refine (defined_read _ _).bind fun p hp => ?_
  obtain ⟨bin, f⟩ := p
  obtain ⟨hbin, hl, rfl⟩ := read_ok hp
  simp only [textHeaderSize, binHeaderSize, Nat.zero_add] at hbin hl ⊢
  refine (defined_fillBinHeader _ _ hl).bind fun p hp => ?_
  obtain ⟨bo, bh⟩ := p
  have hfit := hs bo bh (by rw [← hbin]; exact hp)
  refine (defined_sampleReader _).bind fun rd hrd => ?_
  obtain ⟨k, rd', hk, -⟩ := decodeSamples_total (mem_supported hrd) bo
  rw [hk]
  refine (defined_readExtText _ _).bind fun p _ => ?_
  refine Defined.bind (.ite (fun _ => defined_seek _ _) fun _ => defined_ok _) fun f _ => ?_
  refine (defined_readTrailers bo bh k hk hfit _).bind fun p _ => ?_
  refine (defined_seek _ _).bind fun f _ => ?_
  refine (defined_mulInt32 (hfit.1 k hk)).bind fun size _ => ?_
  exact (defined_resizeVec _ _).bind fun _ _ => defined_ok _

/-- **C69 (part).** After opening any file, and after any number of successful calls, `read_trace` and
`read_header` return or throw, provided the map stays inside its blocks and the announced number of
additional headers is not the largest `int`. -/
theorem C69_read_partial (data : Bytes) (ub : Option BinHeader) (m : HdrMap) (r : Reader)
    (hr : Reachable data ub m r) (hm : MapInBounds m) (hmax : r.bh.maxNumAddTrHeaders ≠ 2 ^ 31 - 1) :
    Defined (readTrace r) ∧ Defined (readHeader r) := by
  have hi := inv_reachable hr
  have hh : Defined (readTrcHeader r) := by
    unfold readTrcHeader
    rw [if_neg hmax]
    exact defined_readBlocks r.bo (by rw [hi.map]; exact hm) _ _ _ _
  constructor
  · rw [readTrace_eq]
    refine hh.bind fun p _ => ?_
    have hsb : Defined (sampleBytes r p.1) := by
      unfold sampleBytes
      exact .ite (fun _ => defined_ok _) fun _ => (defined_sampNum _).bind fun q _ =>
        .ite (fun _ => defined_exn _) fun _ => defined_ok _
    refine hsb.bind fun q _ => ?_
    refine Defined.bind ?_ fun _ _ => defined_ok _
    unfold readSamplesFix
    refine (defined_read _ _).bind fun b hb => ?_
    obtain ⟨-, hl, -⟩ := read_ok (show File.read p.2 q.1 = .ok (b.1, b.2) from hb)
    obtain ⟨k, rd, hk, hk0, hrd, htot⟩ := decodeSamples_total hi.fmt r.bo
    rw [hi.bps] at hk
    have hk := Option.some.inj hk
    subst hk
    obtain ⟨bb, g⟩ := b
    simp only [hrd, ok_bind]
    obtain ⟨xs, hx⟩ := htot (q.1 / r.bps) bb (by rw [hl]; exact Nat.div_mul_le_self _ _)
    rw [hx, ok_bind]
    exact defined_ok _
  · unfold readHeader
    refine hh.bind fun p _ => ?_
    refine .ite (fun _ => ?_) fun _ => ?_
    · rw [hi.spt.2, ok_bind]
      exact (defined_seekCur _ _).bind fun _ _ => defined_ok _
    · exact (defined_sampNum _).bind fun q _ => (defined_seekCur _ _).bind fun _ _ => defined_ok _

/-- **C69.** The loops over text records end: whatever follows in the file, no more iterations than
whole records (and one) can run, because the next read throws. -/
theorem C69_loops_end (f : File) (k : Nat) :
    readUntilEnd (f.records + k) f = readUntilEnd f.records f ∧
      readRecords (f.records + k) f = throwExn .iosFailure :=
  ⟨readUntilEnd_fuel _ k f (Nat.le_refl _), readRecords_fuel _ f (by omega)⟩

/-- **C69 (counterexample).** A trace size of 2^31 bytes or more in an otherwise harmless header is
undefined behaviour, whatever follows the header. -/
theorem C69_trace_size_undefined (data : Bytes) (bo : ByteOrder) (bh : BinHeader) (n : Nat)
    (hl : 3600 ≤ data.length)
    (hf : fillBinHeader {} false ((data.drop 3200).take 400) = .ok (bo, bh))
    (hb : bytesPerSample bh.formatCode = some n) (hfmt : bh.formatCode ∈ supportedFormats)
    (hx : bh.extTextHeadersNum = 0) (ho : bh.byteOffOfFirstTr = 0) (ht : bh.numOfTrailerStanza = 0)
    (hbig : 2 ^ 31 ≤ samplesPerTrace bh * n) :
    openReader data none defaultMap = isUb .signedOverflow := by
  have hm : checkMap (initHeader none) defaultMap = .ok () := by decide +kernel
  obtain ⟨k, rd, -, -, hrd, -⟩ := decodeSamples_total hfmt bo
  have h1 : File.read ⟨data, 0⟩ textHeaderSize = .ok ((data.drop 0).take 3200, ⟨data, 3200⟩) := by
    rw [read_eq (by simp [textHeaderSize]; omega)]; rfl
  have h2 : File.read ⟨data, 3200⟩ binHeaderSize = .ok ((data.drop 3200).take 400, ⟨data, 3600⟩) := by
    rw [read_eq (by simp [binHeaderSize]; omega)]; rfl
  unfold openReader
  rw [hm, ok_bind]
  simp only
  rw [h1, ok_bind]
  simp only
  rw [h2, ok_bind]
  simp only
  rw [show fillBinHeader (initHeader none) (Option.isSome none) ((data.drop 3200).take 400) = .ok (bo, bh)
    from hf, ok_bind]
  simp only
  rw [hrd, ok_bind, hb]
  simp only
  rw [hx, show readExtText 0 ⟨data, 3600⟩ = .ok ([], ⟨data, 3600⟩) from rfl, ok_bind]
  simp only
  rw [show seekFirst bh ⟨data, 3600⟩ = .ok ⟨data, 3600⟩ by unfold seekFirst; rw [if_neg (by simp [ho])], ok_bind]
  have htr : readTrailers bo bh (samplesPerTrace bh) n ⟨data, 3600⟩ = .ok ([], data.length) := by
    unfold readTrailers
    rw [ht, if_neg (by decide), show mulInt32 0 (textHeaderSize : Nat) = .ok 0 from rfl, ok_bind, seekEnd_zero,
      ok_bind]
    rfl
  rw [htr, ok_bind]
  simp only
  rw [show File.seek ⟨data, 3600⟩ ((3600 : Nat) : Int) = .ok ⟨data, 3600⟩ from seek_nat _ _, ok_bind]
  rw [show mulInt32 (samplesPerTrace bh) n = isUb .signedOverflow from if_neg (by omega)]
  rfl

/-- A file with 2^29 samples of 4 bytes per trace. -/
example : openReader (exFile { exRev0 with formatCode := 5, extSampPerTr := 2 ^ 29 } []) none defaultMap =
    isUb .signedOverflow := by decide +kernel

/-- **C69 (counterexample).** 671089 trailer stanzas: the number of their bytes overflows `int`. -/
theorem C69_trailer_undefined : openReader
    (exFile { exRev0 with revMajor := 2, numOfTrailerStanza := 671089 } []) none defaultMap =
    isUb .signedOverflow := by decide +kernel

/-- **C69 (counterexample).** A file that announces 2^31 - 1 additional headers can be opened; reading
the first trace is undefined. -/
theorem C69_header_count_undefined : ∃ r, openReader
      (exFile { exRev0 with revMajor := 2, maxNumAddTrHeaders := 2 ^ 31 - 1 } []) none defaultMap = .ok r ∧
    readTrace r = isUb .signedOverflow ∧ readHeader r = isUb .signedOverflow := by
  cases ho : openReader (exFile { exRev0 with revMajor := 2, maxNumAddTrHeaders := 2 ^ 31 - 1 } [])
      none defaultMap with
  | error e =>
    exfalso
    have : (openReader (exFile { exRev0 with revMajor := 2, maxNumAddTrHeaders := 2 ^ 31 - 1 } [])
      none defaultMap).isOk = true := by decide +kernel
    rw [ho] at this
    cases this
  | ok r =>
    have : (do let r ← openReader (exFile { exRev0 with revMajor := 2, maxNumAddTrHeaders := 2 ^ 31 - 1 } [])
                  none defaultMap
               pure (decide (r.bh.maxNumAddTrHeaders = 2 ^ 31 - 1))) = (Except.ok true : Out Bool) := by
      decide +kernel
    rw [ho, ok_bind] at this
    have hmax := of_decide_eq_true (Except.ok.inj this)
    have hh : readTrcHeader r = isUb .signedOverflow := if_pos hmax
    refine ⟨r, rfl, ?_, ?_⟩
    · unfold readTrace; rw [hh]; rfl
    · unfold readHeader; rw [hh]; rfl

/-- A file of 3600 bytes that is all zeros but for the format code meets the conditions of
`C69_open_partial`, as does every file without additional revision 2 counts and with at most
`2^31 / 8` samples per trace. -/
example (data : Bytes) (ub : Option BinHeader) (m : HdrMap)
    (hs : ∀ bo bh, fillBinHeader (initHeader ub) ub.isSome ((data.drop 3200).take 400) = .ok (bo, bh) →
      0 ≤ samplesPerTrace bh ∧ samplesPerTrace bh < 2 ^ 28 ∧ bh.numOfTrailerStanza = 0) :
    Defined (openReader data ub m) := by
  refine C69_open_partial data ub m fun bo bh h => ?_
  obtain ⟨h1, h2, h3⟩ := hs bo bh h
  refine ⟨fun n hn => ?_, fun _ => by rw [h3]; decide⟩
  have : n ≤ 8 := by
    unfold bytesPerSample at hn
    split at hn <;> first | (cases hn; decide) | cases hn
  have h4 : samplesPerTrace bh * n ≤ samplesPerTrace bh * 8 := Int.mul_le_mul_of_nonneg_left (by omega) h1
  have h5 : 0 ≤ samplesPerTrace bh * n := Int.mul_nonneg h1 (by omega)
  omega

/-- A truncated file with a variable length trace, read to its end. -/
example : Defined (openReader (exFile exRev1 (exBlock 7 2 ++ [0])) none exMap) := by
  intro u
  have : (openReader (exFile exRev1 (exBlock 7 2 ++ [0])) none exMap).isOk = true := by decide +kernel
  intro h
  rw [h] at this
  cases this

end Sedaman.Props
