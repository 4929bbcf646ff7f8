import Verif.Spec.Collect
import Verif.Lemmas.Rewrite
import Verif.Props.Rewrite
import Verif.Props.Merge

/-!
# C120: collecting traces from several SEG-Y files
-/

namespace Sedaman.Props
open Sedaman Sedaman.Spec

private theorem from_storable {bh : BinHeader} {fields : List HField} {t : Trace} (h : FromFile bh fields t) (est : LogEst)
    (bo : ByteOrder) : Storable est bh.formatCode bo fields t := by
  obtain ⟨_, _, _, _, _, _, h1, h2, h3, h4⟩ := h
  exact (readOut_storable h1 h2 est bo h3 h4).1

private theorem from_same {bh : BinHeader} {fields : List HField} {est : LogEst} {bo : ByteOrder} {ts backs : List Trace}
    (h : ∀ t ∈ ts, FromFile bh fields t) (hb : List.Forall₂ (TraceBack est bh.formatCode bo fields) ts backs) :
    List.Forall₂ SameTrace ts backs := by
  induction hb with
  | nil => exact .nil
  | cons a _ ih =>
    refine .cons ?_ (ih fun t ht => h t (List.mem_cons_of_mem _ ht))
    obtain ⟨_, _, _, _, _, _, h1, h2, h3, h4⟩ := h _ List.mem_cons_self
    obtain ⟨_, _, _, _, _, _, _, a1⟩ := readOut_trace h1 h4
    have := same_all h3 (ts := [_]) (by simpa using a1)
      (by simpa using (readOut_storable h1 h2 est bo h3 h4).2) (.cons a .nil)
    cases this with
    | cons x _ => exact x

/-- **C120 (part).** Traces from any files, in any order and number, are written as a revision 0 file and come back the
same. The files may differ in revision, byte order, sample format and header map. The new header announces as many samples
as each trace has. -/
theorem C120_rev0_partial (est : LogEst) (ts : List Trace) (text : Bytes) (bh : BinHeader) (m : HdrMap) (b : HBlock)
    (hts : ∀ t ∈ ts, FromFile bh b.fields t) (ht : text.length = 3200) (hbh : HeaderOk bh) (hm : MapOk bh m b)
    (hrev : bh.revMajor = 0) (hexts : bh.extTextHeadersNum = 0) (hext : bh.extSampPerTr = 0)
    (hexplicit : bh ≠ { formatCode := 1 }) (hlen : ∀ t ∈ ts, (t.samples.length : Int) = bh.sampPerTr % 65536) :
    ∃ w0 w r backs, openRev0 text bh m = .ok w0 ∧ writeAll (writeTraceRev0 est) w0 ts = .ok w ∧
      openReader w.file.data none m = .ok r ∧ Visits r backs ∧ List.Forall₂ SameTrace ts backs := by
  obtain ⟨w0, w, r, backs, h1, h2, h3, -, -, h4, h5⟩ := C20_roundtrip_partial est text bh m b ts ht hbh hm hrev hexts
    hext hexplicit (fun t h => ⟨from_storable (hts t h) est _, hlen t h⟩)
  exact ⟨w0, w, r, backs, h1, h2, h3, h5, from_same hts h4⟩

/-- **C120 (part).** The same for revision 1, also with traces of different lengths. -/
theorem C120_rev1_partial (est : LogEst) (ts : List Trace) (text : Bytes) (exts : List Bytes) (bh : BinHeader) (m : HdrMap)
    (b : HBlock) (hts : ∀ t ∈ ts, FromFile bh b.fields t) (hl : ∀ x ∈ text :: exts, x.length = 3200)
    (hn : exts.length < 65536) (hbh : HeaderOk bh) (hm : MapOk bh m b) (hrev : bh.revMajor = 1)
    (hdecl : TextsDeclared bh exts) (hext : ExtendedOk bh) (hlen : ∀ t ∈ ts, LengthKnown bh b.fields t) :
    ∃ w0 w r backs, openRev1 (text :: exts) bh m = .ok w0 ∧ writeAll (writeTraceRev1 est) w0 ts = .ok w ∧
      openReader w.file.data none m = .ok r ∧ Visits r backs ∧ List.Forall₂ SameTrace ts backs := by
  obtain ⟨w0, w, r, backs, h1, h2, h3, -, -, h4, h5⟩ := C21_roundtrip_partial est text exts bh m b ts hl hn hbh hm hrev
    hdecl hext (fun t h => ⟨from_storable (hts t h) est _, hlen t h⟩)
  exact ⟨w0, w, r, backs, h1, h2, h3, h5, from_same hts h4⟩

/-- **C120 (part).** The same for revision 2. -/
theorem C120_rev2_partial (est : LogEst) (ts : List Trace) (text : Bytes) (exts : List Bytes) (bh : BinHeader) (m : HdrMap)
    (b : HBlock) (hts : ∀ t ∈ ts, FromFile bh b.fields t) (hl : ∀ x ∈ text :: exts, x.length = 3200)
    (hn : exts.length < 65536) (hbh : HeaderOk bh) (hm : MapOk bh m b) (hrev : 2 ≤ bh.revMajor)
    (hdecl : TextsDeclared bh exts) (hext : ExtendedOk bh) (hadd : bh.maxNumAddTrHeaders = 0)
    (hstz : bh.numOfTrailerStanza = 0)
    (hoff : bh.byteOffOfFirstTr = 0 ∨ bh.byteOffOfFirstTr = 3600 + 3200 * exts.length)
    (hlen : ∀ t ∈ ts, LengthKnown bh b.fields t) :
    ∃ w0 w out r backs, openRev2 (text :: exts) bh [] m = .ok w0 ∧ writeAll (writeTraceRev2 est) w0 ts = .ok w ∧
      closeRev2 w = .ok out ∧ openReader out none m = .ok r ∧ Visits r backs ∧ List.Forall₂ SameTrace ts backs := by
  obtain ⟨w0, w, out, r, backs, h1, h2, h3, h4, -, -, -, h5, h6⟩ := C22_roundtrip_partial est text exts bh m b ts hl hn
    hbh hm hrev hdecl hext hadd hstz hoff (fun t h => ⟨from_storable (hts t h) est _, hlen t h⟩)
  exact ⟨w0, w, out, r, backs, h1, h2, h3, h4, h6, from_same hts h5⟩

/-! ## An example -/

/-- The trace of the little endian revision 0 file `exM0`. -/
def exC0 : Trace := ⟨[("FFID", .int 7), ("SAMP_NUM", .int 2)], [d1, d2]⟩

/-- The second trace of the big endian revision 1 file `exOld`. -/
def exC1 : Trace := ⟨[("FFID", .int 8), ("SAMP_NUM", .int 1)], [0x3FF0000000000000]⟩

theorem exM0_read : ∃ r0, ReadOut exM0.bytes none exWMap exB r0 [exC0] ∧ r0.bh = exM0.bh := by
  have h : (do
      let r ← openReader exM0.bytes none exWMap
      let (t, r1) ← readTrace r
      let (h, r2) ← readHeader r
      pure ([hasTrace r, hasTrace r1, hasTrace r2, decide (r.bh = exM0.bh)], t, h)) =
      .ok ([true, false, false, true], exC0, exC0.header) := by
    decide +kernel
  obtain ⟨r0, h0, h⟩ := bind_ok h
  obtain ⟨⟨t, r1⟩, h1, h⟩ := bind_ok h
  obtain ⟨⟨hd, r2⟩, h2, h⟩ := bind_ok h
  have h' := Except.ok.inj h
  simp only [Prod.mk.injEq, List.cons.injEq, and_true, decide_eq_true_eq] at h'
  obtain ⟨⟨e1, e2, e3, e4⟩, rfl, rfl⟩ := h'
  refine ⟨r0, ⟨h0, ⟨e1, ⟨r1, h1, e2⟩, r2, h2, e3⟩, rfl, ?_, by decide +kernel, ?_, by decide +kernel⟩, e4⟩
  · rw [e4]; decide
  · rw [e4]; decide +kernel

private theorem ex_from {bh : BinHeader} (hf : bh.formatCode = 5) :
    ∀ t ∈ [exC1, exC0, exNeg, exC1], FromFile bh exMoved.fields t := by
  intro t ht
  obtain ⟨r0, h0, e0⟩ := exM0_read
  obtain ⟨r1, h1, e1⟩ := exOld_read
  have k0 : bh.formatCode ∈ keptBy r0.bh.formatCode := by rw [e0, hf]; decide
  have k1 : bh.formatCode ∈ keptBy r1.bh.formatCode := by rw [e1, hf]; decide
  simp only [List.mem_cons, List.not_mem_nil, or_false] at ht
  rcases ht with rfl | rfl | rfl | rfl
  · exact ⟨_, _, _, _, _, _, h1, k1, exHolds, .tail _ (.head _)⟩
  · exact ⟨_, _, _, _, _, _, h0, k0, exHolds, .head _⟩
  · exact ⟨_, _, _, _, _, _, h1, k1, exHolds, .head _⟩
  · exact ⟨_, _, _, _, _, _, h1, k1, exHolds, .tail _ (.head _)⟩

private theorem ex_known {bh : BinHeader} (hv : bh.fixedTrLength = 0) :
    ∀ t ∈ [exC1, exC0, exNeg, exC1], LengthKnown bh exMoved.fields t := by
  have hk : ∀ t : Trace, t.header.get "SAMP_NUM" = some (.int t.samples.length) → t.samples.length < 100 →
      LengthKnown bh exMoved.fields t := fun t h1 h2 => by
    unfold LengthKnown
    rw [if_neg (by rw [hv]; simp)]
    refine ⟨h1, ⟨0, "SAMP_NUM", .i32⟩, .head _, rfl, .i32, rfl, ?_⟩
    simp only [IntKind.InRange, IntKind.signed, IntKind.size, reduceCtorEq, if_true, if_false]
    omega
  intro t ht
  simp only [List.mem_cons, List.not_mem_nil, or_false] at ht
  rcases ht with rfl | rfl | rfl | rfl <;> exact hk _ (by decide +kernel) (by decide +kernel)

/-- Traces of a little endian revision 0 file and of a big endian revision 1 file, mixed and one of them twice, are written
to a revision 2 file with another sample format and map. -/
example := C120_rev2_partial (.strict fun _ => 0) [exC1, exC0, exNeg, exC1] exText [] exNewHeader [exMoved] exMoved
  (ex_from rfl) (by decide +kernel) (by decide) ⟨by decide, .inr rfl, by decide⟩
  ⟨rfl, C13_accepts_safe_maps _ _ (fun _ h => absurd rfl h) (by decide +kernel), by decide +kernel, by decide +kernel⟩
  (by decide) (.inl rfl) (by unfold ExtendedOk; decide) rfl rfl (.inl rfl) (ex_known rfl)

/-- The same traces in a revision 1 file with an extended text header. -/
example := C120_rev1_partial (.strict fun _ => 0) [exC1, exC0, exNeg, exC1] exText [exText]
  { formatCode := 5, revMajor := 1, extTextHeadersNum := 1 } [exMoved] exMoved
  (ex_from rfl) (by decide +kernel) (by decide) ⟨by decide, .inl rfl, by decide⟩
  ⟨rfl, C13_accepts_safe_maps _ _ (fun _ h => absurd rfl h) (by decide +kernel), by decide +kernel, by decide +kernel⟩
  rfl (.inl rfl) (by unfold ExtendedOk; decide) (ex_known rfl)

/-- The traces of two samples in a revision 0 file. -/
example := C120_rev0_partial (.strict fun _ => 0) [exC0, exNeg] exText { formatCode := 5, sampPerTr := 2 } [exMoved] exMoved
  (fun t ht => ex_from rfl t (by
    simp only [List.mem_cons, List.not_mem_nil, or_false] at ht ⊢
    tauto))
  (by decide +kernel) ⟨by decide, .inl rfl, by decide⟩
  ⟨rfl, C13_accepts_safe_maps _ _ (fun _ h => absurd rfl h) (by decide +kernel), by decide +kernel, by decide +kernel⟩
  rfl rfl rfl (by decide) (by decide +kernel)

/-- **C120 fails for sample formats that are too small.** Writing a trace with the sample 32767 to a file of 8 bit integers
is undefined. -/
theorem C120_small_format :
    (do let r ← openReader (exText ++ binHeaderBytes .le exBh1 ++ exText ++ exTr2) none exWMap
        let (t, _) ← readTrace r
        let w ← openRev1 [exText] { formatCode := 8, revMajor := 1 } exWMap
        let _ ← writeTraceRev1 (.strict fun _ => 0) w t
        pure true) = (isUb .floatToInt : Out Bool) := by decide +kernel

end Sedaman.Props
