import Verif.Spec.Gather
import Verif.Props.Collect
import Verif.Props.Transfer

/-!
# C121: a SEG-Y file made of traces of SEG-D and SEG-Y files
-/

namespace Sedaman.Props
open Sedaman Sedaman.Spec

private theorem any_storable {bh : BinHeader} {fields : List HField} {t : Trace} (h : FromFile bh fields t ∨ FromSegd fields t)
    (hfmt : bh.formatCode = 5 ∨ bh.formatCode = 6)
    (hsm : ∀ pw data em us, ReadFrom pw data em us → t ∈ us → t.samples.length < 2 ^ 60) (est : LogEst) (bo : ByteOrder) :
    Storable est bh.formatCode bo fields t := by
  rcases h with ⟨_, _, _, _, _, _, h1, h2, h3, h4⟩ | ⟨_, _, _, _, h1, h2, h3⟩
  · exact (readOut_storable h1 h2 est bo h3 h4).1
  · refine from_storable h1 h3 h2 est bo (fun x => ?_) (hsm _ _ _ _ h1 h3)
    rcases hfmt with h | h <;> rw [h]
    · exact (C20_single est bo x).1
    · exact ⟨x, C20_double est bo x⟩

private theorem any_back {bh : BinHeader} {fields : List HField} {est : LogEst} {ts backs : List Trace}
    (hb : List.Forall₂ (TraceBack est bh.formatCode (orderOfMarker bh.endianness) fields) ts backs) :
    List.Forall₂ (Gathered est bh fields) ts backs := by
  refine hb.imp fun t back a => ⟨a, fun ⟨_, _, _, _, _, _, h1, h2, h3, h4⟩ => ?_, fun h => ?_⟩
  · obtain ⟨_, _, _, _, _, _, _, a1⟩ := readOut_trace h1 h4
    have := same_all h3 (ts := [t]) (by simpa using a1)
      (by simpa using (readOut_storable h1 h2 est _ h3 h4).2) (.cons a .nil)
    cases this with
    | cons x _ => exact x
  · refine samples_same a.1 fun x _ => ?_
    rw [h]
    exact C20_double est _ x

/-- **C121 (part).** Traces from any SEG-D and SEG-Y files, in any order and number, are written as one revision 0 file of
IEEE samples. The new header announces as many samples as each trace has. -/
theorem C121_rev0_partial (est : LogEst) (ts : List Trace) (text : Bytes) (bh : BinHeader) (m : HdrMap) (b : HBlock)
    (hts : ∀ t ∈ ts, FromFile bh b.fields t ∨ FromSegd b.fields t) (hfmt : bh.formatCode = 5 ∨ bh.formatCode = 6)
    (ht : text.length = 3200) (hbh : HeaderOk bh) (hm : MapOk bh m b) (hrev : bh.revMajor = 0)
    (hexts : bh.extTextHeadersNum = 0) (hext : bh.extSampPerTr = 0)
    (hlen : ∀ t ∈ ts, (t.samples.length : Int) = bh.sampPerTr % 65536) :
    ∃ w0 w r backs, openRev0 text bh m = .ok w0 ∧ Sedaman.writeAll (writeTraceRev0 est) w0 ts = .ok w ∧
      openReader w.file.data none m = .ok r ∧ Visits r backs ∧ List.Forall₂ (Gathered est bh b.fields) ts backs := by
  obtain ⟨w0, w, r, backs, h1, h2, h3, -, -, h4, h5⟩ := C20_roundtrip_partial est text bh m b ts ht hbh hm hrev hexts
    hext (by rintro rfl; rcases hfmt with h | h <;> cases h)
    (fun t h => ⟨any_storable (hts t h) hfmt (fun _ _ _ _ _ _ => by have := hlen t h; omega) est _, hlen t h⟩)
  exact ⟨w0, w, r, backs, h1, h2, h3, h5, any_back h4⟩

/-- **C121 (part).** The same for revision 1, also with traces of different lengths. -/
theorem C121_rev1_partial (est : LogEst) (ts : List Trace) (text : Bytes) (exts : List Bytes) (bh : BinHeader) (m : HdrMap)
    (b : HBlock) (hts : ∀ t ∈ ts, FromFile bh b.fields t ∨ FromSegd b.fields t)
    (hfmt : bh.formatCode = 5 ∨ bh.formatCode = 6) (hl : ∀ x ∈ text :: exts, x.length = 3200)
    (hn : exts.length < 65536) (hbh : HeaderOk bh) (hm : MapOk bh m b) (hrev : bh.revMajor = 1)
    (hdecl : TextsDeclared bh exts) (hext : ExtendedOk bh) (hlen : ∀ t ∈ ts, LengthKnown bh b.fields t) :
    ∃ w0 w r backs, openRev1 (text :: exts) bh m = .ok w0 ∧ Sedaman.writeAll (writeTraceRev1 est) w0 ts = .ok w ∧
      openReader w.file.data none m = .ok r ∧ Visits r backs ∧ List.Forall₂ (Gathered est bh b.fields) ts backs := by
  obtain ⟨w0, w, r, backs, h1, h2, h3, -, -, h4, h5⟩ := C21_roundtrip_partial est text exts bh m b ts hl hn hbh hm hrev
    hdecl hext (fun t h => ⟨any_storable (hts t h) hfmt (fun _ _ _ _ k1 k2 => known_small k1 k2 (hlen t h)) est _, hlen t h⟩)
  exact ⟨w0, w, r, backs, h1, h2, h3, h5, any_back h4⟩

/-- **C121 (part).** The same for revision 2. -/
theorem C121_rev2_partial (est : LogEst) (ts : List Trace) (text : Bytes) (exts : List Bytes) (bh : BinHeader) (m : HdrMap)
    (b : HBlock) (hts : ∀ t ∈ ts, FromFile bh b.fields t ∨ FromSegd b.fields t)
    (hfmt : bh.formatCode = 5 ∨ bh.formatCode = 6) (hl : ∀ x ∈ text :: exts, x.length = 3200)
    (hn : exts.length < 65536) (hbh : HeaderOk bh) (hm : MapOk bh m b) (hrev : 2 ≤ bh.revMajor)
    (hdecl : TextsDeclared bh exts) (hext : ExtendedOk bh) (hadd : bh.maxNumAddTrHeaders = 0)
    (hstz : bh.numOfTrailerStanza = 0)
    (hoff : bh.byteOffOfFirstTr = 0 ∨ bh.byteOffOfFirstTr = 3600 + 3200 * exts.length)
    (hlen : ∀ t ∈ ts, LengthKnown bh b.fields t) :
    ∃ w0 w out r backs, openRev2 (text :: exts) bh [] m = .ok w0 ∧
      Sedaman.writeAll (writeTraceRev2 est) w0 ts = .ok w ∧ closeRev2 w = .ok out ∧ openReader out none m = .ok r ∧
      Visits r backs ∧ List.Forall₂ (Gathered est bh b.fields) ts backs := by
  obtain ⟨w0, w, out, r, backs, h1, h2, h3, h4, -, -, -, h5, h6⟩ := C22_roundtrip_partial est text exts bh m b ts hl hn
    hbh hm hrev hdecl hext hadd hstz hoff
    (fun t h => ⟨any_storable (hts t h) hfmt (fun _ _ _ _ k1 k2 => known_small k1 k2 (hlen t h)) est _, hlen t h⟩)
  exact ⟨w0, w, out, r, backs, h1, h2, h3, h4, h6, any_back h5⟩

/-! ## Examples -/

private theorem ex_any {bh : BinHeader} (hf : bh.formatCode = 5) :
    ∀ t ∈ [exC1, transferTrace, exC0], FromFile bh exMoved.fields t ∨ FromSegd exMoved.fields t := by
  intro t ht
  obtain ⟨r0, h0, e0⟩ := exM0_read
  obtain ⟨r1, h1, e1⟩ := exOld_read
  obtain ⟨d, -, hr⟩ := transfer_read
  have k0 : bh.formatCode ∈ keptBy r0.bh.formatCode := by rw [e0, hf]; decide
  have k1 : bh.formatCode ∈ keptBy r1.bh.formatCode := by rw [e1, hf]; decide
  simp only [List.mem_cons, List.not_mem_nil, or_false] at ht
  rcases ht with rfl | rfl | rfl
  · exact .inl ⟨_, _, _, _, _, _, h1, k1, exHolds, .tail _ (.head _)⟩
  · exact .inr ⟨_, _, _, _, hr, by decide +kernel, .head _⟩
  · exact .inl ⟨_, _, _, _, _, _, h0, k0, exHolds, .head _⟩

private theorem ex_told {bh : BinHeader} (hv : bh.fixedTrLength = 0) :
    ∀ t ∈ [exC1, transferTrace, exC0], LengthKnown bh exMoved.fields t := by
  have hk : ∀ t : Trace, t.header.get "SAMP_NUM" = some (.int t.samples.length) → t.samples.length < 100 →
      LengthKnown bh exMoved.fields t := fun t h1 h2 => by
    unfold LengthKnown
    rw [if_neg (by rw [hv]; simp)]
    refine ⟨h1, ⟨0, "SAMP_NUM", .i32⟩, .head _, rfl, .i32, rfl, ?_⟩
    simp only [IntKind.InRange, IntKind.signed, IntKind.size, reduceCtorEq, if_true, if_false]
    omega
  intro t ht
  simp only [List.mem_cons, List.not_mem_nil, or_false] at ht
  rcases ht with rfl | rfl | rfl <;> exact hk _ (by decide +kernel) (by decide +kernel)

/-- A trace of a SEG-D file between traces of a revision 1 and a revision 0 SEG-Y file, in a revision 2 file. -/
example := C121_rev2_partial (.strict fun _ => 0) [exC1, transferTrace, exC0] exText [] exNewHeader [exMoved] exMoved
  (ex_any rfl) (.inl rfl) (by decide +kernel) (by decide) ⟨by decide, .inr rfl, by decide⟩
  ⟨rfl, C13_accepts_safe_maps _ _ (fun _ h => absurd rfl h) (by decide +kernel), by decide +kernel, by decide +kernel⟩
  (by decide) (.inl rfl) (by unfold ExtendedOk; decide) rfl rfl (.inl rfl) (ex_told rfl)

/-- The same in a revision 1 file. -/
example := C121_rev1_partial (.strict fun _ => 0) [exC1, transferTrace, exC0] exText [exText]
  { formatCode := 5, revMajor := 1, extTextHeadersNum := 1 } [exMoved] exMoved
  (ex_any rfl) (.inl rfl) (by decide +kernel) (by decide) ⟨by decide, .inl rfl, by decide⟩
  ⟨rfl, C13_accepts_safe_maps _ _ (fun _ h => absurd rfl h) (by decide +kernel), by decide +kernel, by decide +kernel⟩
  rfl (.inl rfl) (by unfold ExtendedOk; decide) (ex_told rfl)

/-- The traces of two samples in a revision 0 file. -/
example := C121_rev0_partial (.strict fun _ => 0) [transferTrace, exC0] exText { formatCode := 5, sampPerTr := 2 }
  [exMoved] exMoved
  (fun t ht => ex_any rfl t (by
    simp only [List.mem_cons, List.not_mem_nil, or_false] at ht ⊢
    tauto)) (.inl rfl)
  (by decide +kernel) ⟨by decide, .inl rfl, by decide⟩
  ⟨rfl, C13_accepts_safe_maps _ _ (fun _ h => absurd rfl h) (by decide +kernel), by decide +kernel, by decide +kernel⟩
  rfl rfl rfl (by decide +kernel)

end Sedaman.Props
