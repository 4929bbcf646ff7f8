import Verif.Lemmas.Rewrite
import Verif.Lemmas.Transfer

/-!
# C102: traces of any SEG-Y file can be written with other headers, in any revision
-/

namespace Sedaman.Props

open Spec

/-- **C102 (part).** The traces of a file are written as a revision 0 file, with any text header, byte order,
header map and sample format that hold the values, and come back the same. The new header announces as many
samples as each trace has. -/
theorem C102_rev0_partial (data : Bytes) (ub : Option BinHeader) (m0 : HdrMap) (b0 : HBlock) (r0 : Reader)
    (ts : List Trace) (hread : ReadOut data ub m0 b0 r0 ts) (est : LogEst) (text : Bytes) (bh : BinHeader) (m : HdrMap)
    (b : HBlock) (hkeep : bh.formatCode ∈ keptBy r0.bh.formatCode) (hmap : Holds b0.fields b.fields)
    (ht : text.length = 3200) (hbh : HeaderOk bh) (hm : MapOk bh m b) (hrev : bh.revMajor = 0)
    (hexts : bh.extTextHeadersNum = 0) (hext : bh.extSampPerTr = 0) (hexplicit : bh ≠ { formatCode := 1 })
    (hlen : ∀ t ∈ ts, (t.samples.length : Int) = bh.sampPerTr % 65536) :
    ∃ w0 w r backs, openRev0 text bh m = .ok w0 ∧ writeAll (writeTraceRev0 est) w0 ts = .ok w ∧
      openReader w.file.data none m = .ok r ∧ Visits r backs ∧ List.Forall₂ SameTrace ts backs := by
  obtain ⟨w0, w, r, backs, h1, h2, h3, -, -, h4, h5⟩ := C20_roundtrip_partial est text bh m b ts ht hbh hm hrev hexts
    hext hexplicit (fun t h => ⟨(readOut_storable hread hkeep est _ hmap h).1, hlen t h⟩)
  exact ⟨w0, w, r, backs, h1, h2, h3, h5, readOut_same hread hkeep hmap h4⟩

/-- **C102 (part).** The same for revision 1, also with traces of different lengths; see `C102_lengths` for the
condition on the lengths. -/
theorem C102_rev1_partial (data : Bytes) (ub : Option BinHeader) (m0 : HdrMap) (b0 : HBlock) (r0 : Reader)
    (ts : List Trace) (hread : ReadOut data ub m0 b0 r0 ts) (est : LogEst) (text : Bytes) (exts : List Bytes)
    (bh : BinHeader) (m : HdrMap) (b : HBlock) (hkeep : bh.formatCode ∈ keptBy r0.bh.formatCode)
    (hmap : Holds b0.fields b.fields) (hl : ∀ x ∈ text :: exts, x.length = 3200) (hn : exts.length < 65536)
    (hbh : HeaderOk bh) (hm : MapOk bh m b) (hrev : bh.revMajor = 1) (hdecl : TextsDeclared bh exts)
    (hext : ExtendedOk bh) (hlen : ∀ t ∈ ts, LengthKnown bh b.fields t) :
    ∃ w0 w r backs, openRev1 (text :: exts) bh m = .ok w0 ∧ writeAll (writeTraceRev1 est) w0 ts = .ok w ∧
      openReader w.file.data none m = .ok r ∧ Visits r backs ∧ List.Forall₂ SameTrace ts backs := by
  obtain ⟨w0, w, r, backs, h1, h2, h3, -, -, h4, h5⟩ := C21_roundtrip_partial est text exts bh m b ts hl hn hbh hm hrev
    hdecl hext (fun t h => ⟨(readOut_storable hread hkeep est _ hmap h).1, hlen t h⟩)
  exact ⟨w0, w, r, backs, h1, h2, h3, h5, readOut_same hread hkeep hmap h4⟩

/-- **C102 (part).** The same for revision 2. -/
theorem C102_rev2_partial (data : Bytes) (ub : Option BinHeader) (m0 : HdrMap) (b0 : HBlock) (r0 : Reader)
    (ts : List Trace) (hread : ReadOut data ub m0 b0 r0 ts) (est : LogEst) (text : Bytes) (exts : List Bytes)
    (bh : BinHeader) (m : HdrMap) (b : HBlock) (hkeep : bh.formatCode ∈ keptBy r0.bh.formatCode)
    (hmap : Holds b0.fields b.fields) (hl : ∀ x ∈ text :: exts, x.length = 3200) (hn : exts.length < 65536)
    (hbh : HeaderOk bh) (hm : MapOk bh m b) (hrev : 2 ≤ bh.revMajor) (hdecl : TextsDeclared bh exts)
    (hext : ExtendedOk bh) (hadd : bh.maxNumAddTrHeaders = 0) (hstz : bh.numOfTrailerStanza = 0)
    (hoff : bh.byteOffOfFirstTr = 0 ∨ bh.byteOffOfFirstTr = 3600 + 3200 * exts.length)
    (hlen : ∀ t ∈ ts, LengthKnown bh b.fields t) :
    ∃ w0 w out r backs, openRev2 (text :: exts) bh [] m = .ok w0 ∧ writeAll (writeTraceRev2 est) w0 ts = .ok w ∧
      closeRev2 w = .ok out ∧ openReader out none m = .ok r ∧ Visits r backs ∧ List.Forall₂ SameTrace ts backs := by
  obtain ⟨w0, w, out, r, backs, h1, h2, h3, h4, -, -, -, h5, h6⟩ := C22_roundtrip_partial est text exts bh m b ts hl hn
    hbh hm hrev hdecl hext hadd hstz hoff (fun t h => ⟨(readOut_storable hread hkeep est _ hmap h).1, hlen t h⟩)
  exact ⟨w0, w, out, r, backs, h1, h2, h3, h4, h6, readOut_same hread hkeep hmap h5⟩

/-- **C102.** Files of traces of different lengths, whose map has an integer of at most 32 bits for the number of
samples: the traces carry their number of samples, so that they can be written to files of that kind. -/
theorem C102_lengths (data : Bytes) (ub : Option BinHeader) (m0 : HdrMap) (b0 : HBlock) (r0 : Reader)
    (ts : List Trace) (hread : ReadOut data ub m0 b0 r0 ts) (hfix : r0.bh.fixedTrLength = 0) (hrev0 : r0.bh.revMajor ≠ 0)
    (f : HField) (hf : f ∈ b0.fields) (hfn : f.name = "SAMP_NUM") (hft : f.ty.size ≤ 4) (bh : BinHeader) (b : HBlock)
    (hmap : Holds b0.fields b.fields) (hbh : bh.fixedTrLength = 0) : ∀ t ∈ ts, LengthKnown bh b.fields t := by
  intro t ht
  obtain ⟨g, hg, e⟩ := List.mem_map.1 ((hmap.names f.name).1 (List.mem_map_of_mem hf))
  obtain ⟨k, k', h1, h2, h3⟩ := hmap.types f hf g hg e
  have hc := readOut_count hread (by unfold fixedLength; simp [hfix, hrev0]) hf hfn h1 (by rw [kind_size h1]; exact hft) ht
  obtain ⟨s, s', -, -, -, -, -, hh⟩ := readOut_trace hread ht
  obtain ⟨v, v1, v2⟩ := hh.mapped f hf k h1
  rw [hfn, hc] at v1
  cases v1
  unfold LengthKnown
  rw [if_neg (by simp [hbh])]
  exact ⟨hc, g, hg, e.trans hfn, k', h2, h3 _ v2⟩

/-- **C102.** Files of traces of one length: each trace has the number of samples that the reader reports. -/
theorem C102_one_length (data : Bytes) (ub : Option BinHeader) (m0 : HdrMap) (b0 : HBlock) (r0 : Reader)
    (ts : List Trace) (hread : ReadOut data ub m0 b0 r0 ts) (hfix : r0.bh.fixedTrLength ≠ 0 ∨ r0.bh.revMajor = 0) :
    ∀ t ∈ ts, (t.samples.length : Int) = r0.spt := by
  intro t ht
  obtain ⟨s, s', a1, a2, a3, a4, -⟩ := readOut_trace hread ht
  rw [← a4]
  exact C32_every_trace data ub m0 s s' t a1 (by rw [a3]; exact hfix) a2

/-- **C102 fails for maps with floating point fields.** A trace read with a map that has one is refused by every
writer whose map has a field of that name, whatever the content of the file. -/
theorem C102_float_refused (data : Bytes) (ub : Option BinHeader) (m0 : HdrMap) (b0 : HBlock) (r0 : Reader)
    (ts : List Trace) (hread : ReadOut data ub m0 b0 r0 ts) (f : HField) (hf : f ∈ b0.fields) (hty : intKind f.ty = none)
    (t : Trace) (ht : t ∈ ts) (est : LogEst) (w w' : Writer) (b : HBlock) (hb : w.map.head? = some b) (g : HField)
    (hg : g ∈ b.fields) (hn : g.name = f.name) :
    writeTraceRev0 est w t ≠ .ok w' ∧ writeTraceRev1 est w t ≠ .ok w' ∧ writeTraceRev2 est w t ≠ .ok w' := by
  have hd : IsDbl t.header g.name := by rw [hn]; exact readOut_float hread hf hty ht
  refine ⟨fun h => ?_, fun h => ?_, fun h => ?_⟩ <;>
  · obtain ⟨w1, h1, h⟩ := bind_ok h
    obtain ⟨w2, h2, h⟩ := bind_ok h
    exact put_dbl (by rw [(auto_keeps h1).1]; exact hb) hg hd h2

/-! ## An example -/

/-- A map with the same names at other places, in wider types. -/
def exMoved : HBlock := ⟨"SEG00000", [⟨0, "SAMP_NUM", .i32⟩, ⟨100, "FFID", .i64⟩]⟩

/-- The binary header of the new file: revision 2, little endian, IEEE single precision. -/
def exNewHeader : BinHeader := { formatCode := 5, revMajor := 2, endianness := 0x01020304 }

/-- A revision 1 file, big endian, of 16 bit integers, with traces of two samples and of one. -/
def exOld : Bytes := exFile exRev1 (exBlock 7 2 ++ [0, 5, 0xff, 0xfe] ++ (exBlock 8 1 ++ [0, 1]))

theorem exHolds : Holds exB.fields exMoved.fields := by
  refine ⟨fun n => by simp [exB, exMoved]; tauto, fun f hf f' hf' hn => ?_⟩
  simp only [exB, exMoved, List.mem_cons, List.not_mem_nil, or_false] at hf hf'
  rcases hf with rfl | rfl <;> rcases hf' with rfl | rfl
  · exact absurd hn (by decide)
  · exact ⟨.i32, .i64, rfl, rfl, fun v h => by
      simp only [Shown, IntKind.InRange, IntKind.signed, IntKind.size, reduceCtorEq, if_true, if_false] at h ⊢; omega⟩
  · exact ⟨.i16, .i32, rfl, rfl, fun v h => by
      simp only [Shown, IntKind.InRange, IntKind.signed, IntKind.size, reduceCtorEq, if_true, if_false] at h ⊢; omega⟩
  · exact absurd hn (by decide)

/-- It is read as two traces. -/
theorem exOld_read : ∃ r0, ReadOut exOld none exMap exB r0
      [exNeg, ⟨[("FFID", .int 8), ("SAMP_NUM", .int 1)], [0x3FF0000000000000]⟩] ∧ r0.bh = exRev1 := by
  have h : (do
      let r ← openReader exOld none exMap
      let (t, r1) ← readTrace r
      let (h, r2) ← readHeader r
      let (t', r3) ← readTrace r1
      let (h', r4) ← readHeader r1
      let (t'', r5) ← readTrace r2
      let (h'', r6) ← readHeader r2
      pure ([hasTrace r, hasTrace r1, hasTrace r2, hasTrace r3, hasTrace r4, hasTrace r5, hasTrace r6,
        decide (r.bh = exRev1)], [t, t', t''], [h, h', h''])) =
      .ok ([true, true, true, false, false, false, false, true],
        [exNeg, ⟨[("FFID", .int 8), ("SAMP_NUM", .int 1)], [0x3FF0000000000000]⟩,
          ⟨[("FFID", .int 8), ("SAMP_NUM", .int 1)], [0x3FF0000000000000]⟩],
        [exNeg.header, [("FFID", .int 8), ("SAMP_NUM", .int 1)], [("FFID", .int 8), ("SAMP_NUM", .int 1)]]) := by
    decide +kernel
  obtain ⟨r0, h0, h⟩ := bind_ok h
  obtain ⟨⟨t, r1⟩, h1, h⟩ := bind_ok h
  obtain ⟨⟨hd, r2⟩, h2, h⟩ := bind_ok h
  obtain ⟨⟨t', r3⟩, h3, h⟩ := bind_ok h
  obtain ⟨⟨hd', r4⟩, h4, h⟩ := bind_ok h
  obtain ⟨⟨t'', r5⟩, h5, h⟩ := bind_ok h
  obtain ⟨⟨hd'', r6⟩, h6, h⟩ := bind_ok h
  have h' := Except.ok.inj h
  simp only [Prod.mk.injEq, List.cons.injEq, and_true, decide_eq_true_eq] at h'
  obtain ⟨⟨e1, e2, e3, e4, e5, e6, e7, e8⟩, ⟨rfl, rfl, rfl⟩, rfl, rfl, rfl⟩ := h'
  refine ⟨r0, ⟨h0, ⟨e1, ⟨r1, h1, e2, ⟨r3, h3, e4⟩, r4, h4, e5⟩, r2, h2, e3, ⟨r5, h5, e6⟩, r6, h6, e7⟩, rfl, ?_,
    by decide +kernel, ?_, by decide +kernel⟩, e8⟩
  · rw [e8]; decide
  · rw [e8]; decide +kernel

/-- The two traces, written to a revision 2 file with other byte order, sample format and map, come back. -/
example : ∃ w0 w out r backs, openRev2 [exText] exNewHeader [] [exMoved] = .ok w0 ∧
    writeAll (writeTraceRev2 (.strict fun _ => 0)) w0
      [exNeg, ⟨[("FFID", .int 8), ("SAMP_NUM", .int 1)], [0x3FF0000000000000]⟩] = .ok w ∧
    closeRev2 w = .ok out ∧ openReader out none [exMoved] = .ok r ∧ Visits r backs ∧
    List.Forall₂ SameTrace [exNeg, ⟨[("FFID", .int 8), ("SAMP_NUM", .int 1)], [0x3FF0000000000000]⟩] backs := by
  obtain ⟨r0, hr, e⟩ := exOld_read
  exact C102_rev2_partial exOld none exMap exB r0 _ hr (.strict fun _ => 0) exText [] exNewHeader [exMoved] exMoved
    (by rw [e]; decide) exHolds (by decide +kernel) (by decide) ⟨by decide, .inr rfl, by decide⟩
    ⟨rfl, C13_accepts_safe_maps _ _ (fun _ h => absurd rfl h) (by decide +kernel), by decide +kernel, by decide +kernel⟩
    (by decide) (.inl rfl) (by unfold ExtendedOk; decide) rfl rfl (.inl rfl)
    (C102_lengths exOld none exMap exB r0 _ hr (by rw [e]; rfl) (by rw [e]; decide) ⟨114, "SAMP_NUM", .i16⟩ (by decide)
      rfl (by decide) exNewHeader exMoved exHolds rfl)

/-- A map with a floating point field, for reading and for writing. -/
example : (do
      let m : HdrMap := [⟨"SEG00000", [⟨8, "FFID", .ieeeSingle⟩, ⟨114, "SAMP_NUM", .i16⟩]⟩]
      let r ← openReader exOld none m
      let (t, _) ← readTrace r
      let w ← openRev1 [exText] { formatCode := 5, revMajor := 1 } m
      writeTraceRev1 (.strict fun _ => 0) w t) = throwExn .badVariantAccess := by
  decide +kernel

end Sedaman.Props
