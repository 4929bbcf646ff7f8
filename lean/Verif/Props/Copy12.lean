import Verif.Lemmas.Copy12
import Verif.Props.Copy

/-!
# C82: copying revision 1 and 2 files
-/

namespace Sedaman.Props

open Spec

theorem copy_again {est : LogEst} {rev : Rev} (hr : rev ≠ .r0) {text : Bytes} {exts trl : List Bytes} {bh : BinHeader}
    {m : HdrMap} {b : HBlock} {bps : Nat} {cs : List Bytes} {us : List Trace} (hl : ∀ x ∈ text :: exts, x.length = 3200)
    (hn : exts.length < 65536) (hbh : HeaderOk bh) (hm : MapOk bh m b) (hrev : 1 ≤ bh.revMajor)
    (hadd : rev = .r2 → bh.maxNumAddTrHeaders = 0) (hbps : bytesPerSample bh.formatCode = some bps)
    (hu : ∀ t ∈ us, Storable est bh.formatCode (orderOfMarker bh.endianness) b.fields t ∧ LengthKnown bh b.fields t)
    (hc : List.Forall₂ (Chunk est (orderOfMarker bh.endianness) bh.formatCode b.fields) us cs) :
    ∃ w, writeAll (rev.write est) (openedWriter false text exts trl bh m (orderOfMarker bh.endianness) bps) us = .ok w ∧
      w.file.data = text ++ binHeaderBytes (orderOfMarker bh.endianness) bh ++ exts.flatten ++ cs.flatten ∧
      w.bh.numOfTrailerStanza = bh.numOfTrailerStanza ∧ w.trailers = trl := by
  have ht : text.length = 3200 := hl text List.mem_cons_self
  generalize hw0 : openedWriter false text exts trl bh m (orderOfMarker bh.endianness) bps = w0
  have hi : WInv2 rev w0 := by
    rw [← hw0]
    exact opened_inv2 (by simpa using hr) (by omega) (fun _ => hn) (by rw [fmt_ne hbh]; exact hbh.format)
      (by rw [fmt_ne hbh]; exact hbps)
  have e1 : w0.bh = { bh with extTextHeadersNum := toS 2 (toU 2 (((exts.length + 1 : Nat) : Int) - 1)) } := by
    rw [← hw0]
    unfold openedWriter memHeader
    simp only [Bool.false_eq_true, if_false]
    rw [fmt_ne hbh]
  have e2 : w0.bo = orderOfMarker bh.endianness := by rw [← hw0]; rfl
  have e3 : w0.map = m := by rw [← hw0]; rfl
  have e4 : w0.auto = false := by
    have : w0.auto = decide (w0.bh = { formatCode := 5 }) := by rw [← hw0]; rfl
    rw [this, decide_eq_false_iff_not]
    intro c
    have := congrArg BinHeader.revMajor c
    rw [e1] at this
    simp only at this
    omega
  have e5 : w0.trailers = trl := by rw [← hw0]; rfl
  have e6 : w0.file.data = text ++ binHeaderBytes (orderOfMarker bh.endianness) bh ++ exts.flatten := by
    rw [← hw0]
    unfold openedWriter
    simp only [Bool.false_eq_true, if_false]
    rw [fmt_ne hbh, List.take_of_length_le (by rw [ht]), textBytes_exact fun x hx => hl x (List.mem_cons_of_mem _ hx),
      List.append_assoc]
  obtain ⟨m', hmm⟩ : ∃ m', m = b :: m' := by
    have := hm.head
    cases m with
    | nil => cases this
    | cons x y => simp only [List.head?_cons, Option.some.injEq] at this; exact ⟨y, by rw [this]⟩
  obtain ⟨w, q1, q2, q3, q4⟩ := write_copy (est := est) (us := us) (cs := cs) hi e4 (e3.trans hmm)
    (fun h => by rw [e1]; exact hadd h) hm.safe
    (fun t ht => by
      obtain ⟨a1, a2⟩ := hu t ht
      refine ⟨by rw [e2]; exact a1.ints, by rw [e1, e2]; exact a1.samples, ?_, a1.size⟩
      unfold LengthKnown at a2
      unfold Announced
      rw [e1]
      simp only
      by_cases hf : bh.fixedTrLength ≠ 0
      · rw [if_pos hf] at a2
        rw [if_pos (.inr hf)]
        exact a2
      · rw [if_neg hf] at a2
        rw [if_neg (fun c => c.elim hr hf)]
        exact a2.1)
    (by rw [e1, e2]; exact hc)
  exact ⟨w, q1, by rw [q2, e6], by rw [q3, e1], q4.trans e5⟩

theorem copy_bin_ok {bin : Bytes} {bo : ByteOrder} {bh : BinHeader} (hl : bin.length = 400)
    (hm : decInt .le ((bin.drop 96).take 4) = 0 ∨ decInt .le ((bin.drop 96).take 4) = 0x01020304)
    (hz : ∀ i, i < 400 → ¬ BinCovered bin i → bin[i]? = some 0)
    (hf : fillBinHeader {} false bin = .ok (bo, bh)) (hfmt : bh.formatCode ∈ supportedFormats) :
    HeaderOk bh ∧ visible bh = bh ∧ bo = orderOfMarker bh.endianness ∧
      binHeaderBytes (orderOfMarker bh.endianness) bh = bin := by
  obtain ⟨bo', bh', g1, g2, g3, g4, g5, g6⟩ := C07_rewrite_partial bin hl hm hz
  rw [hf] at g1
  have := Except.ok.inj g1
  simp only [Prod.mk.injEq] at this
  obtain ⟨rfl, rfl⟩ := this
  have hbh : HeaderOk bh := ⟨g2, g5, hfmt⟩
  rw [order_ok hbh] at g4
  have e := Except.ok.inj g4
  exact ⟨hbh, g3, e.symm, by rw [e]; exact g6⟩

theorem copy_backs_ok {est : LogEst} {bh : BinHeader} {fields : List HField} {ts backs : List Trace}
    {cs : List Bytes} {bo : ByteOrder} (hint : ∀ f ∈ fields, ∃ k, intKind f.ty = some k)
    (h1 : List.Forall₂ (Chunk est bo bh.formatCode fields) ts cs)
    (h2 : ∀ t ∈ ts, Storable est bh.formatCode bo fields t ∧ LengthKnown bh fields t ∧
        ∀ x ∈ t.samples, Survives est bh.formatCode bo x)
    (h3 : List.Forall₂ (TraceBack est bh.formatCode bo fields) ts backs) :
    (∀ t ∈ backs, Storable est bh.formatCode bo fields t ∧ LengthKnown bh fields t) ∧
      List.Forall₂ (Chunk est bo bh.formatCode fields) backs cs := by
  refine ⟨fun t ht => ?_, ?_⟩
  · obtain ⟨o, ho, hb⟩ := forall₂_mem_right h3 ht
    obtain ⟨a1, a2, a3⟩ := h2 o ho
    exact ⟨storable_back hint a1 hb a3, length_back a2 hb a3⟩
  · exact chunks_back hint (fun t ht f hf => ((h2 t ht).1.ints f hf).imp fun _ h => h.1) h3 (fun t ht => (h2 t ht).2.2) h1

/-- **C82 (part).** A revision 1 file is copied byte for byte: opening it, reading all traces and writing
the text headers, the binary header and the traces with `OSEGYRev1` gives the file again. Traces may
all have the same length or different ones. The binary header is zero where the standard assigns no
field, the header blocks are zero outside the map, the map has integer fields only, and each sample
is one the library writes as it reads it (`C55_sample_...`). -/
theorem C82_copy_rev1_partial (est : LogEst) (text bin : Bytes) (exts cs : List Bytes) (m : HdrMap) (b : HBlock)
    (bo : ByteOrder) (bh : BinHeader) (ht : ∀ x ∈ text :: exts, x.length = 3200) (hn : exts.length < 65536)
    (hl : bin.length = 400)
    (hm : decInt .le ((bin.drop 96).take 4) = 0 ∨ decInt .le ((bin.drop 96).take 4) = 0x01020304)
    (hz : ∀ i, i < 400 → ¬ BinCovered bin i → bin[i]? = some 0)
    (hf : fillBinHeader {} false bin = .ok (bo, bh)) (hfmt : bh.formatCode ∈ supportedFormats)
    (hrev : bh.revMajor = 1) (hdecl : TextsDeclared bh exts) (hext : ExtendedOk bh)
    (hmap : MapOk bh m b) (hint : ∀ f ∈ b.fields, ∃ k, intKind f.ty = some k)
    (hcs : ∀ c ∈ cs, CopyableTrace12 est bh bo b.fields c) :
    ∃ r ts w0 w, openReader (text ++ bin ++ exts.flatten ++ cs.flatten) none m = .ok r ∧ Visits r ts ∧
      ts.length = cs.length ∧ r.texts = text :: exts ∧ openRev1 r.texts r.bh m = .ok w0 ∧
      writeAll (writeTraceRev1 est) w0 ts = .ok w ∧
      w.file.data = text ++ bin ++ exts.flatten ++ cs.flatten := by
  obtain ⟨hbh, hvis, rfl, hbin⟩ := copy_bin_ok hl hm hz hf hfmt
  obtain ⟨ts, h1, h2⟩ := traces_of12 hfmt hmap.safe hmap.names hint hcs
  obtain ⟨bps, hbps⟩ := bps_exists hfmt
  obtain ⟨w0, w, r, backs, k1, k2, k3, k4, k5, k6, k7⟩ := C21_roundtrip_partial est text exts bh m b ts ht hn hbh hmap
    hrev hdecl hext fun t ht' => ⟨(h2 t ht').1, (h2 t ht').2.1⟩
  have hopen := openRev1_of hmap.accepted ht (order_ok hbh) (by rw [fmt_ne hbh]; exact hfmt)
    (by rw [fmt_ne hbh]; exact hbps)
  rw [hopen] at k1
  have hw0 := Except.ok.inj k1
  obtain ⟨w1, q1, q2, _, _⟩ := copy_again (est := est) (rev := .r1) (by simp) (trl := []) ht hn hbh hmap (by omega) (by simp) hbps
    (fun t ht' => ⟨(h2 t ht').1, (h2 t ht').2.1⟩) h1
  rw [hw0] at q1
  have e := Except.ok.inj ((show writeAll (writeTraceRev1 est) w0 ts = .ok w1 from q1).symm.trans k2)
  subst e
  rw [hbin] at q2
  rw [q2] at k3
  obtain ⟨b1, b2⟩ := copy_backs_ok hint h1 h2 k6
  obtain ⟨w2, q3, q4, _, _⟩ := copy_again (est := est) (rev := .r1) (by simp) (trl := []) ht hn hbh hmap (by omega) (by simp) hbps
    b1 b2
  rw [hw0] at q3
  rw [hbin] at q4
  refine ⟨r, backs, w0, w2, k3, k7, ?_, k4, ?_, q3, q4⟩
  · rw [← k6.length_eq, h1.length_eq]
  · rw [k4, k5, hvis, ← hw0]
    exact hopen

/-- **C82 (part).** The same for revision 2 files without additional trace headers and without trailer
stanzas, written with `OSEGYRev2`. -/
theorem C82_copy_rev2_partial (est : LogEst) (text bin : Bytes) (exts cs : List Bytes) (m : HdrMap) (b : HBlock)
    (bo : ByteOrder) (bh : BinHeader) (ht : ∀ x ∈ text :: exts, x.length = 3200) (hn : exts.length < 65536)
    (hl : bin.length = 400)
    (hm : decInt .le ((bin.drop 96).take 4) = 0 ∨ decInt .le ((bin.drop 96).take 4) = 0x01020304)
    (hz : ∀ i, i < 400 → ¬ BinCovered bin i → bin[i]? = some 0)
    (hf : fillBinHeader {} false bin = .ok (bo, bh)) (hfmt : bh.formatCode ∈ supportedFormats)
    (hrev : 2 ≤ bh.revMajor) (hdecl : TextsDeclared bh exts) (hext : ExtendedOk bh)
    (hadd : bh.maxNumAddTrHeaders = 0) (hstz : bh.numOfTrailerStanza = 0)
    (hoff : bh.byteOffOfFirstTr = 0 ∨ bh.byteOffOfFirstTr = 3600 + 3200 * exts.length)
    (hmap : MapOk bh m b) (hint : ∀ f ∈ b.fields, ∃ k, intKind f.ty = some k)
    (hcs : ∀ c ∈ cs, CopyableTrace12 est bh bo b.fields c) :
    ∃ r ts w0 w, openReader (text ++ bin ++ exts.flatten ++ cs.flatten) none m = .ok r ∧ Visits r ts ∧
      ts.length = cs.length ∧ r.texts = text :: exts ∧ openRev2 r.texts r.bh r.trailers m = .ok w0 ∧
      writeAll (writeTraceRev2 est) w0 ts = .ok w ∧
      closeRev2 w = .ok (text ++ bin ++ exts.flatten ++ cs.flatten) := by
  obtain ⟨hbh, hvis, rfl, hbin⟩ := copy_bin_ok hl hm hz hf hfmt
  obtain ⟨ts, h1, h2⟩ := traces_of12 hfmt hmap.safe hmap.names hint hcs
  obtain ⟨bps, hbps⟩ := bps_exists hfmt
  obtain ⟨w0, w, data, r, backs, k1, k2, k2', k3, k4, k5, k5', k6, k7⟩ := C22_roundtrip_partial est text exts bh m b ts ht hn
    hbh hmap hrev hdecl hext hadd hstz hoff fun t ht' => ⟨(h2 t ht').1, (h2 t ht').2.1⟩
  have hopen := openRev2_of (trl := []) hmap.accepted ht (by simp) (order_ok hbh) (by rw [fmt_ne hbh]; exact hfmt)
    (by rw [fmt_ne hbh]; exact hbps)
  rw [hopen] at k1
  have hw0 := Except.ok.inj k1
  obtain ⟨w1, q1, q2, q5, _⟩ := copy_again (est := est) (rev := .r2) (by simp) (trl := []) ht hn hbh hmap (by omega) (fun _ => hadd)
    hbps (fun t ht' => ⟨(h2 t ht').1, (h2 t ht').2.1⟩) h1
  rw [hw0] at q1
  have e := Except.ok.inj ((show writeAll (writeTraceRev2 est) w0 ts = .ok w1 from q1).symm.trans k2)
  subst e
  rw [C23_undeclared_dropped w1 (q5.trans hstz)] at k2'
  rw [hbin] at q2
  rw [← Except.ok.inj k2', q2] at k3
  obtain ⟨b1, b2⟩ := copy_backs_ok hint h1 h2 k6
  obtain ⟨w2, q3, q4, q6, _⟩ := copy_again (est := est) (rev := .r2) (by simp) (trl := []) ht hn hbh hmap (by omega)
    (fun _ => hadd) hbps b1 b2
  rw [hw0] at q3
  rw [hbin] at q4
  refine ⟨r, backs, w0, w2, k3, k7, ?_, k4, ?_, q3, ?_⟩
  · rw [← k6.length_eq, h1.length_eq]
  · rw [k4, k5, k5', ← hw0]
    exact hopen
  · rw [C23_undeclared_dropped w2 (q6.trans hstz), q4]

/-- **C82 (part).** The same for revision 2 files with trailer stanzas, in the case in which they can be
read at all: their number is given as -1, the last one and no other is the end stanza, the traces
have different lengths, in the field of the standard, and the binary header has their number. -/
theorem C82_copy_stanzas_partial (est : LogEst) (text bin : Bytes) (exts cs init : List Bytes) (last : Bytes)
    (m : HdrMap) (b : HBlock) (bo : ByteOrder) (bh : BinHeader) (ht : ∀ x ∈ text :: exts, x.length = 3200)
    (hn : exts.length < 65536) (htl : ∀ x ∈ init ++ [last], x.length = 3200)
    (hinit : ∀ x ∈ init, isEndText x = false) (hlast : isEndText last = true) (hl : bin.length = 400)
    (hm : decInt .le ((bin.drop 96).take 4) = 0 ∨ decInt .le ((bin.drop 96).take 4) = 0x01020304)
    (hz : ∀ i, i < 400 → ¬ BinCovered bin i → bin[i]? = some 0)
    (hf : fillBinHeader {} false bin = .ok (bo, bh)) (hfmt : bh.formatCode ∈ supportedFormats)
    (hrev : 2 ≤ bh.revMajor) (hdecl : TextsDeclared bh exts) (hext : ExtendedOk bh) (hvar : bh.fixedTrLength = 0)
    (hadd : bh.maxNumAddTrHeaders = 0) (hstz : bh.numOfTrailerStanza = -1)
    (hnum : bh.numOfTrInFile = cs.length) (hne : cs ≠ [])
    (hoff : bh.byteOffOfFirstTr = 0 ∨ bh.byteOffOfFirstTr = 3600 + 3200 * exts.length)
    (hmap : MapOk bh m b) (hint : ∀ f ∈ b.fields, ∃ k, intKind f.ty = some k)
    (hfield : ⟨114, "SAMP_NUM", .i16⟩ ∈ b.fields)
    (hcs : ∀ c ∈ cs, CopyableTrace12 est bh bo b.fields c) :
    ∃ r ts w0 w, openReader (text ++ bin ++ exts.flatten ++ cs.flatten ++ (init ++ [last]).flatten) none m = .ok r ∧
      Visits r ts ∧ ts.length = cs.length ∧ r.texts = text :: exts ∧ r.trailers = init ++ [last] ∧
      openRev2 r.texts r.bh r.trailers m = .ok w0 ∧
      writeAll (writeTraceRev2 est) w0 ts = .ok w ∧
      closeRev2 w = .ok (text ++ bin ++ exts.flatten ++ cs.flatten ++ (init ++ [last]).flatten) := by
  obtain ⟨hbh, hvis, rfl, hbin⟩ := copy_bin_ok hl hm hz hf hfmt
  obtain ⟨ts, h1, h2⟩ := traces_of12 hfmt hmap.safe hmap.names hint hcs
  obtain ⟨bps, hbps⟩ := bps_exists hfmt
  have hlen : ts.length = cs.length := h1.length_eq
  have hsmall : ∀ t ∈ ts, Storable est bh.formatCode (orderOfMarker bh.endianness) b.fields t ∧
      t.header.get "SAMP_NUM" = some (.int t.samples.length) ∧ t.samples.length < 32768 := by
    intro t ht'
    obtain ⟨a1, a2, _⟩ := h2 t ht'
    unfold LengthKnown at a2
    rw [if_neg (by rw [hvar]; simp)] at a2
    obtain ⟨g1, f, hf', hname, k, hk, hr⟩ := a2
    have hff : f = ⟨114, "SAMP_NUM", .i16⟩ := by
      have hnd := hmap.names
      exact List.inj_on_of_nodup_map hnd hf' hfield hname
    subst hff
    have : k = .i16 := (Option.some.inj hk).symm
    subst this
    refine ⟨a1, g1, ?_⟩
    rw [if_neg (by decide)] at hr
    unfold IntKind.InRange at hr
    simp only [IntKind.signed, IntKind.size, if_true] at hr
    norm_num at hr
    omega
  obtain ⟨w0, w, data, r, backs, k1, k2, k2', k3, k4, k5, k5', k6, k7⟩ := C23_delimited_partial est text exts init last bh m b ts
    ht hn htl hinit hlast hbh hmap hrev hdecl hext hvar hadd hstz (by rw [hnum, hlen])
    (by intro c; rw [c] at hlen; exact hne (List.eq_nil_of_length_eq_zero (by simpa using hlen.symm))) hoff hfield hsmall
  have hopen := openRev2_of (trl := init ++ [last]) hmap.accepted ht htl (order_ok hbh)
    (by rw [fmt_ne hbh]; exact hfmt) (by rw [fmt_ne hbh]; exact hbps)
  rw [hopen] at k1
  have hw0 := Except.ok.inj k1
  have hclose : ∀ w : Writer, w.bh.numOfTrailerStanza = bh.numOfTrailerStanza → w.trailers = init ++ [last] →
      closeRev2 w = .ok (w.file.data ++ (init ++ [last]).flatten) := by
    intro w c1 c2
    unfold closeRev2
    rw [seekEnd_zero, ok_bind, if_pos (by rw [c1, hstz]; decide), c2,
      writeTexts_of (fun t ht => by rw [htl t ht]) rfl, ok_bind, textBytes_exact htl]
    rfl
  obtain ⟨w1, q1, q2, q5, q7⟩ := copy_again (est := est) (rev := .r2) (by simp) (trl := init ++ [last]) ht hn hbh hmap (by omega)
    (fun _ => hadd) hbps (fun t ht' => ⟨(h2 t ht').1, (h2 t ht').2.1⟩) h1
  rw [hw0] at q1
  have e := Except.ok.inj ((show writeAll (writeTraceRev2 est) w0 ts = .ok w1 from q1).symm.trans k2)
  subst e
  rw [hclose w1 q5 q7] at k2'
  rw [hbin] at q2
  rw [← Except.ok.inj k2', q2] at k3
  obtain ⟨b1, b2⟩ := copy_backs_ok hint h1 h2 k6
  obtain ⟨w2, q3, q4, q6, q8⟩ := copy_again (est := est) (rev := .r2) (by simp) (trl := init ++ [last]) ht hn hbh hmap (by omega)
    (fun _ => hadd) hbps b1 b2
  rw [hw0] at q3
  rw [hbin] at q4
  refine ⟨r, backs, w0, w2, k3, k7, ?_, k4, k5', ?_, q3, ?_⟩
  · rw [← k6.length_eq, h1.length_eq]
  · rw [k4, k5, k5', ← hw0]
    exact hopen
  · rw [hclose w2 q6 q8, q4]

/-! ## Examples -/

/-- A trace of two samples. -/
def exTr1 : Bytes := (List.replicate 8 0 ++ [7, 0, 0, 0] ++ List.replicate 102 0 ++ [2, 0] ++ List.replicate 124 0) ++
  [[1, 0], [2, 0]].flatten

/-- A trace of three samples. -/
def exTr2 : Bytes := (List.replicate 8 0 ++ [8, 1, 0, 0x80] ++ List.replicate 102 0 ++ [3, 0] ++ List.replicate 124 0) ++
  [[0, 0], [0xff, 0x7f], [5, 0]].flatten

theorem exCopyable (bh : BinHeader) (hf : bh.formatCode = 3) (hv : bh.fixedTrLength = 0) :
    ∀ c ∈ [exTr1, exTr2], CopyableTrace12 (.strict fun _ => 0) bh .le exB.fields c := by
  intro c hc
  have hr : ∀ n : Nat, n < 32768 → Rewrites (.strict fun _ => 0) bh.formatCode .le (encInt .le 2 n) := fun n hn => by
    rw [hf]
    exact C55_sample_integer _ 3 .i16 rfl .le n (i16_range hn) (by omega)
  simp only [List.mem_cons, List.not_mem_nil, or_false] at hc
  rcases hc with rfl | rfl
  · refine ⟨2, ⟨_, _, rfl, by decide +kernel, by decide +kernel, rfl, ?_⟩, ?_⟩
    · intro p hp
      simp only [List.mem_cons, List.not_mem_nil, or_false] at hp
      rcases hp with rfl | rfl
      · exact hr 1 (by decide)
      · exact hr 2 (by decide)
    · unfold CountStored
      rw [if_neg (by rw [hv]; simp)]
      refine ⟨by norm_num, ⟨114, "SAMP_NUM", .i16⟩, by decide, rfl, ?_⟩
      unfold FieldValue
      simp only [intKind, Value.int.injEq]
      decide +kernel
  · refine ⟨3, ⟨_, _, rfl, by decide +kernel, by decide +kernel, rfl, ?_⟩, ?_⟩
    · intro p hp
      simp only [List.mem_cons, List.not_mem_nil, or_false] at hp
      rcases hp with rfl | rfl | rfl
      · exact hr 0 (by decide)
      · exact hr 32767 (by decide)
      · exact hr 5 (by decide)
    · unfold CountStored
      rw [if_neg (by rw [hv]; simp)]
      refine ⟨by norm_num, ⟨114, "SAMP_NUM", .i16⟩, by decide, rfl, ?_⟩
      unfold FieldValue
      simp only [intKind, Value.int.injEq]
      decide +kernel

theorem exB_ints : ∀ f ∈ exB.fields, ∃ k, intKind f.ty = some k := by
  intro f hf
  simp only [exB, List.mem_cons, List.not_mem_nil, or_false] at hf
  rcases hf with rfl | rfl <;> exact ⟨_, rfl⟩

def exBh1 : BinHeader :=
  { lineNum := 5, formatCode := 3, endianness := 0x01020304, revMajor := 1, extTextHeadersNum := 1 }

def exBh2 : BinHeader :=
  { lineNum := 5, formatCode := 3, endianness := 0x01020304, revMajor := 2, extTextHeadersNum := -1,
    byteOffOfFirstTr := 10000, numOfTrInFile := 2, numOfTrailerStanza := -1 }

theorem ex_covered {bin : Bytes} (h : ∀ i, i < 400 → (∃ f ∈ binLayout, f.byte ≤ i + 3201 ∧
      i + 3201 < f.byte + f.width ∧ f.byte < 3507) ∨ bin[i]? = some 0) :
    ∀ i, i < 400 → ¬ BinCovered bin i → bin[i]? = some 0 := by
  intro i hi hc
  rcases h i hi with ⟨f, h1, h2, h3, h4⟩ | h
  · exact absurd ⟨f, h1, h2, h3, .inl h4⟩ hc
  · exact h

theorem ex_covered2 {bin : Bytes} (hv : ∃ v, bin[300]? = some v ∧ 1 < v.toNat)
    (h : ∀ i, i < 400 → (∃ f ∈ binLayout, f.byte ≤ i + 3201 ∧
      i + 3201 < f.byte + f.width) ∨ bin[i]? = some 0) :
    ∀ i, i < 400 → ¬ BinCovered bin i → bin[i]? = some 0 := by
  intro i hi hc
  rcases h i hi with ⟨f, h1, h2, h3⟩ | h
  · exact absurd ⟨f, h1, h2, h3, .inr hv⟩ hc
  · exact h

/-- A revision 1 file with an extended text header and traces of different lengths. -/
example := C82_copy_rev1_partial (.strict fun _ => 0) exText (binHeaderBytes .le exBh1) [exText] [exTr1, exTr2] exWMap exB .le exBh1
  (by decide +kernel) (by decide) (by decide +kernel) (.inr (by decide +kernel)) (ex_covered (by decide +kernel))
  (by decide +kernel) (by decide) rfl (.inl rfl) (by unfold ExtendedOk; decide) (exMapOk _ rfl) exB_ints
  (exCopyable _ rfl rfl)

/-- A revision 2 file. -/
example := C82_copy_rev2_partial (.strict fun _ => 0) exText (binHeaderBytes .le { exBh2 with numOfTrailerStanza := 0 })
  [exText, exEnd] [exTr1, exTr2] exWMap exB .le { exBh2 with numOfTrailerStanza := 0 }
  (by decide +kernel) (by decide) (by decide +kernel) (.inr (by decide +kernel))
  (ex_covered2 ⟨2, by decide +kernel, by decide⟩ (by decide +kernel))
  (by decide +kernel) (by decide) (by decide) (.inr ⟨rfl, [exText], exEnd, rfl, by decide +kernel, by decide +kernel⟩)
  (by unfold ExtendedOk; decide) rfl rfl (.inr rfl) (exMapOk _ rfl) exB_ints (exCopyable _ rfl rfl)

/-- A revision 2 file with two trailer stanzas. -/
example := C82_copy_stanzas_partial (.strict fun _ => 0) exText (binHeaderBytes .le exBh2)
  [exText, exEnd] [exTr1, exTr2] [exText] exEnd exWMap exB .le exBh2
  (by decide +kernel) (by decide) (by decide +kernel) (by decide +kernel) (by decide +kernel) (by decide +kernel)
  (.inr (by decide +kernel))
  (ex_covered2 ⟨2, by decide +kernel, by decide⟩ (by decide +kernel))
  (by decide +kernel) (by decide) (by decide) (.inr ⟨rfl, [exText], exEnd, rfl, by decide +kernel, by decide +kernel⟩)
  (by unfold ExtendedOk; decide) rfl rfl rfl rfl (by simp) (.inr rfl) (exMapOk _ rfl) exB_ints (by decide)
  (exCopyable _ rfl rfl)

/-! ## What is not copied -/

/-- **C82 fails for additional trace headers.** A file with one additional header per trace is read;
the copy has none, and so is 240 bytes shorter for each trace. -/
theorem C82_additional_headers_fail : (do
      let m : HdrMap := exWMap ++ [⟨"SEG00001", [⟨0, "EXTRA", .i32⟩]⟩]
      let bin := binHeaderBytes .be { formatCode := 3, revMajor := 2, maxNumAddTrHeaders := 1,
                                      fixedTrLength := 1, sampPerTr := 2 }
      let data := exText ++ bin ++ (List.replicate 240 0 ++ ([0, 0, 0, 9] ++ List.replicate 236 0) ++ [0, 1, 0, 2])
      let r ← openReader data none m
      let (t, r) ← readTrace r
      let w ← openRev2 r.texts r.bh r.trailers m
      let w ← writeTraceRev2 (.strict fun _ => 0) w t
      let copy ← closeRev2 w
      pure (t.header.get "EXTRA", t.samples, data.length, copy.length)) =
    (Except.ok (some (.int 9), [d1, d2], 4084, 3844) : Out (Option Value × List Dbl × Nat × Nat)) := by
  decide +kernel

/-- **C82 fails for counted stanzas.** A file that has as many stanzas as its binary header says cannot
be opened. -/
theorem C82_counted_stanzas_fail : (do
      let bin := binHeaderBytes .le { exBh2 with numOfTrailerStanza := 1, extTextHeadersNum := 0, byteOffOfFirstTr := 0 }
      openReader (exText ++ bin ++ (exTr1 ++ exTr2) ++ exEnd) none exWMap) = throwExn .iosFailure := by decide +kernel

/-- **C82 fails for stanzas after fixed length traces.** -/
theorem C82_fixed_stanzas_fail : (do
      let bin := binHeaderBytes .le { exBh2 with extTextHeadersNum := 0, byteOffOfFirstTr := 0, fixedTrLength := 1,
                                                 sampPerTr := 2 }
      openReader (exText ++ bin ++ (exTr1 ++ exTr1) ++ exEnd) none exWMap) = throwExn .iosFailure := by decide +kernel

/-- **C82 fails for a gap before the first trace.** A file whose binary header puts the first trace
further back is read; the copy says the same but does not have the gap. -/
theorem C82_gap_fails : (do
      let bin := binHeaderBytes .le { exBh2 with extTextHeadersNum := 0, byteOffOfFirstTr := 3700, numOfTrailerStanza := 0 }
      let data := exText ++ bin ++ List.replicate 100 0 ++ exTr1
      let r ← openReader data none exWMap
      let (t, r) ← readTrace r
      let w ← openRev2 r.texts r.bh r.trailers exWMap
      let w ← writeTraceRev2 (.strict fun _ => 0) w t
      let copy ← closeRev2 w
      let r' ← openReader copy none exWMap
      pure (decide (r'.bh = r.bh), t.samples, data.length, copy.length, r'.file.pos)) =
    (Except.ok (true, [d1, d2], 3944, 3844, 3700) : Out (Bool × List Dbl × Nat × Nat × Nat)) := by
  decide +kernel

end Sedaman.Props
