import Verif.Lemmas.SegyCut
import Verif.Props.ISEGY

/-!
# C81: SEG-Y files that are cut short or still grow
-/

namespace Sedaman.Props

open Spec

/-- **C81 (part).** A file without trailer stanzas is opened and traces are read from it. Another file
has everything in common with it up to where the reader is. It can be opened too, with the same headers,
and the same traces are read from it. After that, `has_trace` tells whether the other file goes on. -/
theorem C81_same_start_partial (a b : Bytes) (ub : Option BinHeader) (m : HdrMap) (k : Nat) (r r1 : Reader)
    (ts : List Trace) (ho : openReader a ub m = .ok r) (ht : r.bh.numOfTrailerStanza = 0)
    (hr : ReadsTraces r ts r1) (hs : SameStart k a b) (hk : headersEnd r ≤ k) (hp : r1.file.pos ≤ k) :
    ∃ s s1, openReader b ub m = .ok s ∧ s.texts = r.texts ∧ s.bh = r.bh ∧ s.trailers = r.trailers ∧
      ReadsTraces s ts s1 ∧ s1.file = ⟨b, r1.file.pos⟩ ∧
      (hasTrace s1 = true ↔ r1.file.pos < b.length) := by
  obtain ⟨_, _, _, _, _, _, _, _, _, _, _, _, _, _, hc, hd, _⟩ := openReader_ok ho
  have hpos := readsTraces_pos hr hc
  refine ⟨_, _, open_same hs ho ht hk, rfl, rfl, rfl, readsTraces_same hs hd hc hr hp, rfl, ?_⟩
  have hb := hs.2.1
  unfold hasTrace
  simp only [hpos.2.2.2.1, decide_eq_true_eq]
  omega

/-- **C81 (part).** A file without trailer stanzas is cut behind its headers. The traces that are complete
in what is left are read like from the whole file, and then `has_trace` tells whether there is a part of
another trace. -/
theorem C81_complete_traces_partial (data : Bytes) (ub : Option BinHeader) (m : HdrMap) (k : Nat) (r r1 : Reader)
    (ts : List Trace) (ho : openReader data ub m = .ok r) (ht : r.bh.numOfTrailerStanza = 0)
    (hr : ReadsTraces r ts r1) (hk : headersEnd r ≤ k) (hp : r1.file.pos ≤ k) (hl : k ≤ data.length) :
    ∃ s s1, openReader (data.take k) ub m = .ok s ∧ s.texts = r.texts ∧ s.bh = r.bh ∧
      ReadsTraces s ts s1 ∧ (hasTrace s1 = true ↔ r1.file.pos < k) := by
  have hlen : (data.take k).length = k := by rw [List.length_take]; omega
  obtain ⟨s, s1, h1, h2, h3, _, h4, _, h5⟩ := C81_same_start_partial data (data.take k) ub m k r r1 ts ho ht hr
    ⟨hl, by omega, by rw [List.take_take, Nat.min_self]⟩ hk hp
  exact ⟨s, s1, h1, h2, h3, h4, by rw [h5, hlen]⟩

/-- **C81 (part).** The trace that is cut is not taken for a complete one: `read_trace` throws. The one
exception is harmless: nothing but header blocks that the map says nothing about are missing of a trace
without samples. Then the trace is the same as in the whole file. -/
theorem C81_incomplete_trace_partial (data : Bytes) (ub : Option BinHeader) (m : HdrMap) (k : Nat) (r r1 r2 : Reader)
    (ts : List Trace) (t : Trace) (ho : openReader data ub m = .ok r) (ht : r.bh.numOfTrailerStanza = 0)
    (hr : ReadsTraces r ts r1) (hn : readTrace r1 = .ok (t, r2)) (hk : headersEnd r ≤ k) (hp : r1.file.pos ≤ k)
    (hc : k < r2.file.pos) (hl : k ≤ data.length) :
    ∃ s s1, openReader (data.take k) ub m = .ok s ∧ ReadsTraces s ts s1 ∧
      (readTrace s1 = throwExn .iosFailure ∨
        m.length < headerBlocks r.bh ∧ t.samples = [] ∧ ∃ s2, readTrace s1 = .ok (t, s2)) := by
  obtain ⟨_, _, _, _, _, _, _, _, _, _, _, _, _, _, hcp, hd, hm, _⟩ := openReader_ok ho
  have hs : SameStart k data (data.take k) :=
    ⟨hl, by rw [List.length_take]; omega, by rw [List.take_take, Nat.min_self]⟩
  obtain ⟨_, hd1, hb1, _, hm1, _⟩ := readsTraces_pos hr hcp
  have := readTrace_cut (ed := (data.take k).length) (hd1.trans hd) hn hc hp
  exact ⟨_, _, open_same hs ho ht hk, readsTraces_same hs hd hcp hr hp, by rw [← hm, ← hm1, ← hb1]; exact this⟩

/-- Two traces with two samples each; the file is cut in the last sample. -/
example : ∃ r r1 r2 t u, openReader (exFile exRev0 (exBlock 7 2 ++ [0, 1, 0, 2] ++ (exBlock 8 2 ++ [0, 3, 0, 4]))) none exMap = .ok r ∧
    r.bh.numOfTrailerStanza = 0 ∧ ReadsTraces r [t] r1 ∧ t.samples = [dblOfInt 1, dblOfInt 2] ∧
    readTrace r1 = .ok (u, r2) ∧ headersEnd r ≤ 4087 ∧ r1.file.pos ≤ 4087 ∧ 4087 < r2.file.pos := by
  have h : (do
      let r ← openReader (exFile exRev0 (exBlock 7 2 ++ [0, 1, 0, 2] ++ (exBlock 8 2 ++ [0, 3, 0, 4]))) none exMap
      let (t, r1) ← readTrace r
      let (_, r2) ← readTrace r1
      pure (decide (r.bh.numOfTrailerStanza = 0 ∧ t.samples = [dblOfInt 1, dblOfInt 2] ∧ headersEnd r ≤ 4087 ∧
        r1.file.pos ≤ 4087 ∧ 4087 < r2.file.pos))) = .ok true := by decide +kernel
  obtain ⟨r, h1, h⟩ := bind_ok h
  obtain ⟨⟨t, r1⟩, h2, h⟩ := bind_ok h
  obtain ⟨⟨u, r2⟩, h3, h⟩ := bind_ok h
  have h4 := of_decide_eq_true (Except.ok.inj h)
  exact ⟨r, r1, r2, t, u, h1, h4.1, ⟨r1, h2, rfl⟩, h4.2.1, h3, h4.2.2⟩

/-- **C81 fails for `read_header`.** It steps over the samples without looking whether they are there.
The header of the incomplete trace is returned as if it were complete, and then `has_trace` stays true
although nothing is left; the next call throws. -/
theorem C81_header_of_incomplete_trace :
    (do let r ← openReader (exFile exRev0 (exBlock 7 2 ++ [0, 1])) none exMap
        let (h, r) ← readHeader r
        pure (h.get "FFID", hasTrace r, decide (r.file.data.length < r.file.pos),
          decide (readHeader r = throwExn .iosFailure))) = .ok (some (.int 7), true, true, true) := by
  decide +kernel

/-- A trailer stanza that says that it is the last one. -/
def exLast : Bytes := endText ++ List.replicate 3184 0x20

/-- **C81 fails with trailer stanzas.** The file has one trace and an end stanza, and is read well. Without
the last byte, far behind the trace, it cannot even be opened. -/
theorem C81_cut_trailer :
    (do let r ← openReader (exFile { exRev1 with revMajor := 2, numOfTrailerStanza := -1, numOfTrInFile := 1 }
          (exBlock 7 2 ++ [0, 1, 0, 2] ++ exLast)) none exMap
        let (t, r) ← readTrace r
        pure (t.samples, hasTrace r)) = .ok ([dblOfInt 1, dblOfInt 2], false) ∧
    (openReader (exFile { exRev1 with revMajor := 2, numOfTrailerStanza := -1, numOfTrInFile := 1 }
      (exBlock 7 2 ++ [0, 1, 0, 2] ++ exLast.take 3199)) none exMap).isOk = false := by
  refine ⟨by decide +kernel, by decide +kernel⟩

/-- The exception of `C81_incomplete_trace_partial`: one additional header block, of which the map says
nothing, and no samples. All of that block is missing. -/
example : (do
    let r ← openReader (exFile { exRev1 with maxNumAddTrHeaders := 1, revMajor := 2 } (exBlock 7 0)) none exMap
    let (t, _) ← readTrace r
    pure (t.header.get "FFID", t.samples)) = .ok (some (.int 7), []) := by decide +kernel

end Sedaman.Props
