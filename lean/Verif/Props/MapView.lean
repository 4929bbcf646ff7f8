import Verif.Lemmas.MapView
import Verif.Props.ISEGY
import Verif.Props.TraceHdr

/-!
# C80: the trace header map only says what to report
-/

namespace Sedaman.Props

open Spec

private theorem trcHeader_shows {r : Reader} {h : Header} {f : File} (hr : readTrcHeader r = .ok (h, f)) :
    ShowsHeader r.bo r.map (headerBlocks r.bh) r.file.data r.file.pos [] h := by
  unfold readTrcHeader at hr
  split at hr
  · cases hr
  · intro k
    have := readBlocks_values (i := 0) (base := r.file.pos) (data := r.file.data) (k := k) hr
    rw [← placed_eq] at this
    exact this

private theorem shows_samp {bo : ByteOrder} {m : HdrMap} {n p : Nat} {data : Bytes} {h0 h : Header} {k : Int}
    (hs : ShowsHeader bo m n data p [] h0) (hn : sampNum h0 = .ok (k, h)) :
    ShowsHeader bo m n data p [("SAMP_NUM", .int 0)] h := by
  intro name
  have h1 := hs name
  unfold sampNum Header.at at hn
  cases hg : h0.get "SAMP_NUM" with
  | some v =>
    rw [hg] at hn
    have hh : h = h0 := by
      cases v with
      | int v => exact ((Prod.mk.inj (Except.ok.inj hn)).2).symm
      | dbl d => cases hn
    subst hh
    split at h1
    · exact h1
    · rw [h1]
      by_cases hk : name = "SAMP_NUM"
      · subst hk
        rw [hg] at h1
        cases h1
      · simp [Ne.symm hk]
  | none =>
    rw [hg] at hn
    have hh : h0.set "SAMP_NUM" (.int 0) = h := (Prod.mk.inj (Except.ok.inj hn)).2
    rw [← hh, get_set]
    by_cases hk : name = "SAMP_NUM"
    · subst hk
      split at h1
      · obtain ⟨v, g, _⟩ := h1
        rw [hg] at g
        cases g
      · simp
    · rw [if_neg (Ne.symm hk)]
      split at h1
      · exact h1
      · rw [h1]
        simp [Ne.symm hk]

/-- **C80.** The header that `read_header` returns is what the map makes of the bytes of the trace: each
name of the map has the value stored in the last field of that name, found at its offset in its block of
240 bytes, in the byte order of the file. There are no other names; only where traces may differ in
length, `SAMP_NUM` is there in any case, as zero when the map does not have it. -/
theorem C80_header_values (r r' : Reader) (h : Header) (hr : readHeader r = .ok (h, r')) :
    ShowsHeader r.bo r.map (headerBlocks r.bh) r.file.data r.file.pos
      (if fixedLength r.bh then [] else [("SAMP_NUM", .int 0)]) h := by
  obtain ⟨h0, off, h1, h2, _⟩ := readHeader_ok hr
  have hs := trcHeader_shows h1
  split at h2
  · rename_i hf
    rw [hf, h2.2]
    exact hs
  · rename_i hf
    obtain ⟨n, h3, _⟩ := h2
    rw [if_neg hf]
    exact shows_samp hs h3

/-- **C80.** The same for the header of the trace that `read_trace` returns. -/
theorem C80_trace_header_values (r r' : Reader) (t : Trace) (hr : readTrace r = .ok (t, r')) :
    ShowsHeader r.bo r.map (headerBlocks r.bh) r.file.data r.file.pos
      (if fixedLength r.bh then [] else [("SAMP_NUM", .int 0)]) t.header := by
  obtain ⟨h0, n, buf, rd, rest, h1, h2, _⟩ := readTrace_ok hr
  have hs := trcHeader_shows h1
  unfold sampleBytes at h2
  split at h2
  · rename_i hf
    cases h2
    rw [if_pos hf]
    exact hs
  · rename_i hf
    obtain ⟨⟨n', hdr⟩, h3, h4⟩ := bind_ok h2
    simp only at h4
    split at h4
    · cases h4
    · cases h4
      rw [if_neg hf]
      exact shows_samp hs h3

/-- The map of two blocks: `FFID` of the second block hides that of the first. -/
example : lastNamed "FFID" (placed defaultMap 2) = some (256, ⟨16, "FFID", .u64⟩) ∧
    lastNamed "FFID" (placed defaultMap 1) = some (8, ⟨8, "FFID", .i32⟩) ∧
    lastNamed "R_DEPTH" (placed defaultMap 1) = none ∧
    FieldValue .be .i32 [0xff, 0xff, 0xff, 0xfe] (.int (-2)) := by
  refine ⟨by decide +kernel, by decide +kernel, by decide +kernel, rfl, ?_⟩
  show Value.int _ = Value.int _
  decide +kernel

/-- **C80.** What a value is, is determined by the bytes. -/
theorem C80_value_unique (bo : ByteOrder) (ty : VType) (bs : Bytes) (v w : Value) (h : FieldValue bo ty bs v)
    (h' : FieldValue bo ty bs w) : v = w := fieldValue_unique h h'

example : FieldValue .le .u64 [0xff, 0xff, 0xff, 0xff, 0xff, 0xff, 0xff, 0xff] (.int (-1)) :=
  ⟨rfl, by show Value.int _ = Value.int _; decide +kernel⟩

/-- **C80.** Which of the accepted maps a file is opened with does not matter for anything but the
headers: opening succeeds or fails alike, with the same text headers, binary header, trailer stanzas,
position and end of the traces. -/
theorem C80_any_map (data : Bytes) (ub : Option BinHeader) (m1 m2 : HdrMap)
    (h1 : checkMap (initHeader ub) m1 = .ok ()) (h2 : checkMap (initHeader ub) m2 = .ok ()) :
    openReader data ub m2 = (openReader data ub m1).map fun r => { r with map := m2 } := by
  unfold openReader
  rw [h1, h2]
  simp only [ok_bind]
  cases File.read ⟨data, 0⟩ textHeaderSize with
  | error e => rfl
  | ok p =>
    obtain ⟨text, f⟩ := p
    simp only [ok_bind]
    cases File.read f binHeaderSize with
    | error e => rfl
    | ok p =>
      obtain ⟨bin, f⟩ := p
      simp only [ok_bind]
      cases fillBinHeader (initHeader ub) ub.isSome bin with
      | error e => rfl
      | ok p =>
        obtain ⟨bo, bh⟩ := p
        simp only [ok_bind]
        cases sampleReader bh.formatCode with
        | error e => rfl
        | ok rd =>
          simp only [ok_bind]
          cases bytesPerSample bh.formatCode with
          | none => rfl
          | some bps =>
            simp only
            cases readExtText bh.extTextHeadersNum f with
            | error e => rfl
            | ok p =>
              obtain ⟨exts, f⟩ := p
              simp only [ok_bind]
              cases seekFirst bh f with
              | error e => rfl
              | ok f =>
                simp only [ok_bind]
                cases readTrailers bo bh (samplesPerTrace bh) bps f with
                | error e => rfl
                | ok p =>
                  obtain ⟨trl, ed⟩ := p
                  simp only [ok_bind]
                  cases f.seek f.pos with
                  | error e => rfl
                  | ok f =>
                    simp only [ok_bind]
                    cases mulInt32 (samplesPerTrace bh) bps with
                    | error e => rfl
                    | ok size =>
                      simp only [ok_bind]
                      cases resizeVec ([] : Bytes) (toU 8 size) <;> rfl

/-- Both maps are accepted. -/
example : checkMap (initHeader none) exMap = .ok () ∧ checkMap (initHeader none) defaultMap = .ok () := by
  decide +kernel

/-- **C80.** `read_binary_header` reports the binary header of every reader that is opened on the file
without one, and fails when they do. -/
theorem C80_read_binary_header (data : Bytes) (m : HdrMap) (h : checkMap (initHeader none) m = .ok ()) :
    readBinaryHeader data = (openReader data none m).map (·.bh) := by
  unfold readBinaryHeader
  rw [C80_any_map data none m defaultMap h (by decide +kernel)]
  cases openReader data none m <;> rfl

example : readBinaryHeader (exFile exRev0 []) = .ok exRev0 ∧ readBinaryHeader [1, 2] = throwExn .iosFailure := by
  decide +kernel

/-! ## Samples -/

/-- Two readers of one file, at the same place, that differ in the map only, both of which know the
number of samples: either all traces have the same length or `SAMP_NUM` stands for the same field. -/
def SameSize (bh : BinHeader) (m1 m2 : HdrMap) : Prop :=
  fixedLength bh = true ∨
    lastNamed "SAMP_NUM" (placed m1 (headerBlocks bh)) = lastNamed "SAMP_NUM" (placed m2 (headerBlocks bh))

instance (bh : BinHeader) (m1 m2 : HdrMap) : Decidable (SameSize bh m1 m2) := by unfold SameSize; infer_instance

private theorem same_bytes {r : Reader} {m2 : HdrMap} (hs : SameSize r.bh r.map m2) {h1 h2 k1 k2 : Header} {n1 n2 : Nat}
    {f1 f2 : File} (g1 : readTrcHeader r = .ok (h1, f1)) (g2 : readTrcHeader { r with map := m2 } = .ok (h2, f2))
    (b1 : sampleBytes r h1 = .ok (n1, k1)) (b2 : sampleBytes { r with map := m2 } h2 = .ok (n2, k2)) : n1 = n2 := by
  have s1 := trcHeader_shows g1 "SAMP_NUM"
  have s2 := trcHeader_shows g2 "SAMP_NUM"
  unfold sampleBytes at b1 b2
  by_cases hf : fixedLength r.bh = true
  · rw [if_pos hf] at b1
    rw [if_pos (by exact hf)] at b2
    cases b1
    cases b2
    rfl
  · rw [if_neg hf] at b1
    rw [if_neg (by exact hf)] at b2
    have hl := hs.resolve_left hf
    have hg : h1.get "SAMP_NUM" = h2.get "SAMP_NUM" := by
      simp only at s1 s2
      rw [← hl] at s2
      cases hp : lastNamed "SAMP_NUM" (placed r.map (headerBlocks r.bh)) with
      | none =>
        rw [hp] at s1 s2
        exact s1.trans s2.symm
      | some p =>
        obtain ⟨o, f⟩ := p
        rw [hp] at s1 s2
        obtain ⟨v, a1, a2⟩ := s1
        obtain ⟨w, c1, c2⟩ := s2
        rw [a1, c1, fieldValue_unique a2 c2]
    obtain ⟨⟨n, x1⟩, a1, b1⟩ := bind_ok b1
    obtain ⟨⟨n', x2⟩, a2, b2⟩ := bind_ok b2
    have hn : n = n' := by
      unfold sampNum Header.at at a1 a2
      rw [← hg] at a2
      cases hv : h1.get "SAMP_NUM" with
      | none =>
        rw [hv] at a1 a2
        cases a1
        cases a2
        rfl
      | some v =>
        rw [hv] at a1 a2
        cases v with
        | int v =>
          cases a1
          cases a2
          rfl
        | dbl d => cases a1
    subst hn
    simp only at b1 b2
    split at b1
    · cases b1
    · split at b2
      · cases b2
      · cases b1
        cases b2
        rfl

/-- **C80.** With another map `read_trace` returns the same samples and goes to the same place, as long as
the number of samples does not depend on the map. -/
theorem C80_samples_partial (r r1 r2 : Reader) (m2 : HdrMap) (t1 t2 : Trace) (hs : SameSize r.bh r.map m2)
    (h1 : readTrace r = .ok (t1, r1)) (h2 : readTrace { r with map := m2 } = .ok (t2, r2)) :
    t2.samples = t1.samples ∧ r2 = { r1 with map := m2 } := by
  obtain ⟨h0, n, buf, rd, rest, a1, a2, a3, a4, a5, a6⟩ := readTrace_ok h1
  obtain ⟨h0', n', buf', rd', rest', b1, b2, b3, b4, b5, b6⟩ := readTrace_ok h2
  have hn := same_bytes hs a1 b1 a2 b2
  subst hn
  dsimp only at b3 b4 b5 b6
  rw [a3] at b3
  cases b3
  rw [a4] at b4
  cases b4
  rw [a5] at b5
  rw [a6, b6]
  exact ⟨((Prod.mk.inj (Except.ok.inj b5)).1).symm, rfl⟩

/-- **C80.** So the loop over `has_trace` and `read_trace` meets the same number of traces with the same
samples. -/
theorem C80_iteration_partial (r : Reader) (m2 : HdrMap) (ts1 ts2 : List Trace) (hs : SameSize r.bh r.map m2)
    (h1 : Visits r ts1) (h2 : Visits { r with map := m2 } ts2) :
    ts2.map (·.samples) = ts1.map (·.samples) := by
  induction ts1 generalizing r ts2 with
  | nil =>
    cases ts2 with
    | nil => rfl
    | cons t ts =>
      have a : hasTrace r = false := h1
      have b : hasTrace r = true := h2.1
      rw [a] at b
      cases b
  | cons t1 ts1 ih =>
    cases ts2 with
    | nil =>
      have a : hasTrace r = false := h2
      rw [h1.1] at a
      cases a
    | cons t2 ts2 =>
      obtain ⟨_, ⟨r1, a1, a2⟩, _⟩ := h1
      obtain ⟨_, ⟨r2, b1, b2⟩, _⟩ := h2
      obtain ⟨c1, c2⟩ := C80_samples_partial r r1 r2 m2 t1 t2 hs a1 b1
      subst c2
      have hr1 : r1.bh = r.bh ∧ r1.map = r.map := by
        obtain ⟨_, _, _, _, _, _, _, _, _, _, h⟩ := readTrace_ok a1
        rw [h]
        exact ⟨rfl, rfl⟩
      rw [List.map_cons, List.map_cons, c1, ih r1 ts2 (by rw [hr1.1, hr1.2]; exact hs) a2 b2]

/-- Different maps with the same `SAMP_NUM`, and any maps in a revision 0 file. -/
example : SameSize exRev1 exMap [⟨"SEG00000", [⟨0, "A", .u8⟩, ⟨114, "SAMP_NUM", .i16⟩]⟩] ∧
    SameSize exRev0 exMap [] ∧
    (do let r ← openReader (exFile exRev1 (exBlock 7 1 ++ [0, 5])) none
          [⟨"SEG00000", [⟨0, "A", .u8⟩, ⟨114, "SAMP_NUM", .i16⟩]⟩]
        let (t, _) ← readTrace r
        pure t.samples) = .ok [dblOfInt 5] := by
  refine ⟨by decide +kernel, by decide +kernel, by decide +kernel⟩

/-- **C80 fails where traces may differ in length.** With a map that does not have `SAMP_NUM` every trace
has no samples: the samples of the first one are taken for the second one's header. The file has two
traces, of 120 and of no samples. -/
theorem C80_without_samp_num :
    checkMap {} exMap = .ok () ∧ checkMap {} [⟨"SEG00000", [⟨8, "FFID", .i32⟩]⟩] = .ok () ∧
    (do let r ← openReader (exFile exRev1 (exBlock 7 120 ++ List.replicate 240 1 ++ exBlock 8 0)) none exMap
        let (t, r) ← readTrace r
        let (u, r) ← readTrace r
        pure (t.samples.length, u.header.get "FFID", hasTrace r)) = .ok (120, some (.int 8), false) ∧
    (do let r ← openReader (exFile exRev1 (exBlock 7 120 ++ List.replicate 240 1 ++ exBlock 8 0)) none
          [⟨"SEG00000", [⟨8, "FFID", .i32⟩]⟩]
        let (t, r) ← readTrace r
        let (u, r) ← readTrace r
        pure (t.samples.length, u.header.get "FFID", hasTrace r)) = .ok (0, some (.int 0x01010101), true) := by
  refine ⟨by decide +kernel, by decide +kernel, by decide +kernel, by decide +kernel⟩

end Sedaman.Props
