import Verif.Lemmas.SegdE2E2
import Verif.Props.SegdWriter

/-!
# C59: SEG-D revision 2.1 files from the writer to the reader
-/

namespace Sedaman.Props

open Spec

/-- From round trips of the single traces to the whole file. -/
theorem segd_file_rt {H : Host} {a : OSegdArgs} {ns : List GenHdrN} {ts : List Trace}
    {R : Trace → Trace → Prop} (hlg : LogOk H.lg) (hr : RecordFits a ns)
    (hn : ts.length = announced a.chSets) (h64 : ts.length < 2 ^ 64)
    (hts : ∀ t ∈ ts, ∃ bytes, Writable H a t bytes ∧ ∀ (s : ISegd) (rest : Bytes),
      InRecord a s → Ahead s (bytes ++ rest) →
      ∃ t' p, R t t' ∧ readTraceBody H.pw s = .ok (t', s.at p) ∧ Ahead (s.at p) rest) :
    ∃ w, openSegdWriter H 0 a = .ok w ∧
      (Spec.writeAll H ts w).1 = List.replicate ts.length (.ok ()) ∧
      ∃ f, openSegd (Spec.writeAll H ts w).2.out a.extMap = .ok f ∧ HeadersBack a ns f ∧
        f.hasTrace = decide (ts ≠ []) ∧
        ∃ ts' e, readManyD H.pw ts.length f = .ok (ts', e) ∧ List.Forall₂ R ts ts' ∧
          e.hasTrace = false ∧ e.hasRecord = false := by
  obtain ⟨w, hw, hf⟩ := headers_rt hlg hr
  obtain ⟨bytes, hbw, hbr⟩ := traces_rt ts hts
  obtain ⟨e1, e2⟩ := C51_all_accepted_partial H a w ts bytes hw (by omega) (by omega) hbw
  obtain ⟨f, g1, g2, g3, g4, g5, g6, g7⟩ := hf a.extMap bytes.flatten
  rw [← e2] at g1
  refine ⟨w, hw, e1, f, g1, g2, ?_, ?_⟩
  · unfold ISegd.hasTrace
    rw [g5, g6, ← hn]
    cases ts <;> simp
  · by_cases h : ts = []
    · subst h
      cases hbw
      refine ⟨[], f, rfl, .nil, ?_, ?_⟩
      · unfold ISegd.hasTrace
        rw [g5, g6, ← hn]; rfl
      · obtain ⟨pre, hp⟩ := g7
        simp [ISegd.hasRecord, hp]
    · exact hbr f ⟨g2.gh1, g4, g3, g2.chSets⟩ g7 (by rw [g6, g5, ← hn]; omega) h

/-- One trace with extension maps. -/
theorem map_trace_rt_of {H : Host} {a : OSegdArgs} {t : Trace} {n : Nat} {k : Int} {xs' : List Dbl}
    (hroom : 32 ≤ H.room) (hf : TraceHeld H a t n k) (hsg : SamplesGive H a k t.samples xs')
    (hp : MapFits H a t n) :
    ∃ bytes, Writable H a t bytes ∧ ∀ (s : ISegd) (rest : Bytes),
      InRecord a s → Ahead s (bytes ++ rest) →
      ∃ t' p, MapBack a n ⟨t.header, xs'⟩ t' ∧ readTraceBody H.pw s = .ok (t', s.at p) ∧ Ahead (s.at p) rest := by
  have hext : headerInt t.header "TR_HDR_EXT" n := by
    obtain ⟨⟨_, _, _, _, _, _, _, _, _, _, hc, _⟩, _⟩ := hf
    exact hc.ext
  obtain ⟨out, x1, -, x3⟩ := C53_roundtrip_partial H.est H.room hroom a.gh2.segdRevMajor a.extMap
    t.header n hext hf.2.2.2.2 hp.enough hf.2.2.2.1 hp.safe hp.noU64 hp.names hp.fits
  have hown : ∀ p ∈ stdTraceNames, ∀ acc h : Header,
      (∀ k, k ∉ (a.extMap.take n).flatten.map (·.name) → h.get k = acc.get k) →
      h.get p.1 = acc.get p.1 := fun p hp' acc h hk => hk _ (hp.own p hp')
  obtain ⟨f, hf1, k, hf2, hf3, hf4, hf5⟩ := hp.sampNum
  obtain ⟨bytes, b1, b2⟩ := trace_rt (Q := fun acc h => (∀ f ∈ (a.extMap.take n).flatten,
            ∃ v w, t.header.get f.name = some v ∧ h.get f.name = some w ∧ ExtBack f.ty v w) ∧
          ∀ k, k ∉ (a.extMap.take n).flatten.map (·.name) → h.get k = acc.get k) hf hsg x1 x3 (by
    rintro acc h ⟨q1, q2⟩
    refine ⟨hown ("SCAN_TYPE_NUM", .int 0) (by simp [stdTraceNames]) acc h q2,
      hown ("CH_SET_NUM", .int 0) (by simp [stdTraceNames]) acc h q2, ?_⟩
    obtain ⟨v, w, v1, v2, v3⟩ := q1 f hf1
    rw [hf2] at v1 v2
    rw [hf5] at v1
    cases v1
    unfold ExtBack at v3
    rw [hf3] at v3
    obtain ⟨r, r1, rfl⟩ := v3
    rw [v2]
    have hne : f.ty ≠ .u64 := by
      obtain ⟨fs, hfs, hfm⟩ := List.mem_flatten.1 hf1
      exact hp.noU64 fs hfs f hfm
    have : r = (t.samples.length : Int) := by
      revert r1 hf4
      have hk : k ≠ .u64 := by
        rintro rfl
        revert hf3 hne
        cases f.ty <;> simp [intKind]
      generalize (t.samples.length : Int) = len
      clear hown
      unfold Reduced
      cases k <;> first | exact absurd rfl hk | skip
      all_goals
        simp only [IntKind.InRange, IntKind.size, IntKind.signed, if_true, Bool.false_eq_true, if_false]
        omega
    rw [this])
  refine ⟨bytes, b1, fun s rest hs ha => ?_⟩
  obtain ⟨acc, h, p, c1, c2, ⟨c3, c4⟩, c5, c6⟩ := b2 s rest hs ha
  refine ⟨⟨h, xs'⟩, p, ⟨rfl, ?_, c3, ?_⟩, c5, c6⟩
  · intro q hq
    obtain ⟨v, v1, v2⟩ := c1 q hq
    exact ⟨v, (hown q hq acc h c4).trans v1, v2⟩
  · intro k k1 k2
    exact (c4 k k2).trans (c2 k k1)

/-- One trace with extension maps, all of whose samples come back. -/
theorem map_trace_rt {H : Host} {a : OSegdArgs} {t : Trace} {n : Nat} (hroom : 32 ≤ H.room)
    (hf : TraceFits H a t n) (hp : MapFits H a t n) :
    ∃ bytes, Writable H a t bytes ∧ ∀ (s : ISegd) (rest : Bytes),
      InRecord a s → Ahead s (bytes ++ rest) →
      ∃ t' p, MapBack a n t t' ∧ readTraceBody H.pw s = .ok (t', s.at p) ∧ Ahead (s.at p) rest := by
  obtain ⟨k, h1, h2⟩ := traceFits_held hf
  exact map_trace_rt_of hroom h1 h2 hp

/-- **C59, with extension maps.** Headers that fit and agree with each other, and as many traces as the
channel sets announce, each with extension blocks described by the maps: the writer opens and accepts
every trace; the reader, opened on that file with the same maps, shows the same headers, channel sets,
extended and external headers, returns the same traces in the same order, and then there is neither
another trace nor another record.
Missing: traces without extension blocks (`C59_no_extension`), files without general header 2 or with
a number of additional headers that differs from the announced one (`C59_no_general_header2`,
`C59_block_count`), more than 99 channel sets (`C59_many_channel_sets`), a counter that does not start
at zero (C51), and what C44 to C50 and C53 leave out. -/
theorem C59_maps_partial (H : Host) (a : OSegdArgs) (ns : List GenHdrN) (ts : List Trace) (n : Trace → Nat)
    (hlg : LogOk H.lg) (hroom : 32 ≤ H.room) (hr : RecordFits a ns)
    (hn : ts.length = announced a.chSets) (h64 : ts.length < 2 ^ 64)
    (ht : ∀ t ∈ ts, TraceFits H a t (n t)) (hm : ∀ t ∈ ts, MapFits H a t (n t)) :
    ∃ w, openSegdWriter H 0 a = .ok w ∧
      (Spec.writeAll H ts w).1 = List.replicate ts.length (.ok ()) ∧
      ∃ f, openSegd (Spec.writeAll H ts w).2.out a.extMap = .ok f ∧ HeadersBack a ns f ∧
        f.hasTrace = decide (ts ≠ []) ∧
        ∃ ts' e, readManyD H.pw ts.length f = .ok (ts', e) ∧
          List.Forall₂ (fun t t' => MapBack a (n t) t t') ts ts' ∧
          e.hasTrace = false ∧ e.hasRecord = false := by
  exact segd_file_rt hlg hr hn h64 fun t hmem => map_trace_rt hroom (ht t hmem) (hm t hmem)

/-- One trace with the standard extension block. -/
theorem std_trace_rt_of {H : Host} {a : OSegdArgs} {t : Trace} {n line point idx sensor : Nat} {k : Int}
    {xs' : List Dbl} (hroom : 32 ≤ H.room)
    (hf : TraceHeld H a t n k) (hsg : SamplesGive H a k t.samples xs') (hlen : xs'.length = t.samples.length)
    (hm : StdExtFits a t line point idx sensor) :
    ∃ bytes, Writable H a t bytes ∧ ∀ (s : ISegd) (rest : Bytes),
      InRecord a s → Ahead s (bytes ++ rest) →
      ∃ t' p, StdBack ⟨t.header, xs'⟩ t' line point idx sensor ∧ readTraceBody H.pw s = .ok (t', s.at p) ∧
        Ahead (s.at p) rest := by
  obtain ⟨hp1, hp2, q1, q2, q3, q4, q5, q6, q7, q8, q9, q10⟩ := hm
  have hext : headerInt t.header "TR_HDR_EXT" n := by
    obtain ⟨⟨_, _, _, _, _, _, _, _, _, _, hc, _⟩, _⟩ := hf
    exact hc.ext
  obtain ⟨out, x1, -, x3⟩ := C53_standard_partial H.est H.room hroom t.header n line point
    idx t.samples.length sensor hext hf.2.2.2.2 hf.2.2.2.1 q1 q2 q3 q5 q4 q6 q7 q8 q9 q10
  have hown : ∀ p ∈ stdTraceNames, ∀ acc h : Header,
      (∀ k, k ∉ ["R_LINE", "R_POINT", "R_POINT_IDX", "SAMP_NUM", "SENSOR_TYPE"] → h.get k = acc.get k) →
      h.get p.1 = acc.get p.1 := fun p hp' acc h hk => hk _ (by revert p; decide)
  have hrev : ((a.gh2.segdRevMajor : Nat) : Int) = 2 := by rw [hp2]; rfl
  obtain ⟨bytes, b1, b2⟩ := trace_rt (Q := fun acc h =>
      h.get "R_LINE" = some (fix16Back line) ∧ h.get "R_POINT" = some (fix16Back point) ∧
      h.get "R_POINT_IDX" = some (.int idx) ∧ h.get "SAMP_NUM" = some (.int t.samples.length) ∧
      h.get "SENSOR_TYPE" = some (.int sensor) ∧
      ∀ k, k ∉ ["R_LINE", "R_POINT", "R_POINT_IDX", "SAMP_NUM", "SENSOR_TYPE"] →
        h.get k = acc.get k) hf hsg (by rw [hp1, hrev]; exact x1) (by rw [hp1, hrev]; exact x3) (by
    rintro acc h ⟨-, -, -, y4, -, y6⟩
    exact ⟨hown ("SCAN_TYPE_NUM", .int 0) (by simp [stdTraceNames]) acc h y6,
      hown ("CH_SET_NUM", .int 0) (by simp [stdTraceNames]) acc h y6, y4⟩)
  refine ⟨bytes, b1, fun s rest hs ha => ?_⟩
  obtain ⟨acc, h, p, c1, c2, ⟨y1, y2, y3, y4, y5, y6⟩, c5, c6⟩ := b2 s rest hs ha
  refine ⟨⟨h, xs'⟩, p, ⟨rfl, ?_, y1, y2, y3, y5, by rw [hlen]; exact y4, ?_⟩, c5, c6⟩
  · intro q hq
    obtain ⟨v, v1, v2⟩ := c1 q hq
    exact ⟨v, (hown q hq acc h y6).trans v1, v2⟩
  · intro k k1 k2
    exact (y6 k k2).trans (c2 k k1)

/-- One trace with the standard extension block, all of whose samples come back. -/
theorem std_trace_rt {H : Host} {a : OSegdArgs} {t : Trace} {n line point idx sensor : Nat} (hroom : 32 ≤ H.room)
    (hf : TraceFits H a t n) (hm : StdExtFits a t line point idx sensor) :
    ∃ bytes, Writable H a t bytes ∧ ∀ (s : ISegd) (rest : Bytes),
      InRecord a s → Ahead s (bytes ++ rest) →
      ∃ t' p, StdBack t t' line point idx sensor ∧ readTraceBody H.pw s = .ok (t', s.at p) ∧
        Ahead (s.at p) rest := by
  obtain ⟨k, h1, h2⟩ := traceFits_held hf
  exact std_trace_rt_of hroom h1 h2 rfl hm

/-- **C59, with the standard extension block.** The same for files of revision 2 whose traces have the
extension block of the standard.
Missing: as for `C59_maps_partial`, and files of revision 1 (`C53_rev1_indices_misread`). -/
theorem C59_standard_partial (H : Host) (a : OSegdArgs) (ns : List GenHdrN) (ts : List Trace)
    (n line point idx sensor : Trace → Nat)
    (hlg : LogOk H.lg) (hroom : 32 ≤ H.room) (hr : RecordFits a ns)
    (hn : ts.length = announced a.chSets) (h64 : ts.length < 2 ^ 64)
    (ht : ∀ t ∈ ts, TraceFits H a t (n t))
    (hm : ∀ t ∈ ts, StdExtFits a t (line t) (point t) (idx t) (sensor t)) :
    ∃ w, openSegdWriter H 0 a = .ok w ∧
      (Spec.writeAll H ts w).1 = List.replicate ts.length (.ok ()) ∧
      ∃ f, openSegd (Spec.writeAll H ts w).2.out a.extMap = .ok f ∧ HeadersBack a ns f ∧
        f.hasTrace = decide (ts ≠ []) ∧
        ∃ ts' e, readManyD H.pw ts.length f = .ok (ts', e) ∧
          List.Forall₂ (fun t t' => StdBack t t' (line t) (point t) (idx t) (sensor t)) ts ts' ∧
          e.hasTrace = false ∧ e.hasRecord = false := by
  exact segd_file_rt hlg hr hn h64 fun t hmem => std_trace_rt hroom (ht t hmem) (hm t hmem)

/-! ## Concrete cases -/

theorem recordFitsClosed : RecordFits segdArgsExample [ghNExample] where
  typed := by decide
  base := ⟨32, by decide, rfl⟩
  scans := by decide
  stored := rfl
  format := by decide
  gh2 := by constructor <;> decide
  rev := by decide
  addHdrs := rfl
  count := rfl
  numbers := by decide
  blocks := by
    intro h hh
    rw [List.mem_singleton] at hh
    subst hh
    exact ⟨⟨1234 * 2 ^ 16 + 2 ^ 15, by decide, rfl⟩, ⟨8388607 * 2 ^ 16 + 3 * 2 ^ 14, by decide, rfl⟩,
      by decide, by decide, by decide, by decide, by decide, by decide, by decide, by decide⟩
  scanTypes := rfl
  sets := by decide
  chSets := by
    intro l hl c hc
    simp only [segdArgsExample, List.mem_singleton] at hl
    subst hl
    rw [List.mem_singleton] at hc
    subst hc
    exact ⟨by constructor <;> decide, ⟨1536, by decide, rfl⟩, by decide, rfl⟩
  extended := rfl
  external := rfl
  extended32 := by decide
  external32 := by decide

theorem recordFitsExample (m : ExtMap) :
    RecordFits { segdArgsExample with extMap := m } [ghNExample] :=
  have r := recordFitsClosed
  ⟨r.typed, r.base, r.scans, r.stored, r.format, r.gh2, r.rev, r.addHdrs, r.count, r.numbers, r.blocks,
    r.scanTypes, r.sets, r.chSets, r.extended, r.external, r.extended32, r.external32⟩

theorem traceFitsExample (m : ExtMap) (h : Header) (hc : Carries h 12 1 1 1 0 1 0 0 0) :
    TraceFits hostExample { segdArgsExample with extMap := m }
      ⟨h, [dblOfInt 3, dblOfInt (-5)]⟩ 1 := by
  refine ⟨⟨12, 1, 1, 1, 0, 0, 0, 0, [{ chSetExample with numberOfChannels := 2 }],
    { chSetExample with numberOfChannels := 2 }, 0, hc, by decide, by decide, by decide, by decide,
    by decide, by decide, by decide, by decide, by decide, rfl, by decide, rfl, by decide +kernel,
    by decide, by decide, ?_⟩, (by decide : segdArgsExample.gh1.formatCode ∈ segdByteFormats),
    (by decide : 2 * segdBits segdArgsExample.gh1.formatCode < 2 ^ 32), by decide, by decide⟩
  have div : ∀ n : Int, n.natAbs < 2 ^ 53 → DividesExactly (dblOfInt n) 0 (dblOfInt n) := by
    intro n hn
    exact ⟨n, dblRat_ofInt (by omega), by rw [dblRat_ofInt (by omega)]; simp, Iff.rfl⟩
  intro x hx
  simp only [List.mem_cons, List.not_mem_nil, or_false] at hx
  rcases hx with rfl | rfl
  · refine ⟨_, div 3 (by decide), ?_⟩
    have := C50_single_exact hostExample.packEst 8058 (.inl rfl) (dblToSgl (dblOfInt 3)) (by decide +kernel)
    rwa [show sglToDbl (dblToSgl (dblOfInt 3)) = dblOfInt 3 by decide +kernel] at this
  · refine ⟨_, div (-5) (by decide), ?_⟩
    have := C50_single_exact hostExample.packEst 8058 (.inl rfl) (dblToSgl (dblOfInt (-5)))
      (by decide +kernel)
    rwa [show sglToDbl (dblToSgl (dblOfInt (-5))) = dblOfInt (-5) by decide +kernel] at this

/-- Two traces with the standard extension. -/
example : ∃ w, openSegdWriter hostExample 0 segdArgsExample = .ok w ∧
    (Spec.writeAll hostExample [segdTraceExample, segdTraceExample] w).1 = [.ok (), .ok ()] ∧
    ∃ f, openSegd (Spec.writeAll hostExample [segdTraceExample, segdTraceExample] w).2.out [] = .ok f ∧
      HeadersBack segdArgsExample [ghNExample] f ∧ f.hasTrace = true ∧
      ∃ ts' e, readManyD hostExample.pw 2 f = .ok (ts', e) ∧
        List.Forall₂ (fun t t' => StdBack t t' 0 0 0 0) [segdTraceExample, segdTraceExample] ts' ∧
        e.hasTrace = false ∧ e.hasRecord = false := by
  refine C59_standard_partial hostExample segdArgsExample [ghNExample] [segdTraceExample, segdTraceExample]
    (fun _ => 1) (fun _ => 0) (fun _ => 0) (fun _ => 0) (fun _ => 0) floorLog_ok (by decide)
    (recordFitsExample []) rfl (by decide) (fun t ht => ?_) (fun t ht => ?_)
  · have : t = segdTraceExample := by simpa using ht
    subst this
    exact traceFitsExample [] _
      (by constructor <;> first | exact .inl rfl | exact .inr ⟨rfl, rfl⟩ | rfl)
  · have : t = segdTraceExample := by simpa using ht
    subst this
    exact ⟨rfl, rfl, .inr (.inr ⟨rfl, rfl⟩), .inr (.inr ⟨rfl, rfl⟩), .inr ⟨rfl, rfl⟩, .inr ⟨rfl, rfl⟩,
      .inl rfl, by decide, by decide, by decide, by decide, by decide⟩

/-- An extension map with the number of samples and an elevation. -/
def segdMapExample : ExtMap := [[⟨3, "SAMP_NUM", .u24⟩, ⟨8, "ELEV", .i32⟩]]

/-- A trace for it. -/
def segdMapTrace : Trace :=
  { segdTraceExample with header := segdTraceExample.header.set "ELEV" (.int (-1200)) }

/-- Two traces with an extension map. -/
example : ∃ w, openSegdWriter hostExample 0 { segdArgsExample with extMap := segdMapExample } = .ok w ∧
    (Spec.writeAll hostExample [segdMapTrace, segdMapTrace] w).1 = [.ok (), .ok ()] ∧
    ∃ f, openSegd (Spec.writeAll hostExample [segdMapTrace, segdMapTrace] w).2.out segdMapExample = .ok f ∧
      HeadersBack { segdArgsExample with extMap := segdMapExample } [ghNExample] f ∧ f.hasTrace = true ∧
      ∃ ts' e, readManyD hostExample.pw 2 f = .ok (ts', e) ∧
        List.Forall₂ (fun t t' => MapBack { segdArgsExample with extMap := segdMapExample } 1 t t')
          [segdMapTrace, segdMapTrace] ts' ∧
        e.hasTrace = false ∧ e.hasRecord = false := by
  refine C59_maps_partial hostExample { segdArgsExample with extMap := segdMapExample } [ghNExample]
    [segdMapTrace, segdMapTrace] (fun _ => 1) floorLog_ok (by decide)
    (recordFitsExample _) rfl (by decide) (fun t ht => ?_) (fun t ht => ?_)
  · have : t = segdMapTrace := by simpa using ht
    subst this
    exact traceFitsExample _ _
      (by constructor <;> first | exact .inl rfl | exact .inr ⟨rfl, rfl⟩ | rfl)
  · have : t = segdMapTrace := by simpa using ht
    subst this
    refine ⟨by decide, by decide, by decide, by decide, by decide, ?_,
      ⟨⟨3, "SAMP_NUM", .u24⟩, by decide, .u24, rfl, rfl, by decide, rfl⟩⟩
    intro fs hfs f hf
    simp only [segdMapExample, List.take, List.mem_cons, List.not_mem_nil, or_false] at hfs
    subst hfs
    simp only [List.mem_cons, List.not_mem_nil, or_false] at hf
    rcases hf with rfl | rfl
    · exact ⟨2, rfl⟩
    · exact ⟨-1200, rfl⟩

/-! ## What can go wrong -/

/-- Write two traces, open the file, read two traces: what the first call returns, and what the second
one returns or throws. -/
def segdRun (a : OSegdArgs) (t1 t2 : Trace) : Out (Trace × Out (Trace × ISegd)) := do
  let w ← openSegdWriter hostExample 0 a
  let s0 ← openSegd (Spec.writeAll hostExample [t1, t2] w).2.out a.extMap
  let (x1, s1) ← readTraceD hostExample.pw s0
  pure (x1, readTraceD hostExample.pw s1)

/-- What is expected: both traces come back, and the file ends. -/
example : (segdRun segdArgsExample segdTraceExample segdTraceExample).map (fun (t, r) =>
      (t.samples, t.header.get "FFID", r.map fun (u, s) => (u.samples, s.hasTrace, s.hasRecord)))
    = .ok (segdTraceExample.samples, some (.int 12), .ok (segdTraceExample.samples, false, false)) := by
  decide +kernel

/-- **C59, counterexample.** Traces without an extension block: the reader takes the number of samples
for zero, returns a trace without samples, takes the samples for the header of the next trace and runs
into the end of the file. -/
theorem C59_no_extension :
    (segdRun segdArgsExample
      { segdTraceExample with header := segdTraceExample.header.set "TR_HDR_EXT" (.int 0) }
      { segdTraceExample with header := segdTraceExample.header.set "TR_HDR_EXT" (.int 0) }).map
      (fun (t, r) => (t.samples, r.map fun _ => ())) = .ok ([], throwExn .iosFailure) := by
  decide +kernel

/-- **C59, counterexample.** No additional blocks announced: the writer writes general header 2 all the
same, and the reader takes it for the first channel set. -/
theorem C59_no_general_header2 :
    (do let w ← openSegdWriter hostExample 0 { segdArgsExample with
          gh1 := { segdArgsExample.gh1 with addGenHdrBlocks := 0 }, addHdrs := [] }
        let f ← openSegd w.out []
        pure (decide (f.chSets = [[shownSet { chSetExample with numberOfChannels := 2 }]])))
    = .ok false := by decide +kernel

/-- **C59, counterexample.** The number of additional headers is not compared with the announced number:
with one header more than announced, the writer opens and the reader takes it for the first channel
set. -/
theorem C59_block_count :
    (do let w ← openSegdWriter hostExample 0 { segdArgsExample with
          addHdrs := [.n ghNExample, .n { ghNExample with genHdrBlockNum := ghNExample.genHdrBlockNum + 1 }] }
        let f ← openSegd w.out []
        pure (decide (f.chSets = [[shownSet { chSetExample with numberOfChannels := 2 }]])))
    = .ok false := by decide +kernel

/-- **C59, counterexample.** Two additional headers with the same number: the first is not written. -/
theorem C59_same_number :
    (do let w ← openSegdWriter hostExample 0 { segdArgsExample with
          addHdrs := [.n { ghNExample with souSetNum := 1 }, .n { ghNExample with souSetNum := 2 }] }
        let f ← openSegd w.out []
        let l ← f.generalHeaderN
        pure (l.map GenHdrN.souSetNum))
    = .ok [2] := by decide +kernel

/-- **C59, counterexample.** More than 99 channel sets, announced as the library asks for (1665 in
general header 1, the number in general header 2): the reader finds 65 sets. -/
theorem C59_many_channel_sets :
    (do let w ← openSegdWriter hostExample 0 { segdArgsExample with
          gh1 := { segdArgsExample.gh1 with channelSetsPerScanType := 1665, extendedHdrBlocks := 0
                                            externalHdrBlocks := 0 }
          gh2 := { segdArgsExample.gh2 with extChSetsPerScanType := 100 }
          chSets := [List.replicate 100 { chSetExample with numberOfChannels := 2 }] }
        let f ← openSegd w.out []
        pure (f.chSets.map List.length))
    = .ok [65] := by decide +kernel

end Sedaman.Props
