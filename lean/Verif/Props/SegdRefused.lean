import Verif.Lemmas.SegdRefused
import Verif.Props.SegdDisk

/-!
# C62, C87: SEG-D programs that go on after a refused trace
-/

namespace Sedaman.Props

open Spec

/-- **C62, histories.** A program gives a writer any number of traces and goes on after exceptions. Every
trace either can be written or has a value of the wrong kind for the 20 byte header; traces beyond the
announced number are refused too. Then file and writer are in the end what the accepted traces alone
would have made of them, and each of these would have been accepted.
Missing: the failures of `C62_what_is_left`. -/
theorem C62_refused_traces_leave_nothing_partial (H : Host) (heap : Nat) (a : OSegdArgs) (s : OSegd) (ts : List Trace)
    (ho : openSegdWriter H heap a = .ok s)
    (hp : ∀ t ∈ ts, (∃ bytes, Writable H a t bytes) ∨ WrongKindD t.header) :
    let r := Spec.writeAll H ts s
    let done := keptOf r.1 ts
    Spec.writeAll H done s = (List.replicate done.length (.ok ()), r.2) := by
  refine writeAll_kept ts s fun t ht => ?_
  rw [(openSegdWriter_counts ho).1]
  exact hp t ht

/-- **C62.** Every failed call, in every state of the writer: either it changes nothing, which is the case
just when the announced number was reached or no trace header can be made, or the 20 bytes of the trace
header (perhaps followed by extension blocks) stay in the file. -/
theorem C62_what_is_left (H : Host) (t : Trace) (s s' : OSegd) (e : Err)
    (h : writeTraceD H t s = (.error e, s')) :
    (s.chansWritten = s.chansInRecord ∨ (∃ e', writeTraceHdrD t.header = .error e') → s' = s) ∧
    (¬ (s.chansWritten = s.chansInRecord ∨ ∃ e', writeTraceHdrD t.header = .error e') →
      ∃ b ext, writeTraceHdrD t.header = .ok b ∧ b.length = 20 ∧ s'.out = s.out ++ b ++ ext) := by
  rcases failed_leaves h with ⟨h1, h2⟩ | ⟨h1, b, ext, h2, h3⟩
  · exact ⟨fun _ => h1, fun hn => absurd h2 hn⟩
  · refine ⟨fun hc => ?_, fun _ => ⟨b, ext, h2, ?_, h3⟩⟩
    · rcases hc with hc | ⟨e', hc⟩
      · exact absurd hc h1
      · rw [h2] at hc; cases hc
    · exact wrBlock_length (keeps_traceHdr _) h2

/-- A trace whose channel number is a floating point value. -/
def segdOddTrace : Trace :=
  { segdTraceExample with header := segdTraceExample.header.set "CHAN" (.dbl (dblOfInt 1)) }

/-- The second of four traces has its channel number as a floating point value, the last is one too many. -/
example : ∃ s, openSegdWriter hostExample 0 segdArgsExample = .ok s ∧
    let ts := [segdTraceExample, segdOddTrace, segdTraceExample, segdTraceExample]
    (Spec.writeAll hostExample ts s).1
      = [.ok (), throwExn .badVariantAccess, .ok (), throwExn .allTracesWritten] ∧
    Spec.writeAll hostExample [segdTraceExample, segdTraceExample] s
      = ([.ok (), .ok ()], (Spec.writeAll hostExample ts s).2) := by
  have h : (do let s ← openSegdWriter hostExample 0 segdArgsExample
               pure (Spec.writeAll hostExample [segdTraceExample, segdOddTrace, segdTraceExample, segdTraceExample] s).1)
      = (.ok [.ok (), throwExn .badVariantAccess, .ok (), throwExn .allTracesWritten] : Out (List (Out Unit))) := by
    decide +kernel
  obtain ⟨s, hs, h⟩ := bind_ok h
  have h := Except.ok.inj h
  refine ⟨s, hs, h, ?_⟩
  have := C62_refused_traces_leave_nothing_partial hostExample 0 segdArgsExample s
    [segdTraceExample, segdOddTrace, segdTraceExample, segdTraceExample] hs (by
      have hw : ∃ bytes, Writable hostExample segdArgsExample segdTraceExample bytes :=
        segdTraceExample_writable.imp fun _ h => h.1
      intro t ht
      simp only [List.mem_cons, List.not_mem_nil, or_false] at ht
      rcases ht with rfl | rfl | rfl | rfl
      · exact .inl hw
      · exact .inr ⟨("CHAN", .int 0), by decide, _, rfl, fun h => h⟩
      · exact .inl hw
      · exact .inl hw)
  simp only [h] at this
  exact this

/-- **C62, counterexample.** What the failed call left makes the traces behind it unreadable: the extension
map asks for ELEV, which the first trace has not. The program goes on with two good traces and both are
accepted. The reader takes the header that was left for that of the first trace, and the beginning of the first
good trace for its extension block; it throws and gives no trace at all. -/
theorem C62_later_traces_lost :
    (do let w ← openSegdWriter hostExample 0 { segdArgsExample with extMap := segdMapExample }
        let r := Spec.writeAll hostExample [segdTraceExample, segdMapTrace, segdMapTrace] w
        let s ← openSegd r.2.out segdMapExample
        pure (r.1, (takesD hostExample.pw s 3).1.length, (takesD hostExample.pw s 3).2))
    = (.ok ([throwExn .missingExtKey, .ok (), .ok ()], 0, some (.exn .iosFailure))
      : Out (List (Out Unit) × Nat × Option Err)) := by decide +kernel

/-- From the calls that are accepted to all calls of a program. -/
theorem segd_refused_cut {H : Host} {a : OSegdArgs} {ns : List GenHdrN} {ts : List Trace}
    {R : Trace → Trace → Prop} (hlg : LogOk H.lg) (hr : RecordFits a ns) (h64 : announced a.chSets < 2 ^ 64)
    (hts : ∀ t ∈ ts, ¬ WrongKindD t.header → ∃ bytes, Writable H a t bytes ∧ ∀ (s : ISegd) (rest : Bytes),
      InRecord a s → Ahead s (bytes ++ rest) →
      ∃ t' p, R t t' ∧ readTraceBody H.pw s = .ok (t', s.at p) ∧ Ahead (s.at p) rest) :
    ∃ w, openSegdWriter H 0 a = .ok w ∧ ∀ k,
      (w.out.length ≤ k → RescuedD H a ns w ((Spec.writeAll H ts w).2.out.take k) R
        (keptOf (Spec.writeAll H ts w).1 ts) k) ∧
      (k < w.out.length →
        openSegd ((Spec.writeAll H ts w).2.out.take k) a.extMap = throwExn .iosFailure ∨
        0 < a.gh1.skewBlocks ∧ a.extended = [] ∧ a.external = [] ∧
          OnlyHeadersD H a ns ((Spec.writeAll H ts w).2.out.take k)) := by
  obtain ⟨w, hw, -⟩ := headers_rt hlg hr
  refine ⟨w, hw, ?_⟩
  have hk := C62_refused_traces_leave_nothing_partial H 0 a w ts hw fun t ht => by
    by_cases h : WrongKindD t.header
    · exact .inr h
    · exact .inl ((hts t ht h).imp fun _ h => h.1)
  simp only at hk
  have hl : (keptOf (Spec.writeAll H ts w).1 ts).length ≤ announced a.chSets := by
    rw [keptOf_length (writeAll_length ts w)]
    exact (C51_limit_partial H a w _ ts _ hw h64 rfl).1
  have hg : ∀ t ∈ keptOf (Spec.writeAll H ts w).1 ts, ¬ WrongKindD t.header := kept_kinds ts w
  obtain ⟨w', hw', -, h3⟩ := segd_file_cut (R := R) hlg hr hl h64 fun t ht => hts t (keptOf_mem ht) (hg t ht)
  rw [hw] at hw'
  cases hw'
  rw [hk] at h3
  exact h3

/-- **C87, programs that go on after exceptions, with extension maps.** The program may give any number of
traces to `write_trace`, also ones with values of the wrong kind for the trace header, and go on after
exceptions; stopped at any byte, the traces that were accepted come back as in `C87_maps_partial`.
Missing: traces that are refused after their header was written (`C62_later_traces_lost`), and what
`C59_maps_partial` leaves out. -/
theorem C87_refused_maps_partial (H : Host) (a : OSegdArgs) (ns : List GenHdrN) (ts : List Trace) (n : Trace → Nat)
    (hlg : LogOk H.lg) (hroom : 32 ≤ H.room) (hr : RecordFits a ns) (h64 : announced a.chSets < 2 ^ 64)
    (ht : ∀ t ∈ ts, WrongKindD t.header ∨ TraceFits H a t (n t) ∧ MapFits H a t (n t)) :
    ∃ w, openSegdWriter H 0 a = .ok w ∧ ∀ k,
      (w.out.length ≤ k → RescuedD H a ns w ((Spec.writeAll H ts w).2.out.take k)
        (fun t t' => MapBack a (n t) t t') (keptOf (Spec.writeAll H ts w).1 ts) k) ∧
      (k < w.out.length →
        openSegd ((Spec.writeAll H ts w).2.out.take k) a.extMap = throwExn .iosFailure ∨
        0 < a.gh1.skewBlocks ∧ a.extended = [] ∧ a.external = [] ∧
          OnlyHeadersD H a ns ((Spec.writeAll H ts w).2.out.take k)) :=
  segd_refused_cut hlg hr h64 fun t hmem hk =>
    map_trace_rt hroom ((ht t hmem).resolve_left hk).1 ((ht t hmem).resolve_left hk).2

/-- **C87, programs that go on after exceptions, with the standard extension block.** -/
theorem C87_refused_standard_partial (H : Host) (a : OSegdArgs) (ns : List GenHdrN) (ts : List Trace)
    (n line point idx sensor : Trace → Nat)
    (hlg : LogOk H.lg) (hroom : 32 ≤ H.room) (hr : RecordFits a ns) (h64 : announced a.chSets < 2 ^ 64)
    (ht : ∀ t ∈ ts, WrongKindD t.header ∨
      TraceFits H a t (n t) ∧ StdExtFits a t (line t) (point t) (idx t) (sensor t)) :
    ∃ w, openSegdWriter H 0 a = .ok w ∧ ∀ k,
      (w.out.length ≤ k → RescuedD H a ns w ((Spec.writeAll H ts w).2.out.take k)
        (fun t t' => StdBack t t' (line t) (point t) (idx t) (sensor t))
        (keptOf (Spec.writeAll H ts w).1 ts) k) ∧
      (k < w.out.length →
        openSegd ((Spec.writeAll H ts w).2.out.take k) a.extMap = throwExn .iosFailure ∨
        0 < a.gh1.skewBlocks ∧ a.extended = [] ∧ a.external = [] ∧
          OnlyHeadersD H a ns ((Spec.writeAll H ts w).2.out.take k)) :=
  segd_refused_cut hlg hr h64 fun t hmem hk =>
    std_trace_rt hroom ((ht t hmem).resolve_left hk).1 ((ht t hmem).resolve_left hk).2

/-- One good trace, one with a floating point channel number, two more good ones of which the second is one
too many. -/
example : ∃ w, openSegdWriter hostExample 0 segdArgsExample = .ok w ∧ ∀ k, w.out.length ≤ k →
    RescuedD hostExample segdArgsExample [ghNExample] w
      ((Spec.writeAll hostExample [segdTraceExample, segdOddTrace, segdTraceExample, segdTraceExample] w).2.out.take k)
      (fun t t' => StdBack t t' 0 0 0 0)
      (keptOf (Spec.writeAll hostExample [segdTraceExample, segdOddTrace, segdTraceExample, segdTraceExample] w).1 [segdTraceExample, segdOddTrace, segdTraceExample, segdTraceExample]) k := by
  obtain ⟨w, h1, h3⟩ := C87_refused_standard_partial hostExample segdArgsExample [ghNExample]
    [segdTraceExample, segdOddTrace, segdTraceExample, segdTraceExample]
    (fun _ => 1) (fun _ => 0) (fun _ => 0) (fun _ => 0) (fun _ => 0) floorLog_ok (by decide)
    (recordFitsExample []) (by decide)
    (by
      have good : TraceFits hostExample segdArgsExample segdTraceExample 1 ∧
          StdExtFits segdArgsExample segdTraceExample 0 0 0 0 :=
        ⟨traceFitsExample [] _ (by constructor <;> first | exact .inl rfl | exact .inr ⟨rfl, rfl⟩ | rfl),
          rfl, rfl, .inr (.inr ⟨rfl, rfl⟩), .inr (.inr ⟨rfl, rfl⟩), .inr ⟨rfl, rfl⟩, .inr ⟨rfl, rfl⟩,
          .inl rfl, by decide, by decide, by decide, by decide, by decide⟩
      intro t ht
      simp only [List.mem_cons, List.not_mem_nil, or_false] at ht
      rcases ht with rfl | rfl | rfl | rfl
      · exact .inr good
      · exact .inl ⟨("CHAN", .int 0), by decide, _, rfl, fun h => h⟩
      · exact .inr good
      · exact .inr good)
  exact ⟨w, h1, fun k => (h3 k).1⟩

end Sedaman.Props
