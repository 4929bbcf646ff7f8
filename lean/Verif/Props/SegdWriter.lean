import Verif.Lemmas.SegdPut
import Verif.Lemmas.SegdWriter
import Verif.Props.SegdGen
import Verif.Props.SegdChSet
import Verif.Props.SegdTrace

/-!
# C51, C62: the SEG-D writer counts traces
-/

namespace Sedaman.Props

open Spec

/-- **C51.** Whatever traces are given to a freshly opened writer, in any number and also after
calls that threw: no more are accepted than the channel sets announce; once that many are accepted,
the next call throws "all traces written" and changes neither the file nor the writer; before that,
every trace that can be written is accepted and its bytes are appended.
Missing: the counter of announced channels is not initialised, the theorem holds if its memory
happened to contain zero (`C51_uninitialised`). -/
theorem C51_limit_partial (H : Host) (a : OSegdArgs) (s s' : OSegd) (ts : List Trace)
    (rs : List (Out Unit)) (hopen : openSegdWriter H 0 a = .ok s)
    (hsum : announced a.chSets < 2 ^ 64) (hrun : writeAll H ts s = (rs, s')) :
    accepted rs ≤ announced a.chSets ∧
    (accepted rs = announced a.chSets →
      ∀ t, writeTraceD H t s' = (throwExn .allTracesWritten, s')) ∧
    (accepted rs < announced a.chSets →
      ∀ t bytes, Writable H a t bytes →
        ∃ s'', writeTraceD H t s' = (.ok (), s'') ∧ s''.out = s'.out ++ bytes) := by
  obtain ⟨h1, h2, h3⟩ := openSegdWriter_counts hopen
  rw [Nat.zero_add, Nat.mod_eq_of_lt hsum] at h3
  obtain ⟨a1, a2, a3, a4⟩ := writeAll_counts H ts s (by omega)
  rw [hrun] at a1 a2 a3 a4
  simp only at a1 a2 a3 a4
  refine ⟨by omega, fun h t => ?_, fun h t bytes hw => ?_⟩
  · unfold writeTraceD
    rw [if_pos (by omega)]
  · obtain ⟨m, hm⟩ := writeTraceD_writable (s := s') (bytes := bytes) (by omega) (by rw [a2, h1]; exact hw)
    exact ⟨_, hm, rfl⟩

/-- **C51.** The announced number is really reached: as many writable traces as announced, written
one after the other, are all accepted, and the file then consists of the headers followed by the
bytes of the traces in order. -/
theorem C51_all_accepted_partial (H : Host) (a : OSegdArgs) (s : OSegd) (ts : List Trace)
    (bytes : List Bytes) (hopen : openSegdWriter H 0 a = .ok s)
    (hsum : announced a.chSets < 2 ^ 64) (hlen : ts.length ≤ announced a.chSets)
    (hw : List.Forall₂ (Writable H a) ts bytes) :
    (writeAll H ts s).1 = List.replicate ts.length (.ok ()) ∧
      (writeAll H ts s).2.out = s.out ++ bytes.flatten := by
  obtain ⟨h1, h2, h3⟩ := openSegdWriter_counts hopen
  rw [Nat.zero_add, Nat.mod_eq_of_lt hsum] at h3
  have key : ∀ (ts : List Trace) (bytes : List Bytes) (s : OSegd), s.args = a →
      s.chansWritten + ts.length ≤ s.chansInRecord → List.Forall₂ (Writable H a) ts bytes →
      (writeAll H ts s).1 = List.replicate ts.length (.ok ()) ∧
      (writeAll H ts s).2.out = s.out ++ bytes.flatten := by
    intro ts bytes s hs hc hw
    induction hw generalizing s with
    | nil => exact ⟨rfl, by simp [writeAll]⟩
    | @cons t b ts bs hb _ ih =>
      simp only [List.length_cons] at hc
      have hne : s.chansWritten ≠ s.chansInRecord := by omega
      obtain ⟨m, he⟩ := writeTraceD_writable hne (by rw [hs]; exact hb)
      obtain ⟨i1, i2⟩ := ih { s with out := s.out ++ b, chansWritten := s.chansWritten + 1, mem := m } hs
        (by simp only; omega)
      unfold writeAll
      simp only [he]
      exact ⟨by rw [i1]; rfl, by rw [i2]; simp⟩
  exact key ts bytes s h1 (by omega) hw

/-- **C51.** A failed call is not counted and changes nothing of what is already in the file. -/
theorem C51_failed_call (H : Host) (t : Trace) (s s' : OSegd) (e : Err)
    (h : writeTraceD H t s = (.error e, s')) :
    s'.chansWritten = s.chansWritten ∧ s'.chansInRecord = s.chansInRecord ∧
      ∃ part, s'.out = s.out ++ part := by
  rcases writeTraceD_cases H t s with ⟨h1, h2⟩ | ⟨h1, -, h3, h4, -, h6⟩ | ⟨h1, h2, -⟩
  · rw [h] at h2
    cases h2
    exact ⟨rfl, rfl, [], by simp⟩
  · rw [h] at h3 h4 h6
    exact ⟨h3, h4, h6⟩
  · rw [h] at h2; cases h2

/-! ## A concrete case -/

/-- An environment for examples: descaling by 1, 52 bytes behind the trace header buffer. -/
def hostExample : Host :=
  { lg := floorLog, pw := fun _ => dblOfInt 1, est := .strict fun _ => 0
    packEst := fun _ _ => 0, room := 52 }

/-- One scan type with a channel set of two channels, IEEE single precision samples. -/
def segdArgsExample : OSegdArgs :=
  { gh1 := { gh1Example with addGenHdrBlocks := 2, scanTypesPerRecord := 1
                             channelSetsPerScanType := 1, skewBlocks := 1, extendedHdrBlocks := 1
                             externalHdrBlocks := 2 }
    gh2 := { gh2Example with extRecordLen := 0 }
    chSets := [[{ chSetExample with numberOfChannels := 2 }]]
    addHdrs := [.n ghNExample]
    extended := [List.replicate 32 7], external := [List.replicate 32 8, List.replicate 32 9]
    extMap := [] }

/-- A trace with two samples. -/
def segdTraceExample : Trace :=
  { header := [("FFID", .int 12), ("SCAN_TYPE_NUM", .int 1), ("CH_SET_NUM", .int 1),
      ("CHAN", .int 1), ("TR_HDR_EXT", .int 1), ("SAMP_NUM", .int 2)]
    samples := [dblOfInt 3, dblOfInt (-5)] }

/-- The writer opens. -/
theorem segdWriterExample_opens :
    (openSegdWriter hostExample 0 segdArgsExample).map (fun s => s.out.length) = .ok 256 := by
  decide +kernel

theorem map_length_ok {x : Out Bytes} {n : Nat} (h : x.map List.length = .ok n) :
    ∃ b, x = .ok b ∧ b.length = n := by
  cases x with
  | error e => cases h
  | ok b => exact ⟨b, rfl, Except.ok.inj h⟩

/-- The trace can be written. -/
theorem segdTraceExample_writable : ∃ bytes, Writable hostExample segdArgsExample
    segdTraceExample bytes ∧ bytes.length = 60 := by
  have h : (writeTraceHdrD segdTraceExample.header).map List.length = .ok 20 ∧
      (writeExt hostExample.est hostExample.room segdArgsExample.gh2.segdRevMajor
        segdArgsExample.extMap segdTraceExample.header).map List.length = .ok 32 ∧
      (wrSamples (.bytes fun d => .ok (writeIeeeFloat .be d)) (dblOfInt 1) segdTraceExample.samples []
        ⟨[], List.replicate 8 0⟩).map (fun r => (r.2.done.length, r.2.rest)) = .ok (8, []) := by
    decide +kernel
  obtain ⟨h1, h2, h3⟩ := h
  obtain ⟨b, a1, b1⟩ := map_length_ok h1
  obtain ⟨e, a2, b2⟩ := map_length_ok h2
  rcases hx : wrSamples (.bytes fun d => .ok (writeIeeeFloat .be d)) (dblOfInt 1)
    segdTraceExample.samples [] ⟨[], List.replicate 8 0⟩ with _ | ⟨q, c⟩
  · rw [hx] at h3; cases h3
  · rw [hx] at h3
    simp only [Except.map, Except.ok.injEq, Prod.mk.injEq] at h3
    refine ⟨_, ⟨b, e, c.done, a1, a2, fun m => ?_, rfl⟩,
      by rw [List.length_append, List.length_append, b1, b2, h3.1]⟩
    obtain ⟨r3, h4, h5⟩ := wrSamples_any _ _ _ _ _ _ hx m.pending (resizeTo 8 m.buf)
      (by rw [resizeTo_length]; rfl)
    rw [h3.2] at h5
    have h6 : r3 = [] := List.length_eq_zero_iff.mp h5
    refine ⟨⟨m.pending, c.done⟩, ?_⟩
    have hf : segdArgsExample.gh1.formatCode = 8058 := rfl
    have hw : segdWriter hostExample.packEst 8058 = .ok (32, .bytes fun d => .ok (writeIeeeFloat .be d)) := rfl
    have hc : segdArgsExample.chSetOf segdTraceExample.header
      = .ok { chSetExample with numberOfChannels := 2 } := by decide +kernel
    unfold writeSamplesOf writeSamplesD
    rw [hc, ok_bind, hf, hw, ok_bind]
    simp only [show hostExample.pw { chSetExample with numberOfChannels := 2 }.descaleMultiplier = dblOfInt 1
      from rfl, show segdTraceExample.samples.length * 32 / 8 = 8 from rfl, h4, ok_bind, h6, List.append_nil,
      pure_eq_ok]

/-- Two of three traces are accepted, the third throws. -/
example : (openSegdWriter hostExample 0 segdArgsExample).map (fun s =>
      let r := writeAll hostExample [segdTraceExample, segdTraceExample, segdTraceExample] s
      (r.1, r.2.out.length))
    = .ok ([.ok (), .ok (), throwExn .allTracesWritten], 256 + 120) := by decide +kernel

example : announced segdArgsExample.chSets = 2 := rfl

/-! ## What can go wrong -/

/-- If the memory of the counter held `2^64 - 2`, the writer announces no channel and refuses the
first trace. -/
theorem C51_uninitialised :
    (openSegdWriter hostExample (2 ^ 64 - 2) segdArgsExample).map
      (fun s => (writeTraceD hostExample segdTraceExample s).1)
    = .ok (throwExn .allTracesWritten) := by decide +kernel

/-- If the memory of the counter held 1, a third trace is accepted although the channel sets
announce two. -/
theorem C51_uninitialised_more :
    (openSegdWriter hostExample 1 segdArgsExample).map
      (fun s => (writeAll hostExample [segdTraceExample, segdTraceExample, segdTraceExample] s).1)
    = .ok [.ok (), .ok (), .ok ()] := by decide +kernel

/-! ## C62 a failed call leaves the file alone -/

/-- **C62.** A call that fails because all traces are written, or because the trace header itself
cannot be written, leaves the file as it was.
Missing: failures in the header extension or the samples (`C62_partial_trace_left`). -/
theorem C62_unchanged_partial (H : Host) (t : Trace) (s s' : OSegd) (e : Err)
    (h : writeTraceD H t s = (.error e, s'))
    (hc : e = .exn .allTracesWritten ∧ s.chansWritten = s.chansInRecord ∨
      ∃ e', writeTraceHdrD t.header = .error e') : s' = s := by
  unfold writeTraceD at h
  by_cases hl : s.chansWritten = s.chansInRecord
  · rw [if_pos hl] at h; cases h; rfl
  · rw [if_neg hl] at h
    rcases hc with ⟨-, hc⟩ | ⟨e', hc⟩
    · exact absurd hc hl
    · rw [hc] at h; cases h; rfl

example : ∃ e', writeTraceHdrD [("CH_SET_NUM", .dbl (dblOfInt 1))] = .error e' := by
  exact ⟨.exn .badVariantAccess, by decide +kernel⟩

/-- A trace whose header lacks a name of the extension map: the call throws, and the 20 bytes of the
trace header stay in the file, so everything written afterwards is misplaced. -/
theorem C62_partial_trace_left :
    (openSegdWriter hostExample 0 { segdArgsExample with extMap := [[⟨0, "ELEV", .i32⟩]] }).map
      (fun s => let r := writeTraceD hostExample segdTraceExample s
        (r.1, r.2.out.length - s.out.length, r.2.chansWritten))
    = .ok (throwExn .missingExtKey, 20, 0) := by decide +kernel

/-- A trace of a channel set that does not exist: undefined behaviour, after 52 bytes are written. -/
theorem C62_bad_channel_set :
    (openSegdWriter hostExample 0 segdArgsExample).map
      (fun s => let r := writeTraceD hostExample { segdTraceExample with
          header := Header.set segdTraceExample.header "CH_SET_NUM" (.int 2) } s
        (r.1, r.2.out.length - s.out.length))
    = .ok (isUb .outOfBounds, 52) := by decide +kernel

end Sedaman.Props
