import Verif.Lemmas.SegdLocality
import Verif.Props.SegdWriter

/-!
# C103: what a trace becomes in a SEG-D file depends on that trace alone
-/

namespace Sedaman.Props

open Spec

/-- **C103.** With the arguments of the constructor given, what a call of `write_trace` puts into the file
and how it ends is a function of the trace, whatever calls came before, also refused ones: there are
functions `bytes` and `result` of a trace for it. The condition excludes the format that keeps samples back. -/
theorem C103_call_partial (H : Host) (a : OSegdArgs) (hf : a.gh1.formatCode ≠ 8015) :
    ∃ (bytes : Trace → Bytes) (result : Trace → Out Unit), ∀ s, AfterCalls H a s →
      s.chansWritten ≠ s.chansInRecord → ∀ t,
        (writeTraceD H t s).1 = result t ∧ (writeTraceD H t s).2.out = s.out ++ bytes t ∧
        (writeTraceD H t s).2.chansWritten = s.chansWritten + counted (result t) := by
  refine ⟨fun t => (traceOut H a t).1, fun t => (traceOut H a t).2, fun s hs hc t => ?_⟩
  obtain ⟨rfl, hm⟩ := afterCalls_inv hs hf
  obtain ⟨e1, e2, -, -, e5⟩ := writeTraceD_eq hm t hc (H := H)
  exact ⟨e1, e2, e5⟩

/-- **C103.** The file is what was there, and then one piece for each trace. So changing, leaving out, adding
or moving one trace leaves the bytes of all others as they are. -/
theorem C103_file_partial (H : Host) (a : OSegdArgs) (hf : a.gh1.formatCode ≠ 8015) :
    ∃ (bytes : Trace → Bytes) (result : Trace → Out Unit), ∀ s, AfterCalls H a s → ∀ ts,
      s.chansWritten + ts.length ≤ s.chansInRecord →
        (Spec.writeAll H ts s).1 = ts.map result ∧
        (Spec.writeAll H ts s).2.out = s.out ++ (ts.map bytes).flatten :=
  ⟨fun t => (traceOut H a t).1, fun t => (traceOut H a t).2, fun _ hs ts hl => writeAll_out hf ts hs hl⟩

/-- **C103.** Two accepted traces with the same number of extension blocks, each after calls of its own:
their bytes differ only where a value or a sample is stored that they do not have in common. The condition
excludes the formats that do not put samples one behind the other. -/
theorem C103_changes_partial (H : Host) (a : OSegdArgs) (hf : a.gh1.formatCode ∉ heldFormats) (s v s' v' : OSegd)
    (t u : Trace) (hs : AfterCalls H a s) (hv : AfterCalls H a v) (h1 : writeTraceD H t s = (.ok (), s'))
    (h2 : writeTraceD H u v = (.ok (), v')) (he : extBlocks t = extBlocks u) :
    ∃ bs cs, s'.out = s.out ++ bs ∧ v'.out = v.out ++ cs ∧
      bs.length = 20 + 32 * extBlocks t + t.samples.length * (segdBits a.gh1.formatCode / 8) ∧
      cs.length = 20 + 32 * extBlocks u + u.samples.length * (segdBits a.gh1.formatCode / 8) ∧
      ∀ j : Nat, bs[j]? ≠ cs[j]? → TouchedD a t u j := by
  have hf' : a.gh1.formatCode ≠ 8015 := fun c => hf (by rw [c]; decide)
  have key : ∀ (s s' : OSegd) (t : Trace), AfterCalls H a s → writeTraceD H t s = (.ok (), s') →
      ∃ bs, s'.out = s.out ++ bs ∧ traceOut H a t = (bs, .ok ()) ∧
        bs.length = 20 + 32 * extBlocks t + t.samples.length * (segdBits a.gh1.formatCode / 8) := by
    intro s s' t hs h
    obtain ⟨rfl, hm⟩ := afterCalls_inv hs hf'
    have hc : s.chansWritten ≠ s.chansInRecord := by
      intro c
      unfold writeTraceD at h
      rw [if_pos c] at h
      cases h
    obtain ⟨e1, e2, -⟩ := writeTraceD_eq hm t hc (H := H)
    rw [h] at e1 e2
    have ht : traceOut H s.args t = ((traceOut H s.args t).1, .ok ()) := Prod.ext rfl e1.symm
    refine ⟨_, e2, ht, ?_⟩
    obtain ⟨b, x, y, -, l1, -, l2, hy, e⟩ := traceOut_ok ht
    obtain ⟨c, f, ps, bits, -, -, hn, hp, rfl⟩ := samplesOut_pieces hf hy
    rw [e, List.length_append, List.length_append, l1, l2, pieces_length (fun x p hp => hn _ _ hp) hp]
    omega
  obtain ⟨bs, b1, b2, b3⟩ := key s s' t hs h1
  obtain ⟨cs, c1, c2, c3⟩ := key v v' u hv h2
  exact ⟨bs, cs, b1, c1, b3, c3, fun j hj => traceOut_differ hf b2 c2 he j hj⟩

/-- **C103.** Header values the writer does not look at change nothing, whatever the call does: those of
the trace header and of the map, or of the standard extension block if there is no map, are the ones it
looks at. -/
theorem C103_unmapped (H : Host) (s : OSegd) (t : Trace) (name : String) (v : Value) (hn : name ∉ lookedAt s.args) :
    writeTraceD H ⟨t.header.set name v, t.samples⟩ s = writeTraceD H t s :=
  writeTraceD_same rfl fun n hm => get_set_ne (by rintro rfl; exact hn hm)

/-- A name the writer does not look at. -/
example : "OTHER" ∉ lookedAt segdArgsExample := by decide +kernel

/-- The example with two traces that differ in the channel and in the second sample, after a trace that was
refused in the first writer and after an accepted one in the second: the bytes differ in those of the channel
(here in the second) and of the sample (here in two of four). -/
example : (do
      let w ← openSegdWriter hostExample 0 segdArgsExample
      let s := (writeTraceD hostExample ⟨[], []⟩ w).2
      let v := (writeTraceD hostExample segdTraceExample w).2
      let (r1, s') := writeTraceD hostExample segdTraceExample s
      let (r2, v') := writeTraceD hostExample
        ⟨segdTraceExample.header.set "CHAN" (.int 2), [dblOfInt 3, dblOfInt 7]⟩ v
      let bs := s'.out.drop s.out.length
      let cs := v'.out.drop v.out.length
      pure ([decide (r1 = .ok ()), decide (r2 = .ok ())], [bs.length, cs.length],
        ((bs.zip cs).zipIdx.filter fun p => p.1.1 ≠ p.1.2).map (·.2))) =
    (Except.ok ([true, true], [60, 60], [5, 56, 57]) : Out (List Bool × List Nat × List Nat)) := by
  decide +kernel

/-- The arguments of the example with another sample format. -/
def segdArgsOf (fmt : Int) : OSegdArgs :=
  { segdArgsExample with gh1 := { segdArgsExample.gh1 with formatCode := fmt } }

/-- Halves and quarters. -/
def half : Dbl := ddivPow2 (dblOfInt 1) 1
def quarter : Dbl := ddivPow2 (dblOfInt 1) 2

/-- The last `n` bytes of the file of two traces with these samples, and how the calls end. -/
def lastOfTwo (fmt : Int) (n : Nat) (xs ys : List Dbl) : Out (List (Out Unit) × Bytes) := do
  let w ← openSegdWriter hostExample 0 (segdArgsOf fmt)
  let (rs, s) := Spec.writeAll hostExample [⟨segdTraceExample.header, xs⟩, ⟨segdTraceExample.header, ys⟩] w
  pure (rs, s.out.drop (s.out.length - n))

/-- **C103 fails for format 8015.** Two files whose first traces differ in their sample, and whose second
traces are the same: the 10 bytes of the samples of the second traces differ. The first trace leaves its
sample behind, which is written with the second one. -/
theorem C103_held_back :
    lastOfTwo 8015 10 [half] [half, half, half, half] =
      .ok ([.ok (), .ok ()], [0, 0, 64, 0, 64, 0, 64, 0, 64, 0]) ∧
    lastOfTwo 8015 10 [quarter] [half, half, half, half] =
      .ok ([.ok (), .ok ()], [0, 0, 32, 0, 64, 0, 64, 0, 64, 0]) := by
  constructor <;> decide +kernel

/-- **C103 fails for formats 8022 and 8042.** Two traces that differ in the second sample only: the byte of
the first sample differs, the one of the second does not. -/
theorem C103_first_byte :
    lastOfTwo 8042 2 [half] [half, half] = .ok ([.ok (), .ok ()], [16, 0]) ∧
    lastOfTwo 8042 2 [half] [half, quarter] = .ok ([.ok (), .ok ()], [8, 0]) ∧
    lastOfTwo 8022 2 [half] [half, half] = .ok ([.ok (), .ok ()], [0, 0]) ∧
    lastOfTwo 8022 2 [half] [half, dblOfInt (-1)] = .ok ([.ok (), .ok ()], [128, 0]) := by
  refine ⟨?_, ?_, ?_, ?_⟩ <;> decide +kernel

end Sedaman.Props
