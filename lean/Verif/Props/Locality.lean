import Verif.Lemmas.Locality
import Verif.Props.OSEGY

/-!
# C100: the bytes of a trace in the file depend on that trace alone
-/

namespace Sedaman.Props

open Sedaman Spec

/-- **C100 (part).** Two calls that write two traces, after any histories of one writer (one of the
traces of the same histories, or of different ones), put bytes into the file that differ only where a
header value or a sample differs. The condition is that each trace has as many samples as announced. -/
theorem C100_changes_partial (est : LogEst) (rev : Rev) (w0 w v w' v' : Writer) (ts us : List Trace)
    (t t' : Trace) (ho : Opens rev w0) (hw : Written (rev.write est) w0 ts w)
    (hv : Written (rev.write est) w0 us v) (h1 : rev.write est w t = .ok w') (h2 : rev.write est v t' = .ok v')
    (hn : Announced rev w'.bh t t.samples.length) (hn' : Announced rev v'.bh t' t'.samples.length) :
    ∃ bs bs', Added w w' bs ∧ Added v v' bs' ∧ ∀ j : Nat, bs[j]? ≠ bs'[j]? → Touched rev w0 t t' j := by
  have h0 := opens_inv2 ho
  obtain ⟨i1, i2, i3, i4, i5, i6, i7, i8⟩ := written_inv2 h0 hw
  obtain ⟨j1, j2, j3, j4, j5, j6, j7, j8⟩ := written_inv2 h0 hv
  obtain ⟨wa, bs, a1, a2, a3, -⟩ := write_bytes i1 h1 hn
  obtain ⟨va, bs', b1, b2, b3, -⟩ := write_bytes j1 h2 hn'
  exact ⟨bs, bs', ⟨_, front_length i1 a1, a3⟩, ⟨_, front_length j1 b1, b3⟩,
    bytes_touched h0.bps (traceBytes_congr i2.map i2.bo i4 i5 a2) (traceBytes_congr j2.map j2.bo j4 j5 b2)⟩

/-- **C100 (part).** One trace is stored as the same bytes after every history. -/
theorem C100_same_partial (est : LogEst) (rev : Rev) (w0 w v w' v' : Writer) (ts us : List Trace)
    (t : Trace) (ho : Opens rev w0) (hw : Written (rev.write est) w0 ts w)
    (hv : Written (rev.write est) w0 us v) (h1 : rev.write est w t = .ok w') (h2 : rev.write est v t = .ok v')
    (hn : Announced rev w'.bh t t.samples.length) (hn' : Announced rev v'.bh t t.samples.length) :
    ∃ bs, Added w w' bs ∧ Added v v' bs := by
  obtain ⟨bs, bs', h3, h4, h5⟩ :=
    C100_changes_partial est rev w0 w v w' v' ts us t t ho hw hv h1 h2 hn hn'
  have e : bs = bs' := List.ext_getElem? fun j => by
    by_contra c
    exact touched_self (h5 j c)
  exact ⟨bs, h3, e ▸ h4⟩

/-- **C100 (part).** Of a writer opened with an explicit binary header: there is one way of storing
traces, and every file is what the constructor wrote followed by the traces, in order, each stored that
way. So changing, leaving out, adding or moving a trace leaves the bytes of the others as they are. -/
theorem C100_file_partial (est : LogEst) (rev : Rev) (w0 : Writer) (ho : Opens rev w0) (hx : w0.auto = false) :
    ∃ stored : Trace → Bytes, ∀ ts w, Written (rev.write est) w0 ts w →
      (∀ t ∈ ts, Announced rev w0.bh t t.samples.length) →
      w.file.data = w0.file.data ++ (ts.map stored).flatten := by
  obtain ⟨f, hf⟩ := bytes_function est rev w0
  refine ⟨f, fun ts w hw hn => ?_⟩
  have h0 := opens_inv2 ho
  have hbh := explicit_bh h0 hx hw
  obtain ⟨wa, bss, a1, a2, a3, a4⟩ := written_bytes h0 hw (by rw [hbh]; exact hn)
  rw [a4, map_function hf a3, front_explicit hx a1]

/-- **C100 (part).** Of any writer, also one that makes the binary header itself: the first trace decides the 400
bytes of the binary header besides its own bytes, and nothing else of the file depends on it. -/
theorem C100_automatic_partial (est : LogEst) (rev : Rev) (w0 : Writer) (ho : Opens rev w0) :
    ∃ (front stored : Trace → Bytes), (∀ t, (front t).length = w0.file.data.length ∧
        (front t).take 3200 = w0.file.data.take 3200 ∧ (front t).drop 3600 = w0.file.data.drop 3600) ∧
      ∀ t ts w, Written (rev.write est) w0 (t :: ts) w →
        (∀ u ∈ t :: ts, Announced rev w.bh u u.samples.length) →
        w.file.data = front t ++ ((t :: ts).map stored).flatten := by
  obtain ⟨f, hf⟩ := bytes_function est rev w0
  have h0 := opens_inv2 ho
  obtain ⟨g, hg1, hg2⟩ := front_function h0
  refine ⟨g, f, hg1, fun t ts w hw hn => ?_⟩
  obtain ⟨wa, bss, a1, a2, a3, a4⟩ := written_bytes h0 hw hn
  rw [a4, map_function hf a3, hg2 t wa (a1.2 t rfl)]

/-- Two lists of two traces with an explicit header; the second traces differ in the second sample and in
one header value. The bytes of the first trace are the same, those of the second differ in the 4 bytes of
the value at offset 8 (here in the last of them) and in the 2 bytes of the sample (here in the second). -/
example : (do
      let w0 ← openRev0 exText { formatCode := 3, sampPerTr := 2 } exWMap
      let w ← writeTraceRev0 (.strict fun _ => 0) w0 ⟨[("FFID", .int 5)], [d1, d2]⟩
      let w1 ← writeTraceRev0 (.strict fun _ => 0) w ⟨[("FFID", .int 5)], [d1, d2]⟩
      let w2 ← writeTraceRev0 (.strict fun _ => 0) w ⟨[("FFID", .int 6), ("OTHER", .int 7)], [d1, d3]⟩
      pure ([w0.auto, decide (Announced .r0 w0.bh ⟨[], [d1, d2]⟩ 2),
          w1.file.data.take 3844 == w2.file.data.take 3844],
        [w1.file.data.length, w2.file.data.length],
        ((((w1.file.data.drop 3844).zip (w2.file.data.drop 3844)).zipIdx.filter
          fun p => p.1.1 ≠ p.1.2).map (·.2)))) =
    (Except.ok ([false, true, true], [4088, 4088], [11, 243]) : Out (List Bool × List Nat × List Nat)) := by decide +kernel

/-- Traces of any length with automatic headers: the announced count is that of each trace. -/
example : (do
      let w0 ← openRev1 [exText] {} exWMap
      let w1 ← writeTraceRev1 (.strict fun _ => 0) w0 ⟨[("SAMP_NUM", .int 1), ("SAMP_INT", .int 2)], [d1]⟩
      let w2 ← writeTraceRev1 (.strict fun _ => 0) w1 ⟨[("SAMP_NUM", .int 2), ("SAMP_INT", .int 2)], [d1, d2]⟩
      pure (w0.auto, decide (Announced .r1 w2.bh ⟨[("SAMP_NUM", .int 1)], [d1]⟩ 1),
        w1.file.data.length, w2.file.data.length)) =
    (Except.ok (true, true, 3600 + 244, 3600 + 244 + 248) : Out (Bool × Bool × Nat × Nat)) := by
  decide +kernel

/-- **C100.** Header values under names that the map does not mention change nothing, whatever the call
does; the names SAMP_NUM and SAMP_INT are the ones looked at without the map. -/
theorem C100_unmapped (est : LogEst) (rev : Rev) (w : Writer) (t : Trace) (name : String) (v : Value)
    (hm : ∀ b ∈ w.map, ∀ f ∈ b.fields, f.name ≠ name) (hn : name ≠ "SAMP_NUM") (hi : name ≠ "SAMP_INT") :
    rev.write est w ⟨t.header.set name v, t.samples⟩ = rev.write est w t :=
  write_same (fun b hb f hf => get_set_ne (hm b hb f hf)) (get_set_ne (Ne.symm hn)) (get_set_ne (Ne.symm hi))

/-- A name that a map does not mention. -/
example : (∀ b ∈ exWMap, ∀ f ∈ b.fields, f.name ≠ "OTHER") ∧ "OTHER" ≠ "SAMP_NUM" ∧ "OTHER" ≠ "SAMP_INT" := by
  decide +kernel

/-- **C100 fails for shorter traces.** Two lists of traces that differ in the first trace only, and the
bytes of the second trace differ: the announced second sample is the one of the trace before. -/
theorem C100_stale :
    (do
      let w ← openRev0 exText { formatCode := 3, sampPerTr := 2 } exWMap
      let w ← writeTraceRev0 (.strict fun _ => 0) w ⟨[], [d1, d2]⟩
      let w ← writeTraceRev0 (.strict fun _ => 0) w ⟨[], [d3]⟩
      pure (w.file.data.drop (3600 + 244 + 240))) = (Except.ok [0, 3, 0, 2] : Out Bytes) ∧
    (do
      let w ← openRev0 exText { formatCode := 3, sampPerTr := 2 } exWMap
      let w ← writeTraceRev0 (.strict fun _ => 0) w ⟨[], [d1, d1]⟩
      let w ← writeTraceRev0 (.strict fun _ => 0) w ⟨[], [d3]⟩
      pure (w.file.data.drop (3600 + 244 + 240))) = (Except.ok [0, 3, 0, 1] : Out Bytes) := by
  constructor <;> decide +kernel

end Sedaman.Props
