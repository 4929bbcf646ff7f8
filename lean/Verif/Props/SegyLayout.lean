import Verif.Lemmas.SegyLayout
import Verif.Lemmas.OpenOf
import Verif.Props.OSEGY

/-!
# C110: the layout of SEG-Y files
-/

namespace Sedaman.Props
open Sedaman Sedaman.Spec

/-- **C110.** Whatever traces were accepted, the file consists of the first text, the binary header, the other
texts and one piece for each trace, in the order of the calls. -/
theorem C110_layout {est : LogEst} {rev : Rev} {w0 w : Writer} {ts : List Trace} (ho : Opens rev w0)
    (h : Written (rev.write est) w0 ts w) : LaidOut rev w0.texts w.bh ts [] w.file.data :=
  written_laid ho h

/-- **C110, the texts.** The texts are those given to the constructor, if any were; each is as long as a
text. -/
theorem C110_texts {w : Writer} {text : Bytes} {texts trailers : List Bytes} {bh : BinHeader} {m : HdrMap} :
    (openRev0 text bh m = .ok w → text ≠ [] → w.texts = [text] ∧ text.length = 3200) ∧
    (openRev1 texts bh m = .ok w → texts ≠ [] → w.texts = texts ∧ ∀ x ∈ texts, x.length = 3200) ∧
    (openRev2 texts bh trailers m = .ok w → texts ≠ [] → w.texts = texts ∧ ∀ x ∈ texts, x.length = 3200) := by
  refine ⟨fun h hn => ?_, fun h hn => ?_, fun h hn => ?_⟩
  · obtain ⟨-, t, bo, bps, h1, h2, -, -, -, -, rfl⟩ := openRev0_ok h
    obtain ⟨rfl, h3⟩ := h2 hn
    exact ⟨rfl, h3⟩
  · obtain ⟨-, t, ts, bo, bps, -, -, h2, -, -, -, -, rfl⟩ := openRev1_ok h
    exact ⟨(h2 hn).1.symm, (h2 hn).2⟩
  · obtain ⟨-, -, t, ts, bo, bps, -, -, h2, -, -, -, -, rfl⟩ := openRev2_ok h
    exact ⟨(h2 hn).1.symm, (h2 hn).2⟩

/-- **C110, closing.** Closing a file of revision 2 always succeeds, and adds nothing but the trailers, 3200
bytes each, if the binary header given to the constructor announces some. -/
theorem C110_close {est : LogEst} {texts trailers : List Bytes} {bh : BinHeader} {m : HdrMap} {w0 w : Writer}
    {ts : List Trace} (hl : texts.length ≤ 65536) (ho : openRev2 texts bh trailers m = .ok w0)
    (h : Written (writeTraceRev2 est) w0 ts w) :
    ∃ data, closeRev2 w = .ok data ∧ (∀ x ∈ trailers, x.length = 3200) ∧
      LaidOut .r2 w0.texts w.bh ts (if bh.numOfTrailerStanza = 0 then [] else trailers.flatten) data := by
  have hop : Opens .r2 w0 := ⟨texts, bh, trailers, m, hl, ho⟩
  obtain ⟨i1, i2, -, -, -, i6, -, -⟩ := written_inv2 (est := est) (opens_inv2 hop) h
  obtain ⟨text, others, bin, pieces, size, e1, e2, e3, e4, e5, e6⟩ := written_laid (est := est) hop h
  obtain ⟨-, ht, t, us, bo, bps, -, -, -, -, -, -, -, hw0⟩ := openRev2_ok ho
  have htr : w.trailers = trailers := by rw [i2.trailers, hw0]; rfl
  have hst : w.bh.numOfTrailerStanza = bh.numOfTrailerStanza := by
    rw [i6, hw0]; unfold openedWriter memHeader; simp only [Bool.false_eq_true, if_false]
    unfold fmtOr; split <;> rfl
  by_cases c : bh.numOfTrailerStanza = 0
  · refine ⟨w.file.data, ?_, ht, ?_⟩
    · unfold closeRev2
      rw [seekEnd_zero, ok_bind, if_neg (by rw [hst, c]; simp)]; rfl
    · rw [if_pos c]
      exact ⟨text, others, bin, pieces, size, e1, e2, e3, e4, e5, e6⟩
  · refine ⟨w.file.data ++ trailers.flatten, ?_, ht, ?_⟩
    · unfold closeRev2
      rw [seekEnd_zero, ok_bind, if_pos (by rw [hst]; exact c), htr,
        writeTexts_of (fun x hx => (ht x hx).ge) rfl, textBytes_exact ht]; rfl
    · rw [if_neg c]
      refine ⟨text, others, bin, pieces, size, e1, e2, e3, e4, e5, ?_⟩
      rw [e6, List.append_nil]

/-- **C110, positions.** In a file of traces of one length, trace `k` begins behind the headers and `k` pieces of
that length: with `n` samples a trace and `e` texts behind the binary header, at
`3600 + 3200 e + k (240 + 240 further + n size)`. Nothing follows the last one. -/
theorem C110_positions {est : LogEst} {rev : Rev} {w0 w : Writer} {ts : List Trace} (ho : Opens rev w0)
    (h : Written (rev.write est) w0 ts w) (hf : rev = .r0 ∨ w.bh.fixedTrLength ≠ 0) :
    ∃ (n size : Nat) (pieces : List Bytes), (n : Int) = w.bh.sampPerTr % 65536 ∧
      (w.bh.formatCode, size) ∈ sampleSizes ∧ pieces.length = ts.length ∧
      w.file.data.length = 3600 + 3200 * (w0.texts.length - 1) +
        ts.length * (240 * (1 + furtherBlocks rev w.bh) + n * size) ∧
      ∀ (k : Nat) (p : Bytes), pieces[k]? = some p →
        p = (w.file.data.drop (3600 + 3200 * (w0.texts.length - 1) +
          k * (240 * (1 + furtherBlocks rev w.bh) + n * size))).take
            (240 * (1 + furtherBlocks rev w.bh) + n * size) := by
  obtain ⟨text, others, bin, pieces, size, e1, e2, e3, e4, e5, e6⟩ := written_laid ho h
  have hn : ∃ n : Nat, (n : Int) = w.bh.sampPerTr % 65536 :=
    ⟨(w.bh.sampPerTr % 65536).toNat, by omega⟩
  obtain ⟨n, hn⟩ := hn
  have hp : ∀ p ∈ pieces, p.length = 240 * (1 + furtherBlocks rev w.bh) + n * size := by
    intro p hp
    obtain ⟨t, -, n', h1, h2⟩ := forall₂_right e5 hp
    unfold Announced at h1
    rw [if_pos hf] at h1
    have : n' = n := by omega
    rw [h2, this]
  have hh := headLen (others := others) (bin := bin) (e2 text (by rw [e1]; simp))
    (fun x hx => e2 x (by rw [e1]; simp [hx])) e3
  have ho' : w0.texts.length - 1 = others.length := by rw [e1]; simp
  generalize hL : 240 * (1 + furtherBlocks rev w.bh) + n * size = L at hp
  refine ⟨n, size, pieces, hn, e4, e5.length_eq.symm, ?_, ?_⟩
  · rw [hL, e6, ho', List.append_nil, List.length_append, hh, flatten_length_const L hp, e5.length_eq]
    ring
  · intro k p hk
    rw [hL, e6, ho', List.append_nil, ← hh, ← List.drop_drop, List.drop_left]
    exact piece_at hp hk

/-- A file of revision 1 with one text behind the binary header and a trace of two samples of two bytes. -/
example :
    (do
      let w0 ← openRev1 [exText, exText] { formatCode := 3, sampPerTr := 2, fixedTrLength := 1, revMajor := 1 } exWMap
      let w1 ← writeTraceRev1 (.strict fun _ => 0) w0 ⟨[("SAMP_NUM", .int 2)], [d1, d2]⟩
      pure (w0.file.data.length, w1.file.data.length)) = (Except.ok (6800, 7044) : Out (Nat × Nat)) := by decide +kernel

/-- A file of revision 2 with a trailer. -/
example :
    (do
      let w0 ← openRev2 [exText] { formatCode := 3, revMajor := 2, numOfTrailerStanza := 1 } [exText] exWMap
      let w1 ← writeTraceRev2 (.strict fun _ => 0) w0 ⟨[("SAMP_NUM", .int 2)], [d1, d2]⟩
      let d ← closeRev2 w1
      pure (w1.file.data.length, d.length)) = (Except.ok (3844, 7044) : Out (Nat × Nat)) := by decide +kernel

end Sedaman.Props
