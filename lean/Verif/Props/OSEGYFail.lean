import Verif.Lemmas.OSEGYFail
import Verif.Props.OSEGY

/-!
# C73: SEG-Y writers after a refused trace
-/

namespace Sedaman.Props

open Spec

/-- **C73, the two models of `write_trace` agree.** A call returns in the model that follows the
writer through exceptions exactly when it does in the model the other theorems are about, with the
same writer; otherwise it fails for the same reason. -/
theorem C73_same_outcomes (est : LogEst) (rev : Rev) (w0 w : Writer) (ts : List Trace) (t : Trace)
    (ho : Opens rev w0) (hw : Written (rev.write est) w0 ts w) :
    (∀ w', rev.call est w t = (.ok (), w') ↔ rev.write est w t = .ok w') ∧
    ∀ e, (rev.call est w t).1 = .error e ↔ rev.write est w t = .error e := by
  have hi := (written_inv2 (opens_inv2 ho) hw).1.inv
  have ha := agrees_call (est := est) (rev := rev) (t := t) hi
  cases hr : rev.write est w t with
  | ok v =>
    rw [hr] at ha
    have e : rev.call est w t = (.ok (), v) := ha
    rw [e]
    refine ⟨fun w' => ?_, fun e => ?_⟩
    · constructor
      · intro h; cases h; rfl
      · intro h; cases h; rfl
    · constructor <;> (intro h; cases h)
  | error u =>
    rw [hr] at ha
    have e : (rev.call est w t).1 = .error u := ha
    refine ⟨fun w' => ?_, fun e' => ?_⟩
    · constructor
      · intro h
        rw [h] at e
        cases e
      · intro h; cases h
    · rw [e]
      constructor <;> (intro h; cases h; rfl)

/-- **C73 (part).** A program offers traces to a writer and goes on when one is refused with an
exception. Then the writer (with its file) is the one that was offered only the accepted traces. An
automatic writer that has accepted none yet may differ from a new one in the 400 bytes of the binary
header. The traces must be such that the samples are reached once the first header block is written
(`Plain`); the next theorems show what happens otherwise. -/
theorem C73_refused_traces_leave_nothing_partial (est : LogEst) (rev : Rev) (w0 : Writer)
    (ts : List Trace) (ho : Opens rev w0) (hp : ∀ t ∈ ts, Plain rev w0 t)
    (hd : ∀ r ∈ (calls (rev.call est) w0 ts).1, Defined r) :
    let done := keptOf (calls (rev.call est) w0 ts).1 ts
    let w := (calls (rev.call est) w0 ts).2
    (w0.auto = false ∨ done ≠ [] → Written (rev.write est) w0 done w) ∧
    (w0.auto = true ∧ done = [] → ∃ bin, bin.length = 400 ∧
      w.file = ⟨w0.file.data.take 3200 ++ bin, w0.file.pos⟩ ∧ w0.file.pos = 3600 ∧
      w0.file.data.length = 3600) := by
  intro done w
  have h := after_calls ho (after_opened (est := est) ho) hp hd
  rw [List.nil_append] at h
  refine ⟨fun hc => ?_, fun ⟨ha, hn⟩ => ?_⟩
  · rcases h with ⟨h1, -⟩ | ⟨h1, h2, -⟩
    · exact h1
    · rcases hc with hc | hc
      · rw [h1] at hc; cases hc
      · exact absurd h2 hc
  · rcases h with ⟨-, h1⟩ | ⟨-, -, h1⟩
    · exact absurd hn (h1 ha)
    · obtain ⟨a, b, k, bin, hb, e⟩ := h1
      have hf := opens_fresh ho ha
      have hpos : w0.file.pos = 3600 := by rw [(opens_inv2 ho).inv.atEnd, hf.len]
      refine ⟨bin, hb, ?_, hpos, hf.len⟩
      rw [hpos]
      show (calls (rev.call est) w0 ts).2.file = _
      rw [e]

/-- Three traces; the second is refused (FFID is not an integer). -/
def exOffer0 : List Trace :=
  [⟨[], [d1, d2]⟩, ⟨[("FFID", .dbl d1)], [d2, d2]⟩, ⟨[("FFID", .int 7)], [d3, d3]⟩]

/-- An automatic writer refuses the first two, for the sample interval and for FFID. -/
def exOffer1 : List Trace :=
  [⟨[("SAMP_NUM", .int 2), ("SAMP_INT", .int 0)], [d1, d2]⟩,
   ⟨[("SAMP_NUM", .int 5), ("SAMP_INT", .int 4), ("FFID", .dbl d1)], [d1, d2]⟩,
   ⟨[("SAMP_NUM", .int 1), ("SAMP_INT", .int 3)], [d1]⟩]

example : ∀ w, ∀ t ∈ exOffer0, Plain .r0 w t :=
  fun w t _ => ⟨fun h => absurd rfl h, fun h => by cases h⟩

example : ∀ w, ∀ t ∈ exOffer1, Plain .r1 w t := by
  refine fun w t ht => ⟨fun _ _ => ?_, fun h => by cases h⟩
  simp only [exOffer1, List.mem_cons, List.not_mem_nil, or_false] at ht
  rcases ht with rfl | rfl | rfl
  · exact ⟨2, by decide⟩
  · exact ⟨5, by decide⟩
  · exact ⟨1, by decide⟩

example :
    (do
      let w ← openRev0 exText { formatCode := 3, sampPerTr := 2 } exWMap
      let (rs, w') := calls (Rev.r0.call (.strict fun _ => 0)) w exOffer0
      pure (rs, w'.file.data.length)) =
    (Except.ok ([.ok (), throwExn .badVariantAccess, .ok ()], 3600 + 2 * 244) : Out (List (Out Unit) × Nat)) := by
  decide +kernel

example :
    (do
      let w ← openRev1 [] {} exWMap
      let (rs, w') := calls (Rev.r1.call (.strict fun _ => 0)) w exOffer1
      let (_, w2) := calls (Rev.r1.call (.strict fun _ => 0)) w (exOffer1.take 2)
      pure (rs, w'.file.data.length, w2.file.data == w.file.data)) =
    (Except.ok ([throwExn .badSampleInterval, throwExn .badVariantAccess, .ok ()], 3600 + 244, false) :
      Out (List (Out Unit) × Nat × Bool)) := by decide +kernel

/-- **C73 fails for a negative count.** Where traces have variable length, a trace with a negative
SAMP_NUM is refused, but after its header was written: 240 bytes without samples stay in the file. -/
theorem C73_negative_count_leaves_header (est : LogEst) (w0 w : Writer) (ts : List Trace) (t : Trace)
    (n : Int) (hb : Bytes) (b : HBlock) (m : HdrMap) (ho : Opens .r1 w0)
    (hw : Written (Rev.r1.write est) w0 ts w) (ha : w0.auto = true → ts ≠ [])
    (hv : w0.bh.fixedTrLength = 0) (hm : w0.map = b :: m)
    (hblk : writeBlock est w0.bo b.fields t.header (List.replicate 240 0) = .ok hb)
    (hn : t.header.get "SAMP_NUM" = some (.int n)) (hneg : n < 0) (hlow : -2 ^ 60 ≤ n) :
    (Rev.r1.call est w t).1 = throwExn .lengthError ∧ hb.length = 240 ∧
      (Rev.r1.call est w t).2.file.data = w.file.data ++ hb := by
  obtain ⟨i1, i2, i3, i4, i5, i6, i7, i8⟩ := written_inv2 (opens_inv2 ho) hw
  have hbps := bps_small i1.bps
  have hlo : -2 ^ 63 ≤ n * w.bps := by
    have h8 : (w.bps : Int) ≤ 8 := by exact_mod_cast hbps.2
    have h0 : (0 : Int) ≤ w.bps := by omega
    nlinarith
  have hhi : n * w.bps < 0 := Int.mul_neg_of_neg_of_pos hneg (by omega)
  have hl := writeBlock_length (by rw [List.length_replicate]) hblk
  have hau := auto_of_agrees (autoHdrs_idle (onlyInt := Rev.onlyInt .r1) (hdr := t.header) i1.inv
    (fun a => i8 (ha (by rw [← i2.auto]; exact a))))
  have hput := putTraceHeader_of (est := est) (w := w) (m := m) (hdr := t.header) (out := hb) (b := b)
    i1.inv.hdr (by rw [i2.map]; exact hm) (by rw [i2.bo]; exact hblk)
  have hvar : writeSamplesVar est { w with hdrBuf := hb, file := w.file.write hb } t = throwExn .lengthError := by
    unfold writeSamplesVar needInt
    rw [hn]
    simp only
    rw [ok_bind]
    have : mulInt64 n w.bps = .ok (n * w.bps) := by
      unfold mulInt64
      rw [if_pos ⟨hlo, by omega⟩]
    rw [this, ok_bind]
    have hbig := mul_neg_toU hneg hbps.1 hlo
    unfold fitBuf
    have := i1.small
    rw [if_pos (by omega), resizeVec_ge (by omega)]
    rfl
  have hc : Rev.r1.call est w t = (throwExn .lengthError, { w with hdrBuf := hb, file := w.file.write hb }) := by
    rw [call_eq, hau]
    rw [Call.ok_then]
    unfold restIO
    rw [hput]
    simp only [orSame, Call.then]
    rw [if_neg (fun c => c.2 (by rw [i3, hv])), hvar]
    rfl
  rw [hc]
  refine ⟨rfl, hl, ?_⟩
  simp only
  rw [write_append i1.inv.atEnd]

/-- The hypotheses are met by a revision 1 file of 16 bit integers; the next trace follows the stray
header. -/
example :
    (do
      let w ← openRev1 [exText] { formatCode := 3, revMajor := 1 } exWMap
      let hb ← writeBlock (.strict fun _ => 0) w.bo [⟨8, "FFID", .i32⟩, ⟨114, "SAMP_NUM", .i16⟩]
        [("SAMP_NUM", .int (-1))] (List.replicate 240 0)
      let (rs, w') := calls (Rev.r1.call (.strict fun _ => 0)) w
        [⟨[("SAMP_NUM", .int (-1))], []⟩, ⟨[("SAMP_NUM", .int 1)], [d1]⟩]
      pure (rs, [w.bh.fixedTrLength, hb.length, w'.file.data.length], w.auto)) =
    (Except.ok ([throwExn .lengthError, .ok ()], [0, 240, 3600 + 240 + 242], false) :
      Out (List (Out Unit) × List Int × Bool)) := by decide +kernel

/-- A revision 2 map with further header blocks. -/
def exWMap2 : HdrMap :=
  [⟨"SEG00000", [⟨8, "FFID", .i32⟩, ⟨114, "SAMP_NUM", .i16⟩]⟩, ⟨"SEG00001", [⟨0, "EXTRA", .i32⟩]⟩,
   ⟨"SEG00002", []⟩]

/-- **C73 fails for additional headers.** A revision 2 writer that refuses a trace because of a field
of its second header block has written the first block already; a trace accepted afterwards is stored
behind it. -/
theorem C73_additional_leaves_header :
    (do
      let w ← openRev2 [exText] { formatCode := 3, revMajor := 2, maxNumAddTrHeaders := 2 } [] exWMap2
      let (rs, w') := calls (Rev.r2.call (.strict fun _ => 0)) w
        [⟨[("SAMP_NUM", .int 1), ("EXTRA", .dbl d1)], [d1]⟩, ⟨[("SAMP_NUM", .int 1)], [d1]⟩]
      pure (rs, w'.file.data.length)) =
    (Except.ok ([throwExn .badVariantAccess, .ok ()], 3600 + 240 + (480 + 2)) :
      Out (List (Out Unit) × Nat)) := by decide +kernel

end Sedaman.Props
