import Verif.Lemmas.SegdReader
import Verif.Props.SegdWriter

/-!
# C52: the SEG-D reader counts traces and moves from record to record
-/

namespace Sedaman.Props

open Spec

/-- The states a careful user can reach: the counter is what the channel sets announce, and the
number of traces read is below it, unless no channel is announced. -/
theorem reachable_inv {pw : Dbl → Dbl} {data : Bytes} {m : ExtMap} {s : ISegd}
    (h : ReachableD pw data m s) :
    s.file.data = data ∧ s.chansIn = announced s.chSets ∧
      (s.chansRead < s.chansIn ∨ s.chansRead = 0 ∧ s.chansIn = 0) := by
  have key : ∀ {s0 s' : ISegd}, s0.chSets = [] → s0.chansIn = 0 → s0.chansRead = 0 →
      readHeaders s0 = .ok s' → s'.file.data = s0.file.data ∧ s'.chansIn = announced s'.chSets ∧
      (s'.chansRead < s'.chansIn ∨ s'.chansRead = 0 ∧ s'.chansIn = 0) := by
    intro s0 s' e1 e2 e3 h
    obtain ⟨a, -, b, -, -, new, c, d, -⟩ := readHeaders_ok h
    rw [e1, List.nil_append] at c
    rw [e2, Nat.zero_add] at d
    exact ⟨a, by rw [c, d], by omega⟩
  induction h with
  | opened s h => exact key (s0 := .init data m) rfl rfl rfl h
  | read s t s' _ ht h ih =>
    obtain ⟨i1, i2, i3⟩ := ih
    have ht' : s.chansIn ≠ s.chansRead := by simpa [ISegd.hasTrace] using ht
    obtain ⟨p, -, -, ⟨c, rfl⟩ | ⟨c, -, rfl⟩ | ⟨c, -, h⟩⟩ := readTraceD_cases h
    · refine ⟨i1, i2, .inl ?_⟩
      change s.chansRead + 1 < s.chansIn
      omega
    · exact ⟨i1, rfl, .inr ⟨rfl, rfl⟩⟩
    · obtain ⟨a, b, c⟩ := key rfl rfl rfl h
      exact ⟨a.trans i1, b, c⟩

/-- **C52.** `has_trace()` is true exactly as long as fewer traces of the record were read than its
channel sets announce. -/
theorem C52_has_trace (pw : Dbl → Dbl) (data : Bytes) (m : ExtMap) (s : ISegd)
    (h : ReachableD pw data m s) : s.hasTrace ↔ s.chansRead < announced s.chSets := by
  obtain ⟨-, i2, i3⟩ := reachable_inv h
  rw [← i2]
  simp only [ISegd.hasTrace, decide_eq_true_eq]
  omega

/-- **C52.** Every trace that is not the last of its record leaves the record as it is and counts one
more trace; after the last one the reader either is at the end, and both `has_record()` and
`has_trace()` say so, or it has read the headers of the record that starts right behind the
trace. -/
theorem C52_next (pw : Dbl → Dbl) (data : Bytes) (m : ExtMap) (s : ISegd) (t : Trace) (s' : ISegd)
    (hs : ReachableD pw data m s) (ht : s.hasTrace) (h : readTraceD pw s = .ok (t, s')) :
    ∃ p, readTraceBody pw s = .ok (t, s.at p) ∧ s.file.pos + 20 ≤ p ∧
      ((s.chansRead + 1 < announced s.chSets ∧ SameRecord s s' ∧ s'.hasTrace ∧
          s'.chansRead = s.chansRead + 1 ∧ s'.file.pos = p) ∨
       (s.chansRead + 1 = announced s.chSets ∧ p = data.length ∧ s'.hasRecord = false ∧
          s'.hasTrace = false) ∨
       (s.chansRead + 1 = announced s.chSets ∧ p ≠ data.length ∧ AtRecord p s')) := by
  obtain ⟨i1, i2, i3⟩ := reachable_inv hs
  have ht' := (C52_has_trace pw data m s hs).1 ht
  obtain ⟨p, hb, hp, hc⟩ := readTraceD_cases h
  refine ⟨p, hb, hp, ?_⟩
  rcases hc with ⟨c, rfl⟩ | ⟨c, e, rfl⟩ | ⟨c, e, h⟩
  · refine .inl ⟨by omega, sameRecord_at s p _, ?_, rfl, rfl⟩
    have : s.chansIn ≠ s.chansRead + 1 := by omega
    exact decide_eq_true this
  · refine .inr (.inl ⟨by omega, by rw [e, i1], ?_, rfl⟩)
    simp [ISegd.hasRecord, ISegd.at, e]
  · refine .inr (.inr ⟨by omega, by rw [← i1]; exact e, ?_⟩)
    obtain ⟨a, -, b, p2, ⟨rest, g⟩, new, c, d, n⟩ := readHeaders_ok h
    have c : s'.chSets = new := by rw [c]; rfl
    have d : s'.chansIn = announced new := by rw [d]; exact Nat.zero_add _
    exact ⟨⟨rest, by rw [a]; exact g⟩, b, by rw [c, d], by rw [c, n], p2⟩

/-- **C52.** Reading a whole record: before the announced number of traces is reached the reader stays
in the record; with the last of them it is at the end of the file, or at the next record. -/
theorem C52_record (pw : Dbl → Dbl) (data : Bytes) (m : ExtMap) (s s' : ISegd) (n : Nat)
    (ts : List Trace) (hs : ReachableD pw data m s) (h0 : s.chansRead = 0)
    (hn : n ≤ announced s.chSets) (hpos : 0 < announced s.chSets)
    (h : Spec.readManyD pw n s = .ok (ts, s')) :
    ts.length = n ∧ ReachableD pw data m s' ∧
      (n < announced s.chSets → SameRecord s s' ∧ s'.chansRead = n ∧ s'.hasTrace) ∧
      (n = announced s.chSets →
        (s'.hasRecord = false ∧ s'.hasTrace = false) ∨ ∃ p, p < data.length ∧ AtRecord p s') := by
  have key : ∀ (n : Nat) (s : ISegd) (ts : List Trace), ReachableD pw data m s → s.hasTrace →
      s.chansRead + n ≤ announced s.chSets → Spec.readManyD pw n s = .ok (ts, s') →
      ts.length = n ∧ ReachableD pw data m s' ∧
      (s.chansRead + n < announced s.chSets →
        SameRecord s s' ∧ s'.chansRead = s.chansRead + n ∧ s'.hasTrace) ∧
      (s.chansRead + n = announced s.chSets →
        (s'.hasRecord = false ∧ s'.hasTrace = false) ∨ ∃ p, p < data.length ∧ AtRecord p s') := by
    intro n
    induction n with
    | zero =>
      intro s ts hs ht hn h
      have := (C52_has_trace pw data m s hs).1 ht
      cases h
      exact ⟨rfl, hs, fun _ => ⟨⟨rfl, rfl, rfl, rfl, rfl, rfl, rfl, rfl, rfl⟩, rfl, ht⟩,
        fun he => by omega⟩
    | succ n ih =>
      intro s ts hs ht hn h
      obtain ⟨⟨t, s1⟩, h1, k⟩ := bind_ok h
      obtain ⟨⟨ts', s2⟩, h2, k⟩ := bind_ok k
      cases k
      have hr : ReachableD pw data m s1 := .read s t s1 hs ht h1
      obtain ⟨p, hb, hp, hc⟩ := C52_next pw data m s t s1 hs ht h1
      rcases hc with ⟨c, same, ht1, cr, -⟩ | ⟨c, e, r, tr⟩ | ⟨c, e, ar⟩
      · have ea : announced s1.chSets = announced s.chSets := by rw [same.chSets]
        obtain ⟨l, r, x, y⟩ := ih s1 ts' hr ht1 (by omega) h2
        refine ⟨by simp [l], r, fun hlt => ?_, fun he => y (by omega)⟩
        obtain ⟨sr, c1, c2⟩ := x (by omega)
        refine ⟨⟨sr.data.trans same.data, sr.gh1.trans same.gh1, sr.gh2.trans same.gh2,
          sr.gh3.trans same.gh3, sr.blks.trans same.blks, sr.chSets.trans same.chSets,
          sr.extended.trans same.extended, sr.external.trans same.external,
          sr.chansIn.trans same.chansIn⟩, by omega, c2⟩
      · have hn0 : n = 0 := by omega
        subst hn0
        cases h2
        exact ⟨rfl, hr, fun hlt => by omega, fun _ => .inl ⟨r, tr⟩⟩
      · have hn0 : n = 0 := by omega
        subst hn0
        cases h2
        refine ⟨rfl, hr, fun hlt => by omega, fun _ => .inr ⟨p, ?_, ar⟩⟩
        obtain ⟨rest, g⟩ := ar.gh1
        by_contra hge
        rw [(reachable_inv hr).1, List.drop_eq_nil_of_le (by omega), List.take_nil] at g
        cases g
  have ht : s.hasTrace := (C52_has_trace pw data m s hs).2 (by omega)
  obtain ⟨a, b, c, d⟩ := key n s ts hs ht (by omega) h
  rw [h0, Nat.zero_add] at c d
  exact ⟨a, b, c, d⟩

/-- **C52.** Once `has_record()` is false, `read_trace()` throws. -/
theorem C52_end_throws (pw : Dbl → Dbl) (s : ISegd) (h : s.hasRecord = false) :
    readTraceD pw s = throwExn .iosFailure := by
  have hp : s.file.pos = s.file.data.length := by simpa [ISegd.hasRecord] using h
  unfold readTraceD readTraceBody ISegd.fill
  rw [read_fail (by decide) (by omega)]
  rfl

/-- **C52.** When `has_trace()` is false, either the reader is at the end and `has_record()` is false
as well, or it stands in a record that announces no traces.
Missing: records without traces (`C52_empty_record`) and skew blocks that reach beyond the end of the
file (`C52_beyond_end`), after which `has_record()` stays true and `has_trace()` false for ever. -/
theorem C52_agree_partial (pw : Dbl → Dbl) (data : Bytes) (m : ExtMap) (s : ISegd)
    (hs : ReachableD pw data m s) (ht : s.hasTrace = false) :
    s.hasRecord = false ∨ ∃ p, p < data.length ∧ AtRecord p s ∧ announced s.chSets = 0 := by
  have hz : ¬ s.chansRead < announced s.chSets := by
    rw [← C52_has_trace pw data m s hs, ht]; decide
  have start : ∀ {p : Nat} {s : ISegd}, ReachableD pw data m s → AtRecord p s → p < data.length := by
    intro p s hr ar
    obtain ⟨rest, g⟩ := ar.gh1
    by_contra hge
    rw [(reachable_inv hr).1, List.drop_eq_nil_of_le (by omega), List.take_nil] at g
    cases g
  cases hs with
  | opened _ h =>
    right
    have hr : ReachableD pw data m s := .opened s h
    obtain ⟨a, -, b, p2, ⟨rest, g⟩, new, c, d, n⟩ := readHeaders_ok h
    have c : s.chSets = new := by rw [c]; rfl
    have d : s.chansIn = announced new := by rw [d]; exact Nat.zero_add _
    have ar : AtRecord 0 s :=
      ⟨⟨rest, by rw [a]; exact g⟩, b, by rw [c, d], by rw [c, n], p2⟩
    refine ⟨0, start hr ar, ar, ?_⟩
    have := ar.chansRead
    omega
  | read s0 t _ h0 ht0 h =>
    have hr : ReachableD pw data m s := .read s0 t s h0 ht0 h
    obtain ⟨p, hb, hp, hc⟩ := C52_next pw data m s0 t s h0 ht0 h
    rcases hc with ⟨c, same, ht1, cr, -⟩ | ⟨c, e, r, tr⟩ | ⟨c, e, ar⟩
    · rw [ht1] at ht; cases ht
    · exact .inl r
    · right
      refine ⟨p, start hr ar, ar, ?_⟩
      have := ar.chansRead
      omega

/-! ## A concrete case -/

/-- The file the example writer produces with two traces. -/
def segdFileExample : Out Bytes :=
  (openSegdWriter hostExample 0 segdArgsExample).map fun s =>
    (writeAll hostExample [segdTraceExample, segdTraceExample] s).2.out

/-- What the user sees: `has_record()`, `has_trace()`, the number of samples of the trace just
read. -/
def seen (s : ISegd) (t : Option Trace) : Bool × Bool × Option Nat :=
  (s.hasRecord, s.hasTrace, t.map fun t => t.samples.length)

/-- Opening a file and reading two traces. -/
def readTwo (data : Bytes) : Out (List (Bool × Bool × Option Nat)) := do
  let s0 ← openSegd data []
  let (t1, s1) ← readTraceD hostExample.pw s0
  let (t2, s2) ← readTraceD hostExample.pw s1
  pure [seen s0 none, seen s1 t1, seen s2 t2]

/-- One record: after its two traces both functions report the end. -/
example : (segdFileExample >>= readTwo)
    = .ok [(true, true, none), (true, true, some 2), (false, false, some 2)] := by decide +kernel

/-- Two records: after the two traces of the first the reader is at the first trace of the
second. -/
example : (segdFileExample >>= fun d => readTwo (d ++ d))
    = .ok [(true, true, none), (true, true, some 2), (true, true, some 2)] := by decide +kernel

/-! ## What can go wrong -/

/-- A record without channel sets, with a byte behind it: `has_record()` is true, `has_trace()` is
false, and no call moves on to the next record. -/
theorem C52_empty_record :
    (writeGenHdr1 floorLog { gh1Example with addGenHdrBlocks := 0, scanTypesPerRecord := 0
                                             channelSetsPerScanType := 0, skewBlocks := 0
                                             extendedHdrBlocks := 0, externalHdrBlocks := 0 } 0
      >>= fun b => openSegd (b ++ [0]) []).map (fun s => seen s none)
    = .ok (true, false, none) := by decide +kernel

/-- Skew blocks that are announced but not in the file: the reader is behind the end of the file and
reports a record. -/
theorem C52_beyond_end :
    (writeGenHdr1 floorLog { gh1Example with addGenHdrBlocks := 0, scanTypesPerRecord := 1
                                             channelSetsPerScanType := 0, skewBlocks := 3
                                             extendedHdrBlocks := 0, externalHdrBlocks := 0 } 0
      >>= fun b => openSegd b []).map (fun s => (s.file.pos, s.file.data.length, seen s none))
    = .ok (128, 32, true, false, none) := by decide +kernel

/-- A file with a general trailer (here 32 zero bytes, announced in general header 2): the trailer is
taken for the headers of a record, and the call for the last trace throws. -/
theorem C52_trailer_misread :
    (segdFileExample >>= fun d => readTwo (d ++ List.replicate 32 0))
    = throwExn .unsupportedFormat := by decide +kernel

end Sedaman.Props
