import Verif.Lemmas.SegdLocal
import Verif.Props.SegdReader

/-!
# C75 and C76: SEG-D readers after an exception, and damaged files
-/

namespace Sedaman.Props

open Spec

/-! ## C75 -/

/-- **C75, the two models of reading agree.** Up to the first failure the calls return what the other
theorems about reading say, and the first failure is the same. -/
theorem C75_same_until_failure (pw : Dbl → Dbl) (data : Bytes) (m : ExtMap) (s : ISegd)
    (ho : openSegd data m = .ok s) (n : Nat) :
    match answersD pw s n with
    | (ts, none) => (asksD pw ⟨s, false⟩ n).map (·.1) = ts.map .ok
    | (ts, some e) => ∃ rest, (asksD pw ⟨s, false⟩ n).map (·.1) = ts.map .ok ++ .error e :: rest :=
  asksD_answers pw n s (readable_headers ho)

/-- **C75, a failure of the stream is final.** Once a call has thrown because the file ended, every later
call throws the same, and `has_trace` and `has_record` keep their values. -/
theorem C75_stream_failure_is_final (pw : Dbl → Dbl) (data : Bytes) (m : ExtMap) (s : ISegd)
    (ho : openSegd data m = .ok s) (n i j : Nat) (more : Bool × Bool)
    (hd : ∀ x ∈ asksD pw ⟨s, false⟩ n, Defined x.1)
    (h : (asksD pw ⟨s, false⟩ n)[i]? = some (.error (.exn .iosFailure), more)) (hij : i ≤ j) (hj : j < n) :
    (asksD pw ⟨s, false⟩ n)[j]? = some (.error (.exn .iosFailure), more) :=
  asksD_ios pw n s (.inl (readable_headers ho)) hd h hij hj

/-- **C75 (part).** A program reads traces while `has_trace` and catches what is thrown. If the extension
map does not ask for a floating count, it gets the traces it would have got without failures; then either
nothing but exceptions of the stream, or one exception that says the format of the next record is not
supported. Floating counts: see `C75_false_trace`. -/
theorem C75_nothing_after_failure_partial (pw : Dbl → Dbl) (data : Bytes) (m : ExtMap) (s : ISegd)
    (ho : openSegd data m = .ok s) (hm : CountsAreInts m) (n : Nat)
    (hd : ∀ x ∈ triesD pw ⟨s, false⟩ n, Defined x) :
    ∃ tail, triesD pw ⟨s, false⟩ n = (takesD pw s n).1.map .ok ++ tail ∧
      ((takesD pw s n).2 = none → tail = []) ∧
      ((∀ x ∈ tail, x = .error (.exn .iosFailure)) ∨ tail = [.error (.exn .unsupportedFormat)]) :=
  triesD_takes pw n s (readable_headers ho) (by rw [(readHeaders_ok ho).2.1]; exact hm) hd

/-- What a program sees that reads this file. -/
def triesOf (data : Out Bytes) (n : Nat) : Out (List (Out Nat)) := do
  let s ← openSegd (← data) []
  pure ((triesD hostExample.pw ⟨s, false⟩ n).map fun x => x.map fun t => t.samples.length)

/-- The example file twice, without its last byte: three traces, then exceptions. -/
example : triesOf (segdFileExample.map fun d => (d ++ d).dropLast) 6 =
    .ok [.ok 2, .ok 2, .ok 2, throwExn .iosFailure, throwExn .iosFailure, throwExn .iosFailure] := by
  decide +kernel

/-- The example file, and 32 zeros behind it: an exception, and `has_trace` is false. -/
example : triesOf (segdFileExample.map fun d => d ++ List.replicate 32 0) 6 =
    .ok [.ok 2, throwExn .unsupportedFormat] := by decide +kernel

/-- A map that stores floating counts, but none of those the reader needs. -/
example : CountsAreInts [[⟨0, "SAMP_NUM", .u32⟩, ⟨4, "ELEV", .ieeeSingle⟩]] := by
  intro fs h1 f h2 h3
  simp only [List.mem_singleton] at h1
  subst h1
  simp only [List.mem_cons, List.not_mem_nil, or_false] at h2
  rcases h2 with rfl | rfl
  · decide
  · exact absurd h3 (by decide)

/-- A record of one scan type with two channels, and a trace with an extension block of which the map
says that it stores the number of samples as a floating number. The five samples look like a trace
header. -/
def exFloatCount : Out Bytes :=
  segdFileExample.map fun d => d.take 276 ++ [0x40, 0xa0, 0, 0] ++ List.replicate 28 0 ++
    ([0x00, 0x42, 0x01, 0x01, 0x00, 0x07] ++ List.replicate 14 0)

/-- **C75, counterexample.** The first call throws `bad_variant_access`, because the number of samples
is a `double`. The second takes the samples of this trace for a trace header and returns a trace that is
not in the file: record 42, channel 7. -/
theorem C75_false_trace :
    (do let s ← openSegd (← exFloatCount) [[⟨0, "SAMP_NUM", .ieeeSingle⟩]]
        pure ((triesD hostExample.pw ⟨s, false⟩ 3).map fun x =>
          x.map fun t => (t.header.get "FFID", t.header.get "CHAN"))) =
      (.ok [throwExn .badVariantAccess, .ok (some (.int 42), some (.int 7)), throwExn .iosFailure] :
        Out (List (Out (Option Value × Option Value)))) := by decide +kernel

/-- **C75, counterexample.** A program that does not ask `has_trace`: the format of the second record is
not supported, and the call after this exception is undefined, because it looks for the channel set of a
trace in an empty list. -/
theorem C75_unguarded_undefined :
    (do let s ← openSegd (← segdFileExample.map fun d => d ++ List.replicate 52 0) []
        pure ((asksD hostExample.pw ⟨s, false⟩ 3).map fun x => (x.1.map fun t => t.samples.length, x.2))) =
      (.ok [(.ok 2, true, true), (throwExn .unsupportedFormat, false, true), (isUb .outOfBounds, false, false)] :
        Out (List (Out Nat × Bool × Bool))) := by decide +kernel

/-- **C75, `has_trace` after a failure.** When the file ends behind the channel sets of the second record
the counters say that there are traces: a program that reads while `has_trace` and catches exceptions
never ends. -/
theorem C75_never_ends (n : Nat) :
    (do let s ← openSegd (← segdFileExample.map fun d => d ++ d.take 140) []
        pure ((triesD hostExample.pw ⟨s, false⟩ (n + 2)).map fun x => x.map fun t => t.samples.length)) =
      (.ok (.ok 2 :: List.replicate (n + 1) (throwExn .iosFailure)) : Out (List (Out Nat))) := by
  have h : (do let s ← openSegd (← segdFileExample.map fun d => d ++ d.take 140) []
               let p := smReadTrace hostExample.pw ⟨s, false⟩
               let q := smReadTrace hostExample.pw p.2
               pure (s.hasTrace, p.1.map fun t => t.samples.length, p.2.s.hasTrace,
                 q.1.map fun t => t.samples.length, q.2.s.hasTrace, q.2.bad)) =
      (.ok (true, .ok 2, true, throwExn .iosFailure, true, true) :
        Out (Bool × Out Nat × Bool × Out Nat × Bool × Bool)) := by decide +kernel
  obtain ⟨d, hd, h⟩ := bind_ok h
  obtain ⟨s, hs, h⟩ := bind_ok h
  rw [hd, ok_bind, hs, ok_bind]
  simp only [pure_eq_ok, Except.ok.injEq, Prod.mk.injEq] at h ⊢
  obtain ⟨h1, h2, h3, h4, h5, h6⟩ := h
  rw [triesD]
  simp only
  rw [if_pos h1, triesD]
  simp only
  rw [if_pos h3]
  generalize hq : (smReadTrace hostExample.pw (smReadTrace hostExample.pw ⟨s, false⟩).2).2 = q at h5 h6
  have hn : ∀ n, triesD hostExample.pw q n = List.replicate n (.error (.exn .iosFailure)) := by
    obtain ⟨s', b⟩ := q
    simp only at h6
    subst h6
    intro n
    induction n with
    | zero => rfl
    | succ n ih =>
      rw [triesD, if_pos h5, dead_readTrace, List.replicate_succ]
      simp only
      rw [ih]
  rw [List.map_cons, List.map_cons, h2, h4, hn, List.map_replicate, List.replicate_succ]
  rfl

/-! ## C76 -/

/-- **C76 (part).** A file is opened and `n` traces are read, and the reader is not at the end of the
file with the last record complete. Any file with the same bytes up to the position of the reader opens
and gives the same `n` traces, whatever follows. Missing: the last trace of the last record, see
`C76_trailing_bytes`. -/
theorem C76_depends_on_bytes_read_partial (pw : Dbl → Dbl) (data data' : Bytes) (m : ExtMap) (s e : ISegd)
    (n : Nat) (ts : List Trace) (ho : openSegd data m = .ok s) (hr : readManyD pw n s = .ok (ts, e))
    (hl : e.chansRead ≠ 0 ∨ e.hasRecord) (hd : data'.take e.file.pos = data.take e.file.pos) :
    ∃ s' e', openSegd data' m = .ok s' ∧ readManyD pw n s' = .ok (ts, e') ∧ e'.file.pos = e.file.pos := by
  have h0 := (readHeaders_ok ho).1
  have h0 : s.file.data = data := h0
  have hdat : e.file.data = data := by
    have := readManyD_data hr
    rw [this, h0]
  have hl' : e.chansRead ≠ 0 ∨ e.file.pos ≠ s.file.data.length := by
    rcases hl with hl | hl
    · exact .inl hl
    · right
      have := of_decide_eq_true hl
      rwa [hdat, ← h0] at this
  obtain ⟨h1, -, h3⟩ := readManyD_on hr data' hl' (by rw [h0]; exact hd)
  exact ⟨_, _, openSegd_on ho (SameTo.le hd h1), h3, rfl⟩

/-- The first trace of the example file is returned when everything behind it is missing. -/
example : (segdFileExample >>= fun d => openSegd (d.take 316) [] >>= readManyD hostExample.pw 1).map (fun p => p.1.length) =
      .ok 1 ∧
    (segdFileExample >>= fun d => openSegd d [] >>= readManyD hostExample.pw 1).map
      (fun p => (p.2.file.pos, p.2.chansRead)) = .ok (316, 1) := by decide +kernel

/-- **C76 (counterexamples, a family).** The last trace of a record is complete, and less than 32 bytes
follow it (a trailer that is cut off, a line feed, padding). `read_trace` takes them for the general
header of another record and throws: the trace is lost. Afterwards `has_trace` is false and
`has_record` true. -/
theorem C76_trailing_bytes (pw : Dbl → Dbl) (data : Bytes) (m : ExtMap) (s s1 : ISegd) (t : Trace)
    (hr : ReachableD pw data m s) (hb : readTraceBody pw s = .ok (t, s1))
    (hlast : s.chansIn = s.chansRead + 1)
    (htail : s1.file.pos < data.length ∧ data.length < s1.file.pos + 32) (n : Nat) :
    asksD pw ⟨s, false⟩ (n + 1) = List.replicate (n + 1) (.error (.exn .iosFailure), false, true) := by
  have hs : Readable s ∧ s.file.data = data := by
    clear hb hlast htail
    induction hr with
    | opened s ho => exact ⟨readable_headers ho, (readHeaders_ok ho).1⟩
    | read s t s' _ _ h ih => exact ⟨readable_readTrace ih.1 h, by rw [(readTraceD_file h).1, ih.2]⟩
  have hc := sim_body (pw := pw) (.inl hs.1)
  rw [hb] at hc
  have hc : smTraceBody pw ⟨s, false⟩ = (.ok t, ⟨s1, false⟩) := hc
  obtain ⟨p, rfl, -⟩ := readTraceBody_ok hb
  have htail : p < data.length ∧ data.length < p + 32 := htail
  have hread : (File.read ⟨s.file.data, p⟩ 32) = .error (.exn .iosFailure) := by
    unfold File.read
    dsimp only
    rw [if_neg (by rw [List.length_take, List.length_drop, hs.2]; omega)]
    rfl
  have hstep : smReadTrace pw ⟨s, false⟩ =
      (.error (.exn .iosFailure), ⟨{ s.at p with chansIn := 0, chansRead := 0, chSets := [] }, true⟩) := by
    unfold smReadTrace
    rw [sm_bind_ok hc]
    refine sm_bind_err ?_
    unfold smAdvance
    rw [sm_mod, sm_get]
    dsimp only
    rw [if_pos (by exact hlast), sm_mod, sm_get]
    dsimp only
    have hrec : (ISegd.hasRecord { s.at p with chansIn := 0, chansRead := 0, chSets := [] }) = true := by
      have : p ≠ s.file.data.length := by rw [hs.2]; omega
      exact decide_eq_true this
    rw [if_pos hrec]
    unfold smHeaders smGeneral
    refine sm_bind_err (sm_bind_err ?_)
    unfold smFill
    dsimp only
    have e : (ISegd.at s p).file = ⟨s.file.data, p⟩ := rfl
    rw [if_neg (by decide), e, hread]
  rw [asksD]
  simp only
  rw [hstep, asksD_dead, List.replicate_succ]
  simp only
  have hrec : (ISegd.hasRecord { s.at p with chansIn := 0, chansRead := 0, chSets := [] }) = true := by
    have : p ≠ s.file.data.length := by rw [hs.2]; omega
    exact decide_eq_true this
  rw [hrec]
  rfl

/-- The example file: both traces are returned. With a byte behind it the second is lost. -/
theorem C76_lost_trace :
    triesOf segdFileExample 3 = .ok [.ok 2, .ok 2] ∧
    triesOf (segdFileExample.map fun d => d ++ [0]) 3 = .ok [.ok 2, throwExn .iosFailure] := by
  decide +kernel

end Sedaman.Props
