import Verif.Spec.PyIter
import Verif.Props.SegdE2E
import Verif.Props.SegdReader
import Verif.Props.Sorted1D
import Mathlib.Tactic.ByContra

/-!
# C77: iteration over readers in Python
-/

namespace Sedaman.Props

open Spec

theorem pyNext_some {σ : Type} {has : Bool} {read : Out (Trace × σ)} {s : σ} {t : Trace} {s' : σ} :
    pyNext has read s = .ok (some t, s') ↔ has = true ∧ read = .ok (t, s') := by
  unfold pyNext
  cases has with
  | false =>
    constructor
    · intro h; cases h
    · rintro ⟨h, -⟩; cases h
  | true =>
    cases read with
    | error e =>
      constructor
      · intro h; cases h
      · rintro ⟨-, h⟩; cases h
    | ok x =>
      obtain ⟨t', s''⟩ := x
      constructor
      · intro h; cases h; exact ⟨rfl, rfl⟩
      · rintro ⟨-, h⟩; cases h; rfl

theorem pyNext_none {σ : Type} {has : Bool} {read : Out (Trace × σ)} {s s' : σ} :
    pyNext has read s = .ok (none, s') ↔ has = false ∧ s' = s := by
  unfold pyNext
  cases has with
  | false =>
    constructor
    · intro h; cases h; exact ⟨rfl, rfl⟩
    · rintro ⟨-, h⟩; rw [h]; rfl
  | true =>
    constructor
    · intro h
      cases read with
      | error e => cases h
      | ok x => cases h
    · rintro ⟨h, -⟩; cases h

/-- **C77, SEG-Y.** A `for` loop over `ISEGY` runs over the traces the C++ loop meets. -/
theorem C77_segy (r e : Reader) (ts : List Trace) : PyFor pyNextSegy r ts e ↔ LoopY r ts e := by
  induction ts generalizing r with
  | nil => exact pyNext_none
  | cons t ts ih =>
    constructor
    · rintro ⟨r', h1, h2⟩
      obtain ⟨a, b⟩ := pyNext_some.1 h1
      exact ⟨a, r', b, (ih r').1 h2⟩
    · rintro ⟨a, r', b, h2⟩
      exact ⟨r', pyNext_some.2 ⟨a, b⟩, (ih r').2 h2⟩

/-- **C77, SEG-Y in sorted order.** A `for` loop over `ISEGYSorted1D` runs over the traces the C++ loop
meets. -/
theorem C77_sorted (s e : Sorted1D) (ts : List Trace) : PyFor pyNextSorted s ts e ↔ LoopS s ts e := by
  induction ts generalizing s with
  | nil => exact pyNext_none
  | cons t ts ih =>
    constructor
    · rintro ⟨r', h1, h2⟩
      obtain ⟨a, b⟩ := pyNext_some.1 h1
      exact ⟨a, r', b, (ih r').1 h2⟩
    · rintro ⟨a, r', b, h2⟩
      exact ⟨r', pyNext_some.2 ⟨a, b⟩, (ih r').2 h2⟩

/-- **C77, every trace of a SEG-Y file.** The data of the file are the bytes of the traces `ts`: the loop
runs over all of them, in order, and a second loop over the same reader over none. -/
theorem C77_segy_file (data : Bytes) (ub : Option BinHeader) (m : HdrMap) (r : Reader)
    (ho : openReader data ub m = .ok r) (head rest : Bytes) (chunks : List Bytes)
    (ts : List Trace) (hc : List.Forall₂ (IsTrace r) chunks ts)
    (hd : data = head ++ (chunks.flatten ++ rest)) (hp : r.file.pos = head.length)
    (he : r.endData = head.length + chunks.flatten.length) :
    ∃ e, PyFor pyNextSegy r ts e ∧ PyFor pyNextSegy e [] e := by
  have hv := (C19_visits data ub m r ho head rest chunks ts hc hd hp he).1
  clear ho hc hd hp he
  induction ts generalizing r with
  | nil => exact ⟨r, pyNext_none.2 ⟨hv, rfl⟩, pyNext_none.2 ⟨hv, rfl⟩⟩
  | cons t ts ih =>
    obtain ⟨a, ⟨r', b, c⟩, -⟩ := hv
    obtain ⟨e, h1, h2⟩ := ih r' c
    exact ⟨e, ⟨r', pyNext_some.2 ⟨a, b⟩, h1⟩, h2⟩

theorem hasRecord_of_read {pw : Dbl → Dbl} {s s' : ISegd} {t : Trace}
    (h : readTraceD pw s = .ok (t, s')) : s.hasRecord = true := by
  by_contra hr
  rw [C52_end_throws pw s (by simpa using hr)] at h
  cases h

/-- **C77, SEG-D, if no record is empty and the file does not end in the middle of a record.** A `for` loop
over `ISEGD` that ends where `has_trace` is false runs over the traces the C++ loop meets. Records that
announce no traces: see `C77_empty_record_undefined` and `C77_beyond_end_throws`. Files that end behind a
trace of an incomplete record: see `C77_incomplete_unnoticed`. -/
theorem C77_segd_partial (pw : Dbl → Dbl) (data : Bytes) (m : ExtMap) (s e : ISegd) (ts : List Trace)
    (hs : ReachableD pw data m s) (hne : NoEmptyRecord pw data m) :
    PyFor (pyNextSegd pw) s ts e ∧ e.hasTrace = false ↔ LoopD pw s ts e := by
  have key : ∀ {s : ISegd}, ReachableD pw data m s → s.hasTrace = false → s.hasRecord = false := by
    intro s hs h
    rcases C52_agree_partial pw data m s hs h with h' | ⟨p, -, ar, h0⟩
    · exact h'
    · have := hne s p hs ar
      omega
  induction ts generalizing s with
  | nil =>
    constructor
    · rintro ⟨h, h'⟩
      obtain ⟨a, b⟩ := pyNext_none.1 h
      exact ⟨b ▸ h', b⟩
    · rintro ⟨a, b⟩
      exact ⟨pyNext_none.2 ⟨key hs a, b⟩, b ▸ a⟩
  | cons t ts ih =>
    constructor
    · rintro ⟨⟨r', h1, h2⟩, h'⟩
      obtain ⟨a, b⟩ := pyNext_some.1 h1
      have ht : s.hasTrace = true := by
        by_contra hn
        rw [key hs (by simpa using hn)] at a
        cases a
      exact ⟨ht, r', b, (ih r' (.read s t r' hs ht b)).1 ⟨h2, h'⟩⟩
    · rintro ⟨a, r', b, h2⟩
      have := (ih r' (.read s t r' hs a b)).2 h2
      exact ⟨⟨r', pyNext_some.2 ⟨hasRecord_of_read b, b⟩, this.1⟩, this.2⟩

/-- Reading to the end of the file is a `for` loop. -/
theorem pyFor_of_readMany {pw : Dbl → Dbl} {n : Nat} {s e : ISegd} {ts : List Trace}
    (h : readManyD pw n s = .ok (ts, e)) (he : e.hasRecord = false) : PyFor (pyNextSegd pw) s ts e := by
  induction n generalizing s ts with
  | zero =>
    cases h
    exact pyNext_none.2 ⟨he, rfl⟩
  | succ n ih =>
    unfold readManyD at h
    cases hr : readTraceD pw s with
    | error x => rw [hr] at h; cases h
    | ok x =>
      obtain ⟨t, s'⟩ := x
      rw [hr] at h
      cases hm : readManyD pw n s' with
      | error x => 
        rw [ok_bind] at h
        dsimp only at h
        rw [hm] at h; cases h
      | ok x =>
        obtain ⟨ts', e'⟩ := x
        rw [ok_bind] at h
        dsimp only at h
        rw [hm] at h
        cases h
        exact ⟨s', pyNext_some.2 ⟨hasRecord_of_read hr, hr⟩, ih hm⟩

/-- **C77, every trace of a SEG-D file of the library.** Traces written with `OSEGDRev2_1` under the
conditions of C59: a `for` loop over the file runs over all of them, in order, as C59 says they come back,
and a second loop over the same reader over none. -/
theorem C77_segd_file (H : Host) (a : OSegdArgs) (ns : List GenHdrN) (ts : List Trace) (n : Trace → Nat)
    (hlg : LogOk H.lg) (hroom : 32 ≤ H.room) (hr : RecordFits a ns)
    (hn : ts.length = announced a.chSets) (h64 : ts.length < 2 ^ 64)
    (ht : ∀ t ∈ ts, TraceFits H a t (n t)) (hm : ∀ t ∈ ts, MapFits H a t (n t)) :
    ∃ w, openSegdWriter H 0 a = .ok w ∧
      ∃ f, openSegd (Spec.writeAll H ts w).2.out a.extMap = .ok f ∧
        ∃ ts' e, PyFor (pyNextSegd H.pw) f ts' e ∧ PyFor (pyNextSegd H.pw) e [] e ∧
          List.Forall₂ (fun t t' => MapBack a (n t) t t') ts ts' := by
  obtain ⟨w, h1, -, f, h3, -, -, ts', e, h4, h5, -, h7⟩ :=
    C59_maps_partial H a ns ts n hlg hroom hr hn h64 ht hm
  exact ⟨w, h1, f, h3, ts', e, pyFor_of_readMany h4 h7, pyNext_none.2 ⟨h7, rfl⟩, h5⟩

/-! ## Concrete cases -/

/-- The first `n` calls of `__next__`: the number of samples of the trace, or nothing at the end. -/
def pyCalls (pw : Dbl → Dbl) : Nat → ISegd → List (Out (Option Nat))
  | 0, _ => []
  | n + 1, s =>
    match pyNextSegd pw s with
    | .error e => [.error e]
    | .ok (t, s) => .ok (t.map fun t => t.samples.length) :: pyCalls pw n s

/-- What a program sees of a file. -/
def pyCallsOf (data : Out Bytes) (n : Nat) : Out (List (Out (Option Nat))) := do
  let s ← openSegd (← data) []
  pure (pyCalls hostExample.pw n s)

/-- Two records of two traces. -/
example : pyCallsOf (segdFileExample.map fun d => d ++ d) 6 =
    .ok [.ok (some 2), .ok (some 2), .ok (some 2), .ok (some 2), .ok none, .ok none] := by decide +kernel

/-- The example file has no empty record. -/
example (d : Bytes) (hd : segdFileExample = .ok d) : NoEmptyRecord hostExample.pw d [] := by
  have h0 : (do let s ← openSegd (← segdFileExample) []
                let (_, s1) ← readTraceD hostExample.pw s
                let (_, s2) ← readTraceD hostExample.pw s1
                pure (decide (0 < announced s.chSets), s1.chansRead, s2.chSets.length, s2.hasTrace,
                  s2.gh1.scanTypesPerRecord)) = .ok (true, 1, 0, false, 1) := by decide +kernel
  rw [hd, ok_bind] at h0
  cases e0 : openSegd d [] with
  | error e => rw [e0] at h0; cases h0
  | ok s0 =>
    rw [e0, ok_bind] at h0
    cases e1 : readTraceD hostExample.pw s0 with
    | error e => rw [e1] at h0; cases h0
    | ok x1 =>
      obtain ⟨t1, s1⟩ := x1
      rw [e1, ok_bind] at h0
      dsimp only at h0
      cases e2 : readTraceD hostExample.pw s1 with
      | error e => rw [e2] at h0; cases h0
      | ok x2 =>
        obtain ⟨t2, s2⟩ := x2
        rw [e2, ok_bind] at h0
        have h1 := Except.ok.inj h0
        simp only [Prod.mk.injEq, decide_eq_true_eq] at h1
        obtain ⟨a, b, c, n, g⟩ := h1
        have key : ∀ s, ReachableD hostExample.pw d [] s → s = s0 ∨ s = s1 ∨ s = s2 := by
          intro s hs
          induction hs with
          | opened s h => rw [e0] at h; exact .inl (Except.ok.inj h).symm
          | read s t s' _ ht h ih =>
            rcases ih with rfl | rfl | rfl
            · rw [e1] at h; cases h; exact .inr (.inl rfl)
            · rw [e2] at h; cases h; exact .inr (.inr rfl)
            · rw [n] at ht; cases ht
        intro s p hs ar
        rcases key s hs with rfl | rfl | rfl
        · exact a
        · have := ar.chansRead; omega
        · have := ar.scans; rw [g, c] at this; cases this

/-- The SEG-Y file with five traces. -/
example : (openReader exSorted none exMap).map (fun r => (List.range 5).foldl
      (fun (x : Out (List Nat × Reader)) _ => do
        let (l, r) ← x
        match ← pyNextSegy r with
        | (some t, r) => pure (l ++ [t.samples.length], r)
        | (none, r) => pure (l ++ [99], r)) (.ok ([], r)) |>.map (·.1))
    = .ok (.ok [1, 1, 1, 1, 1]) := by decide +kernel

/-! ## What can go wrong -/

/-- **C77, counterexample.** The second trace of the record is missing in the file. C++ code is told so by
`has_trace`, and `read_trace` throws; the Python loop runs once and ends as if all was well. -/
theorem C77_incomplete_unnoticed :
    pyCallsOf (segdFileExample.map fun d => d.take (d.length - 60)) 2 = .ok [.ok (some 2), .ok none] ∧
    (do let s ← openSegd (← segdFileExample.map fun (d : Bytes) => d.take (d.length - 60)) []
        let (_, s) ← readTraceD hostExample.pw s
        pure (s.hasTrace, (readTraceD hostExample.pw s).map fun _ => ())) =
      .ok (true, throwExn .iosFailure) := by
  constructor <;> decide +kernel

/-- A record that announces no traces. -/
def segdEmptyRecord : Out Bytes :=
  writeGenHdr1 floorLog { gh1Example with addGenHdrBlocks := 0, scanTypesPerRecord := 0
                                          channelSetsPerScanType := 0, skewBlocks := 0
                                          extendedHdrBlocks := 0, externalHdrBlocks := 0 } 0

/-- **C77, counterexample.** Something follows a record without traces. C++ code is told by `has_trace` that
there are none; the Python loop takes what follows for a trace: padding makes it look up a channel set that
does not exist, another record makes it throw. -/
theorem C77_empty_record_undefined :
    pyCallsOf (segdEmptyRecord.map fun d => d ++ List.replicate 32 0) 2 = .ok [isUb .outOfBounds] ∧
    pyCallsOf (do pure ((← segdEmptyRecord) ++ (← segdFileExample))) 2 = .ok [throwExn .iosFailure] ∧
    (segdEmptyRecord >>= fun d => openSegd (d ++ List.replicate 32 0) []).map ISegd.hasTrace = .ok false := by
  refine ⟨?_, ?_, ?_⟩ <;> decide +kernel

/-- **C77, counterexample.** Skew blocks that are announced but not in the file, no traces: the C++ loop
ends, the Python loop throws. -/
theorem C77_beyond_end_throws :
    pyCallsOf (writeGenHdr1 floorLog { gh1Example with
        addGenHdrBlocks := 0, scanTypesPerRecord := 1, channelSetsPerScanType := 0, skewBlocks := 3
        extendedHdrBlocks := 0, externalHdrBlocks := 0 } 0) 2 = .ok [throwExn .iosFailure] := by
  decide +kernel

end Sedaman.Props
