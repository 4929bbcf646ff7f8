import Verif.Lemmas.SegdDamage
import Verif.Props.SegdReader

/-!
# C108: a damaged byte of a SEG-D file damages only what is stored in it
-/

namespace Sedaman.Props

open Spec

/-- **C108 (part).** A file `a` is opened. Some bytes of it are damaged, which gives the file `b`, but not
those of headers of records, and in traces not those that tell how much there is to read. Then `b` can be
opened too. Whatever number of traces was read from the sound file, as many can be read from the damaged
one. The next trace is at the same place, with the same headers of its record in force, and after it
`has_trace` and `has_record` give the same answers. It has the same values and samples, but for those of
which bytes are damaged. The condition on formats excludes two in which samples are not stored one by one. -/
theorem C108_traces_partial (pw : Dbl → Dbl) (a b : Bytes) (m : ExtMap) (s s1 s2 : ISegd) (n : Nat) (us : List Trace)
    (t : Trace) (ho : openSegd a m = .ok s) (hl : b.length = a.length) (hh : Spec.Agree a b 0 s.file.pos)
    (hk : FormsKept pw s b)
    (hf : ∀ n us s1, readManyD pw n s = .ok (us, s1) → s1.gh1.formatCode ≠ 8022 ∧ s1.gh1.formatCode ≠ 8042)
    (hr : readManyD pw n s = .ok (us, s1)) (hn : readTraceD pw s1 = .ok (t, s2)) :
    ∃ v v1 v2 us' t', openSegd b m = .ok v ∧ v.hasTrace = s.hasTrace ∧ v.hasRecord = s.hasRecord ∧
      us'.length = us.length ∧ readManyD pw n v = .ok (us', v1) ∧
      v1.file = ⟨b, s1.file.pos⟩ ∧ v1.gh1 = s1.gh1 ∧ v1.gh2 = s1.gh2 ∧ v1.chSets = s1.chSets ∧
      v1.hasTrace = s1.hasTrace ∧ v1.hasRecord = s1.hasRecord ∧
      readTraceD pw v1 = .ok (t', v2) ∧ v2.file = ⟨b, s2.file.pos⟩ ∧
      v2.hasTrace = s2.hasTrace ∧ v2.hasRecord = s2.hasRecord ∧
      SameButD s1.gh1.formatCode a b s1.file.pos t t' := by
  have hd : s.file.data = a := (loc_headers a (ISegd.init a m) _ ho).2.1
  have hd1 : s1.file.data = a := (readManyD_data hr).trans hd
  have o : openSegd b m = .ok (s.on b) := openSegd_on ho (by
    have := sameIn_agree (a := a) (b := b) (p := 0) (q := s.file.pos) (fun j h1 h2 => hh j h1 (by omega))
    unfold SameIn at this
    simpa [SameTo] using this)
  obtain ⟨us', i1, i2⟩ := manyD_damaged (hl.trans (congrArg List.length hd.symm)) hr hk hf
  have hk1 := hk n us s1 t s2 hr hn
  rw [hd, ← hd1] at hk1
  obtain ⟨t', j1, j2⟩ := traceD_damaged (hl.trans (congrArg List.length hd1.symm)) (hf _ _ _ hr).1 (hf _ _ _ hr).2 hn hk1
  rw [hd1] at j2
  have hd2 : s2.file.data = a := (readTraceD_file hn).1.trans hd1
  have hrec : ∀ x : ISegd, x.file.data = a → (x.on b).hasRecord = x.hasRecord := fun x hx => by
    show decide (x.file.pos ≠ b.length) = decide (x.file.pos ≠ x.file.data.length)
    rw [hx, hl]
  exact ⟨_, _, _, us', t', o, rfl, hrec s hd, i1, i2, rfl, rfl, rfl, rfl, rfl, hrec s1 hd1, j1, rfl, rfl,
    hrec s2 hd2, j2⟩

/-! ## A concrete case -/

/-- Two files have the same bytes from `p` to `q`. -/
def sameBytes (a b : Bytes) (p q : Nat) : Bool := (a.drop p).take (q - p) == (b.drop p).take (q - p)

theorem sameBytes_agree {a b : Bytes} {p q : Nat} (h : sameBytes a b p q = true) :
    ∀ j, p ≤ j → j < q → a[j]? = b[j]? := fun j h1 h2 =>
  agree_of_slice (p := p) (n := q - p) (eq_of_beq h) j h1 (by omega)

/-- A check of the conditions of the theorem on the traces of a file with at most `k` traces. -/
def formsOk (pw : Dbl → Dbl) (b : Bytes) : Nat → ISegd → Bool
  | 0, _ => false
  | k + 1, s =>
    decide (s.gh1.formatCode ≠ 8022 ∧ s.gh1.formatCode ≠ 8042) &&
    match readTraceD pw s with
    | .error _ => true
    | .ok (t, s') =>
      sameBytes s.file.data b (s.file.pos + 2) (s.file.pos + 4) &&
      sameBytes s.file.data b (s.file.pos + 15) (s.file.pos + 17) &&
      sameBytes s.file.data b (s.file.pos + 9) (s.file.pos + 10) &&
      sameBytes s.file.data b (s.file.pos + 20) (samplesAt s.file.data s.file.pos) &&
      sameBytes s.file.data b
        (samplesAt s.file.data s.file.pos + t.samples.length * sampleWidth s.gh1.formatCode) s'.file.pos &&
      formsOk pw b k s'

theorem formsOk_sound {pw : Dbl → Dbl} {b : Bytes} {k : Nat} {s : ISegd} (h : formsOk pw b k s = true) :
    FormsKept pw s b ∧
    ∀ n us s1, readManyD pw n s = .ok (us, s1) → s1.gh1.formatCode ≠ 8022 ∧ s1.gh1.formatCode ≠ 8042 := by
  induction k generalizing s with
  | zero => exact absurd h (by simp [formsOk])
  | succ k ih =>
    rw [formsOk, Bool.and_eq_true, decide_eq_true_eq] at h
    obtain ⟨hf, h⟩ := h
    cases e : readTraceD pw s with
    | error x =>
      refine ⟨fun n us s1 t s2 h1 h2 => ?_, fun n us s1 h1 => ?_⟩
      · cases n with
        | zero => cases h1; rw [e] at h2; cases h2
        | succ n => rw [readManyD, e] at h1; cases h1
      · cases n with
        | zero => cases h1; exact hf
        | succ n => rw [readManyD, e] at h1; cases h1
    | ok p =>
      obtain ⟨t0, s0⟩ := p
      rw [e] at h
      simp only [Bool.and_eq_true] at h
      obtain ⟨⟨⟨⟨⟨a1, a2⟩, a3⟩, a4⟩, a5⟩, a6⟩ := h
      obtain ⟨i1, i2⟩ := ih a6
      have hd := (readTraceD_file e).1
      refine ⟨fun n us s1 t s2 h1 h2 => ?_, fun n us s1 h1 => ?_⟩
      · cases n with
        | zero =>
          cases h1
          rw [e] at h2
          cases h2
          exact ⟨sameBytes_agree a1, sameBytes_agree a2, sameBytes_agree a3, sameBytes_agree a4, sameBytes_agree a5⟩
        | succ n =>
          rw [readManyD] at h1
          obtain ⟨⟨t9, s9⟩, h0, h1⟩ := bind_ok h1
          rw [e] at h0
          cases h0
          obtain ⟨⟨vs, s3⟩, h3, h4⟩ := bind_ok h1
          cases h4
          rw [← hd]
          exact i1 n vs s1 t s2 h3 h2
      · cases n with
        | zero => cases h1; exact hf
        | succ n =>
          rw [readManyD] at h1
          obtain ⟨⟨t9, s9⟩, h0, h1⟩ := bind_ok h1
          rw [e] at h0
          cases h0
          obtain ⟨⟨vs, s3⟩, h3, h4⟩ := bind_ok h1
          cases h4
          exact i2 n vs s1 h3

/-- The conditions are met: the first sample of the first trace of the example file is damaged (bytes 308 to
311), and so is the channel number of the second trace (bytes 320 and 321). -/
def damagedD (d : Bytes) : Bytes := (d.set 309 0x55).set 321 0x77

theorem damagedD_meets :
    (do let d ← segdFileExample
        let s ← openSegd d []
        let (us, s1) ← readManyD hostExample.pw 1 s
        let (t, _) ← readTraceD hostExample.pw s1
        let v ← openSegd (damagedD d) []
        let (us', v1) ← readManyD hostExample.pw 1 v
        let (t', _) ← readTraceD hostExample.pw v1
        pure (decide ((damagedD d).length = d.length) && sameBytes d (damagedD d) 0 s.file.pos &&
          formsOk hostExample.pw (damagedD d) 3 s &&
          -- what is damaged has changed
          decide ((us.map fun t => t.samples[0]?) ≠ us'.map fun t => t.samples[0]?) &&
          decide (t.header.get "CHAN" ≠ t'.header.get "CHAN") &&
          -- what is not damaged has not
          decide ((us.map fun t => t.samples[1]?) = us'.map fun t => t.samples[1]?) &&
          decide (t.samples = t'.samples))) = (.ok true : Out Bool) := by decide +kernel

example : ∃ a b s s1 s2 us t, openSegd a [] = .ok s ∧ b.length = a.length ∧ a ≠ b ∧ Spec.Agree a b 0 s.file.pos ∧
    FormsKept hostExample.pw s b ∧
    (∀ n us s1, readManyD hostExample.pw n s = .ok (us, s1) →
      s1.gh1.formatCode ≠ 8022 ∧ s1.gh1.formatCode ≠ 8042) ∧
    readManyD hostExample.pw 1 s = .ok (us, s1) ∧ readTraceD hostExample.pw s1 = .ok (t, s2) := by
  obtain ⟨d, -, h⟩ := bind_ok damagedD_meets
  obtain ⟨s, h1, h⟩ := bind_ok h
  obtain ⟨⟨us, s1⟩, h2, h⟩ := bind_ok h
  obtain ⟨⟨t, s2⟩, h3, h⟩ := bind_ok h
  obtain ⟨v, h4, h⟩ := bind_ok h
  obtain ⟨⟨us', v1⟩, h5, h⟩ := bind_ok h
  obtain ⟨⟨t', v2⟩, h6, h⟩ := bind_ok h
  injection h with h
  simp only [Bool.and_eq_true, decide_eq_true_eq] at h
  obtain ⟨⟨⟨⟨⟨⟨g1, g2⟩, g3⟩, g4⟩, -⟩, -⟩, -⟩ := h
  obtain ⟨k1, k2⟩ := formsOk_sound g3
  refine ⟨d, damagedD d, s, s1, s2, us, t, h1, g1, fun e => g4 ?_, fun j h1 h2 => sameBytes_agree g2 j h1 (by omega),
    k1, k2, h2, h3⟩
  rw [← e, h1] at h4
  cases h4
  rw [h2] at h5
  cases h5
  rfl

/-! ## What the conditions exclude -/

/-- How many samples the two traces of a file have. -/
def countsD (data : Bytes) : Out (Nat × Nat) := do
  let s0 ← openSegd data []
  let (t1, s1) ← readTraceD hostExample.pw s0
  let (t2, _) ← readTraceD hostExample.pw s1
  pure (t1.samples.length, t2.samples.length)

/-- **C108, counterexample.** The sound file has two traces with two samples each. One damaged byte in the
first trace, the number of its channel set: the call that reads the trace is undefined. -/
theorem C108_set_damaged : (segdFileExample >>= countsD) = .ok (2, 2) ∧
    (segdFileExample >>= fun d => countsD (d.set 259 9)) = isUb .outOfBounds := by decide +kernel

/-- **C108, counterexample.** One damaged byte in the first trace, the number of its samples: the trace has
one sample, and reading the second trace, of which no byte is damaged, is undefined. -/
theorem C108_count_damaged :
    (segdFileExample >>= fun d => openSegd (d.set 285 1) [] >>= fun s => readTraceD hostExample.pw s).map
      (fun p => p.1.samples.length) = .ok 1 ∧
    (segdFileExample >>= fun d => countsD (d.set 285 1)) = isUb .outOfBounds := by decide +kernel

/-- **C108, counterexample.** Samples in formats 8022 and 8042: a damaged byte of the first sample changes all
samples, and a damaged byte of another sample changes none, not even its own. -/
theorem C108_held_formats : ∀ format ∈ [(8022 : Int), 8042],
    (readSamplesD format (dblOfInt 1) 2 [0x21, 0x31]).map (·.1) = (readSamplesD format (dblOfInt 1) 2 [0x21, 0x35]).map (·.1) ∧
    (do let (x, _) ← readSamplesD format (dblOfInt 1) 2 [0x21, 0x31]
        let (y, _) ← readSamplesD format (dblOfInt 1) 2 [0x25, 0x31]
        pure (decide (x.length = 2 ∧ x[1]? ≠ y[1]?))) = (.ok true : Out Bool) := by decide +kernel

end Sedaman.Props
