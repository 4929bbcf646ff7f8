import Verif.Lemmas.SortedWithin
import Verif.Props.Sorted1D
import Verif.Props.ISEGYFail

/-!
# C78: sorted reading after an exception
-/

namespace Sedaman.Props

open Spec

theorem asks_answers_sorted {data : Bytes} {m : HdrMap} {r0 : Reader} (hi : Inv data m r0) {d : SD}
    {s : Sorted1D} (h : Twin r0 d.s s) (cs : List SCall) : Answers s (returned (sAsks d cs)) := by
  induction cs generalizing d s with
  | nil => trivial
  | cons c cs ih =>
    have ht := ask_tie hi h c
    unfold sAsks
    cases hx : sAskIO d c with
    | mk o d' =>
      rw [hx] at ht
      cases o with
      | ok a =>
        obtain ⟨s', h1, h2, -⟩ := ht
        exact ⟨s', h1, h2.has.symm, ih h2⟩
      | error e =>
        cases e with
        | ub u => trivial
        | exn x => exact ih ht.2.1

theorem sorted_twin {data : Bytes} {ub : Option BinHeader} {m : HdrMap} {name : String} {s : Sorted1D}
    (hs : OpensSorted data ub m name s) : ∃ r0, Inv data m r0 ∧ Twin r0 s s ∧ SInv r0 s := by
  obtain ⟨r, l, ho, hf⟩ := sortedOpens_inv hs
  exact ⟨r, inv_opened ho, ⟨hf.same, hf.same, rfl, rfl, rfl⟩, (fresh_inv hf).1⟩

/-- **C78.** Of all calls made on a sorted reader, some threw and were caught. The others have returned what
they return, in the same order, if the calls that threw are not made. -/
theorem C78_refused_calls_vanish (data : Bytes) (ub : Option BinHeader) (m : HdrMap) (name : String)
    (s : Sorted1D) (hs : OpensSorted data ub m name s) (cs : List SCall) :
    Answers s (returned (sAsks ⟨s, false⟩ cs)) := by
  obtain ⟨r0, hi, ht, -⟩ := sorted_twin hs
  exact asks_answers_sorted hi ht cs

theorem answers_history {s : Sorted1D} {l : List (SCall × SAns × Bool)} (h : Answers s l) :
    ∃ s', SHistory s (l.map (·.1)) (iterated l) s' := by
  induction l generalizing s with
  | nil => exact ⟨s, .nil s⟩
  | cons e l ih =>
    obtain ⟨c, a, b⟩ := e
    obtain ⟨s1, h1, -, h3⟩ := h
    obtain ⟨s', ih⟩ := ih h3
    refine ⟨s', ?_⟩
    cases c with
    | getKeys => cases h1; exact .getKeys ih
    | getHeaders v max =>
      have h1 : (s.getHeaders v max).map _ = _ := h1
      cases hq : s.getHeaders v max with
      | error e => rw [hq] at h1; cases h1
      | ok q => rw [hq] at h1; cases h1; exact .getHeaders hq ih
    | getTraces v max =>
      have h1 : (s.getTraces v max).map _ = _ := h1
      cases hq : s.getTraces v max with
      | error e => rw [hq] at h1; cases h1
      | ok q => rw [hq] at h1; cases h1; exact .getTraces hq ih
    | readHeader =>
      have h1 : s.readHeader.map _ = _ := h1
      cases hq : s.readHeader with
      | error e => rw [hq] at h1; cases h1
      | ok q => rw [hq] at h1; cases h1; exact .readHeader hq ih
    | readTrace =>
      have h1 : s.readTrace.map _ = _ := h1
      cases hq : s.readTrace with
      | error e => rw [hq] at h1; cases h1
      | ok q => rw [hq] at h1; cases h1; exact .readTrace hq ih

/-- **C78, no trace is skipped or repeated.** The headers that `read_header` and `read_trace` have returned,
whatever threw in between, are the first of those a loop with `read_header` meets. -/
theorem C78_in_order (data : Bytes) (ub : Option BinHeader) (m : HdrMap) (name : String) (s : Sorted1D)
    (hs : OpensSorted data ub m name s) (us : List Header) (hv : SHeaders s us) (cs : List SCall) :
    let out := iterated (returned (sAsks ⟨s, false⟩ cs))
    out.map Prod.fst = us.take out.length := by
  obtain ⟨s', h⟩ := answers_history (C78_refused_calls_vanish data ub m name s hs cs)
  exact (C40_interleaved_headers data ub m name s s' _ _ us hs hv h).1

/-- The states of a program that catches what is thrown and goes on. -/
inductive Later (d0 : SD) : SD → Prop where
  | start : Later d0 d0
  | call {d d' : SD} {c : SCall} {x : Out SAns} : Later d0 d → sAskIO d c = (x, d') →
      (∀ u, x ≠ .error (.ub u)) → Later d0 d'

theorem later_same {data : Bytes} {m : HdrMap} {r0 : Reader} (hi : Inv data m r0) {d0 d : SD}
    (h0 : Same r0 d0.s.rd) (h : Later d0 d) : Same r0 d.s.rd := by
  induction h with
  | start => exact h0
  | @call d d' c x _ hx hu ih =>
    have ht := ask_tie (d := d) (s := d.s) hi ⟨ih, ih, rfl, rfl, rfl⟩ c
    rw [hx] at ht
    cases x with
    | ok a => obtain ⟨s', -, h2, -⟩ := ht; exact h2.one
    | error e =>
      cases e with
      | ub u => exact absurd rfl (hu u)
      | exn x => exact ht.2.1.one

/-- **C78, what a failed call changes.** A call that throws leaves `has_trace` and the keys as they are, and
the same call made again throws the same again. -/
theorem C78_stays (data : Bytes) (ub : Option BinHeader) (m : HdrMap) (name : String) (s : Sorted1D)
    (hs : OpensSorted data ub m name s) (d d' : SD) (hd : Later ⟨s, false⟩ d) (c : SCall) (x : Exn)
    (hx : sAskIO d c = (.error (.exn x), d')) :
    d'.s.hasTrace = d.s.hasTrace ∧ d'.s.getKeys = d.s.getKeys ∧
    ∃ d'', sAskIO d' c = (.error (.exn x), d'') := by
  obtain ⟨r0, hi, ht, -⟩ := sorted_twin hs
  have hsm := later_same hi (show Same r0 (SD.mk s false).s.rd from ht.one) hd
  have h1 := ask_tie (d := d) (s := d.s) hi ⟨hsm, hsm, rfl, rfl, rfl⟩ c
  rw [hx] at h1
  obtain ⟨h2, h3, h4⟩ := h1
  refine ⟨h3.has, by unfold Sorted1D.getKeys; rw [h3.index], ?_⟩
  rcases h2 with ⟨h2, h5⟩ | ⟨h2, h5⟩
  · have h6 := ask_tie (d := d') (s := d.s) hi h3 c
    rw [h5] at h6
    rw [h2, Bool.false_or] at h4
    have h4 : d'.bad = decide (x = .iosFailure) := h4
    cases hy : sAskIO d' c with
    | mk o d'' =>
      rw [hy] at h6
      refine ⟨d'', ?_⟩
      cases o with
      | ok a => obtain ⟨s', h7, -⟩ := h6; cases h7
      | error e =>
        cases e with
        | ub u => cases h6.1
        | exn x' =>
          rcases h6.1 with ⟨-, h7⟩ | ⟨h7, h8⟩
          · cases h7; rfl
          · rw [h7] at h4
            have : x = .iosFailure := by simpa using h4.symm
            rw [this, h8]
  · obtain ⟨t, b⟩ := d
    have h2 : b = true := h2
    subst h2
    have := ask_dead_same (s := t) c
    rw [hx] at this
    have this : d' = _ := this
    subst this
    exact ⟨_, hx⟩

/-- **C78, an endless loop.** If `read_trace` throws once, a loop that catches the exception and asks
`has_trace` again never ends. -/
theorem C78_endless (data : Bytes) (ub : Option BinHeader) (m : HdrMap) (name : String) (s : Sorted1D)
    (hs : OpensSorted data ub m name s) (d d' : SD) (hd : Later ⟨s, false⟩ d) (x : Exn)
    (hx : sAskIO d .readTrace = (.error (.exn x), d')) (n : Nat) :
    sAsks d (List.replicate n .readTrace) = List.replicate n (.readTrace, .error (.exn x), true) := by
  have hh : d.s.hasTrace = true := by
    have : d.readTrace = ((d.readTrace).1, d') := by
      have h := congrArg Prod.snd hx
      show _ = (_, _)
      rw [show d' = d.readTrace.2 from h.symm]
    have h1 : d.readTrace.1.map SAns.trace = .error (.exn x) := congrArg Prod.fst hx
    unfold SD.readTrace SD.next at h1
    cases hp : d.s.curPos with
    | error e =>
      rw [hp] at h1
      unfold Sorted1D.curPos at hp
      split at hp
      · cases hp; cases h1
      · split at hp <;> cases hp
        cases h1
    | ok p =>
      unfold Sorted1D.curPos at hp
      split at hp
      · cases hp
      · rename_i hg
        obtain ⟨hl, -⟩ := List.getElem?_eq_some_iff.1 hg
        unfold Sorted1D.hasTrace
        simp only [decide_eq_true_eq]
        omega
  induction n generalizing d d' with
  | zero => rfl
  | succ n ih =>
    obtain ⟨h1, -, d'', h2⟩ := C78_stays data ub m name s hs d d' hd .readTrace x hx
    rw [List.replicate_succ, List.replicate_succ]
    unfold sAsks
    rw [hx]
    dsimp only
    rw [h1, hh, ih d' d'' (.call hd hx (by intro u; intro h; cases h)) h2 (h1.trans hh)]

theorem later_good {data : Bytes} {m : HdrMap} {r0 : Reader} (hi : Inv data m r0) {s : Sorted1D} {d : SD}
    (h0 : Same r0 s.rd) (hg : ∀ g ∈ s.index, ∀ p ∈ g.2, GoodPos r0 p) (h : Later ⟨s, false⟩ d) :
    Same r0 d.s.rd ∧ d.s.index = s.index ∧ d.bad = false := by
  induction h with
  | start => exact ⟨h0, rfl, rfl⟩
  | @call d d' c x _ hx hu ih =>
    obtain ⟨i1, i2, i3⟩ := ih
    have ht := ask_tie (d := d) (s := d.s) hi ⟨i1, i1, rfl, rfl, rfl⟩ c
    rw [hx] at ht
    cases x with
    | ok a =>
      obtain ⟨s', h1, h2, h3⟩ := ht
      have h3 : d'.bad = d.bad := h3
      refine ⟨h2.one, ?_, h3.trans i3⟩
      have : s'.index = d.s.index := by
        have h := answers_history (s := d.s) (l := [(c, a, s'.hasTrace)]) ⟨s', h1, rfl, trivial⟩
        cases c with
        | getKeys => cases h1; rfl
        | getHeaders v max =>
          have h1 : (d.s.getHeaders v max).map _ = _ := h1
          cases hq : d.s.getHeaders v max with
          | error e => rw [hq] at h1; cases h1
          | ok q =>
            rw [hq] at h1; cases h1
            unfold Sorted1D.getHeaders at hq
            split at hq
            · cases hq
            · split at hq
              · cases hq; rfl
              · obtain ⟨⟨_, _⟩, _, hq⟩ := bind_ok hq
                cases hq; rfl
        | getTraces v max =>
          have h1 : (d.s.getTraces v max).map _ = _ := h1
          cases hq : d.s.getTraces v max with
          | error e => rw [hq] at h1; cases h1
          | ok q =>
            rw [hq] at h1; cases h1
            unfold Sorted1D.getTraces at hq
            split at hq
            · cases hq
            · split at hq
              · cases hq; rfl
              · obtain ⟨⟨_, _⟩, _, hq⟩ := bind_ok hq
                cases hq; rfl
        | readHeader =>
          have h1 : d.s.readHeader.map _ = _ := h1
          cases hq : d.s.readHeader with
          | error e => rw [hq] at h1; cases h1
          | ok q => rw [hq] at h1; cases h1; exact readHeader_index hq
        | readTrace =>
          have h1 : d.s.readTrace.map _ = _ := h1
          cases hq : d.s.readTrace with
          | error e => rw [hq] at h1; cases h1
          | ok q => rw [hq] at h1; cases h1; exact readTrace_index hq
      rw [h2.index, this, i2]
    | error e =>
      cases e with
      | ub u => exact absurd rfl (hu u)
      | exn x =>
        obtain ⟨h1, h2, h3⟩ := ht
        refine ⟨h2.one, h2.index.trans i2, ?_⟩
        have h3 : d'.bad = (d.bad || decide (x = .iosFailure)) := h3
        rw [i3] at h3 h1
        rcases h1 with ⟨-, h1⟩ | ⟨h1, -⟩
        · rw [(ask_errors hi i1 (by rw [i2]; exact hg) h1).1] at h3
          exact h3
        · cases h1

/-- **C78, what can be thrown.** Once a sorted reader is open, whatever was called before, `get_keys`,
`get_headers` and `read_header` do not throw, and `read_trace` and `get_traces` throw nothing but
`std::length_error`: there are no I/O errors, because the constructor has checked that all traces lie in the
file. -/
theorem C78_no_io_error (data : Bytes) (ub : Option BinHeader) (m : HdrMap) (name : String) (s : Sorted1D)
    (hs : OpensSorted data ub m name s) (d d' : SD) (hd : Later ⟨s, false⟩ d) (c : SCall) (x : Exn)
    (hx : sAskIO d c = (.error (.exn x), d')) :
    x = .lengthError ∧ (c = .readTrace ∨ ∃ v max, c = .getTraces v max) := by
  obtain ⟨r, l, ho, hf⟩ := sortedOpens_inv hs
  have hi := inv_opened ho
  have hg := fresh_good ho hf
  obtain ⟨i1, i2, i3⟩ := later_good hi hf.same hg hd
  have ht := ask_tie (d := d) (s := d.s) hi ⟨i1, i1, rfl, rfl, rfl⟩ c
  rw [hx] at ht
  obtain ⟨h1, -⟩ := ht
  rcases h1 with ⟨-, h1⟩ | ⟨h1, -⟩
  · exact ask_errors hi i1 (by rw [i2]; exact hg) h1
  · rw [i3] at h1; cases h1

/-- **C78, when `read_trace` throws.** The file has traces of variable length, and the trace that is next has
a negative count of samples (times the size of a sample, as a 64 bit number). `read_header` returns its header
and gets past it. -/
theorem C78_length_error (data : Bytes) (ub : Option BinHeader) (m : HdrMap) (name : String) (s : Sorted1D)
    (hs : OpensSorted data ub m name s) (d d' : SD) (hd : Later ⟨s, false⟩ d) (x : Exn)
    (hx : sAskIO d .readTrace = (.error (.exn x), d')) :
    ∃ h d'', sAskIO d' .readHeader = (.ok (.header h), d'') ∧
      d.s.rd.bh.fixedTrLength = 0 ∧ d.s.rd.bh.revMajor ≠ 0 ∧
      ∃ n, h.get "SAMP_NUM" = some (.int n) ∧ toS 8 (toU 8 (n * d.s.rd.bps)) < 0 := by
  obtain ⟨hxl, -⟩ := C78_no_io_error data ub m name s hs d d' hd _ x hx
  subst hxl
  obtain ⟨r, l, ho, hf⟩ := sortedOpens_inv hs
  have hi := inv_opened ho
  have hg := fresh_good ho hf
  obtain ⟨i1, i2, i3⟩ := later_good hi hf.same hg hd
  have ht := ask_tie (d := d) (s := d.s) hi ⟨i1, i1, rfl, rfl, rfl⟩ .readTrace
  rw [hx] at ht
  obtain ⟨h1, h2, h3⟩ := ht
  have h3 : d'.bad = (d.bad || decide (Exn.lengthError = .iosFailure)) := h3
  rw [i3] at h1 h3
  have h3 : d'.bad = false := h3
  rcases h1 with ⟨-, h1⟩ | ⟨h1, -⟩
  · have h1 : d.s.readTrace.map _ = _ := h1
    unfold Sorted1D.readTrace at h1
    rcases curPos_cases d.s with hp | ⟨p, hp, g, g1, g2⟩
    · rw [hp] at h1; cases h1
    · rw [hp, ok_bind, traceFrom_eq] at h1
      rw [i2] at g1
      obtain ⟨hd', ⟨r', k1⟩, ⟨t, r'', k2⟩ | ⟨-, k3, n, k4, k5⟩⟩ := hg g g1 p g2
      · obtain ⟨r3, k3, -⟩ := trace_same hi i1 k2
        rw [k3] at h1
        cases h1
      · obtain ⟨r3, k6, -⟩ := header_same i1 k1
        have k7 : sAsk d.s .readHeader = .ok (.header hd', { d.s with rd := r3 }.advance) := by
          unfold sAsk Sorted1D.readHeader
          dsimp only
          rw [hp, ok_bind, headerFrom_eq, k6]
          rfl
        have k8 := ask_tie (d := d') (s := d.s) hi h2 .readHeader
        rw [k7, h3] at k8
        have e1 : d.s.rd.bh = r.bh := by rw [i1.eq]
        have e2 : d.s.rd.bps = r.bps := by rw [i1.eq]
        rw [e1, e2]
        have hb : r.bh.fixedTrLength = 0 ∧ r.bh.revMajor ≠ 0 := by
          unfold fixedLength at k3
          simpa using k3
        have hneg : toS 8 (toU 8 (n * r.bps)) < 0 := by
          have hlt := toU_lt 8 (n * r.bps)
          generalize toU 8 (n * r.bps) = u at *
          unfold toS
          rw [Nat.mod_eq_of_lt hlt]
          norm_num at hlt ⊢
          split <;> omega
        cases hy : sAskIO d' .readHeader with
        | mk o d'' =>
          rw [hy] at k8
          cases o with
          | ok a =>
            obtain ⟨s', k9, -⟩ := k8
            cases k9
            exact ⟨hd', d'', rfl, hb.1, hb.2, n, k4, hneg⟩
          | error e =>
            cases e with
            | ub u => cases k8.1
            | exn x =>
              rcases k8.1 with ⟨-, k9⟩ | ⟨k9, -⟩
              · cases k9
              · cases k9
  · cases h1

/-! ## Examples -/

/-- A file of one block of 240 bytes and four more. The count of samples is -119, so that the next "trace"
begins two bytes further on; its count is 1, and it ends with the file. -/
def exOverlap : Bytes :=
  exFile exRev1 (List.replicate 8 0 ++ [0, 0, 0, 7, 0, 3] ++ List.replicate 100 0 ++ [0xff, 0x89, 0, 1] ++
    List.replicate 122 0 ++ [0, 0, 0, 5])

/-- The file can be opened. `read_trace` throws twice, and so does `get_traces`; the header of the first trace
and the second trace are returned none the less. -/
example :
    (match openSorted exOverlap none exMap "FFID" 9 with
      | some (.ok s) => some (s.getKeys,
          (sAsks ⟨s, false⟩ [.readTrace, .getTraces (.int 7) 1, .readTrace, .readHeader, .readTrace]).map (·.2))
      | _ => none) =
    some ([.int 7, .int 458755],
      [(.error (.exn .lengthError), true), (.error (.exn .lengthError), true),
       (.error (.exn .lengthError), true),
       (.ok (.header [("FFID", .int 7), ("SAMP_NUM", .int (-119))]), true),
       (.ok (.trace ⟨[("FFID", .int 458755), ("SAMP_NUM", .int 1)], [dblOfInt 5]⟩), false)]) := by
  decide +kernel

/-- And this is what the theorem says of it: the same without the three calls that threw. -/
example :
    (match openSorted exOverlap none exMap "FFID" 9 with
      | some (.ok s) => some ((sAsks ⟨s, false⟩ [.readHeader, .readTrace]).map (·.2))
      | _ => none) =
    some
      [(.ok (.header [("FFID", .int 7), ("SAMP_NUM", .int (-119))]), true),
       (.ok (.trace ⟨[("FFID", .int 458755), ("SAMP_NUM", .int 1)], [dblOfInt 5]⟩), false)] := by
  decide +kernel

end Sedaman.Props
