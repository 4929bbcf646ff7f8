import Verif.Lemmas.ISEGYFail
import Verif.Props.ISEGY

/-!
# C74: SEG-Y readers after an exception
-/

namespace Sedaman.Props

open Spec

theorem curr_opened {data : Bytes} {ub : Option BinHeader} {m : HdrMap} {r : Reader}
    (ho : openReader data ub m = .ok r) : r.curr = r.file.pos := by
  obtain ⟨-, -, -, -, -, -, -, -, -, -, -, -, -, -, hcurr, -⟩ := openReader_ok ho
  exact hcurr

/-- **C74, the two models of reading agree.** Up to the first failure the calls return what the other
theorems about reading say, and the first failure is the same. -/
theorem C74_same_until_failure (data : Bytes) (ub : Option BinHeader) (m : HdrMap) (r : Reader)
    (ho : openReader data ub m = .ok r) (as : List Ask) :
    match answers r as with
    | (xs, none) => (asks ⟨r, false⟩ as).map (·.1) = xs.map .ok
    | (xs, some e) => ∃ rest, (asks ⟨r, false⟩ as).map (·.1) = xs.map .ok ++ .error e :: rest := by
  have := asks_answers r (curr_opened ho) (inv_opened ho) as
  cases hq : answers r as with
  | mk xs o =>
    rw [hq] at this
    cases o with
    | none => exact this
    | some e =>
      obtain ⟨rest, -, h, -⟩ := this
      exact ⟨rest, h⟩

/-- **C74, a failure of the stream is final.** Once a call has thrown because the file ended (or the
position would have become negative), every later call throws the same, whatever the program asks for,
and `has_trace` keeps its value. -/
theorem C74_stream_failure_is_final (data : Bytes) (ub : Option BinHeader) (m : HdrMap) (r : Reader)
    (ho : openReader data ub m = .ok r) (as : List Ask) (i j : Nat) (more : Bool)
    (h : (asks ⟨r, false⟩ as)[i]? = some (.error (.exn .iosFailure), more)) (hij : i ≤ j)
    (hj : j < as.length) :
    (asks ⟨r, false⟩ as)[j]? = some (.error (.exn .iosFailure), more) :=
  asks_ios (s := ⟨r, false⟩) (good_frame (inv_opened ho)) as hij hj h

/-- **C74 (part), fixed length.** A program reads traces or headers and catches what is thrown. It gets
what it would have got without failures, and from the first failure on nothing but exceptions of the
stream. Files of variable length: see `C74_bad_count_continues_in_samples`. -/
theorem C74_nothing_after_failure_partial (data : Bytes) (ub : Option BinHeader) (m : HdrMap)
    (r : Reader) (ho : openReader data ub m = .ok r)
    (hfix : r.bh.fixedTrLength ≠ 0 ∨ r.bh.revMajor = 0) (as : List Ask)
    (hd : ∀ x ∈ asks ⟨r, false⟩ as, Defined x.1) :
    (asks ⟨r, false⟩ as).map (·.1) = (answers r as).1.map .ok ++
      List.replicate (as.length - (answers r as).1.length) (.error (.exn .iosFailure)) := by
  have hf : fixedLength r.bh = true := by
    unfold fixedLength
    rcases hfix with h | h <;> simp [h]
  have hl : ∀ (s : RS) as, (asks s as).length = as.length := by
    intro s as
    induction as generalizing s with
    | nil => rfl
    | cons a as ih => rw [asks, List.length_cons, List.length_cons, ih]
  have := asks_answers r (curr_opened ho) (inv_opened ho) as
  cases hq : answers r as with
  | mk xs o =>
    rw [hq] at this
    cases o with
    | none =>
      have this : (asks ⟨r, false⟩ as).map (·.1) = xs.map .ok := this
      have h1 : as.length = xs.length := by
        have := congrArg List.length this
        rwa [List.length_map, List.length_map, hl] at this
      simp only
      rw [this, h1, Nat.sub_self]
      simp
    | some e =>
      obtain ⟨rest, s, h1, h2, h3, h4⟩ := this
      simp only
      have he : e = .exn .iosFailure ∧ Dead s := by
        rcases h4 with h4 | ⟨u, rfl⟩ | ⟨-, h4⟩
        · exact h4
        · exfalso
          have : (Except.error (.ub u) : Out Ans) ∈ (asks ⟨r, false⟩ as).map (·.1) := by
            rw [h1]
            simp
          obtain ⟨x, hx, hx2⟩ := List.mem_map.mp this
          have := hd x hx
          rw [hx2] at this
          exact this u rfl
        · rw [hf] at h4
          cases h4
      obtain ⟨rfl, hs⟩ := he
      rw [h1, h2, asks_dead hs, List.map_replicate, List.length_drop]
      have e0 : as.length - xs.length = as.length - (xs.length + 1) + 1 := by omega
      rw [e0, List.replicate_succ]

/-- A file of two traces that lost its last byte, and a program that asks four times. -/
example :
    (do let r ← openReader (exFile exRev0 (exBlock 7 2 ++ [0, 5, 0xff, 0xfe] ++ exBlock 8 2 ++ [0, 1, 0]))
          none exMap
        pure (asks ⟨r, false⟩ [.trace, .trace, .header, .trace])) =
      (.ok [(.ok (.trace ⟨[("FFID", .int 7), ("SAMP_NUM", .int 2)], [dblOfInt 5, dblOfInt (-2)]⟩), true),
        (.error (.exn .iosFailure), true), (.error (.exn .iosFailure), true),
        (.error (.exn .iosFailure), true)] : Out _) := by decide +kernel

/-- **C74, counterexamples (a family).** In a file of variable length a trace header may announce a
negative number of samples. Then `read_trace` throws `length_error`, and the next call starts behind
the header blocks of this trace: it takes the samples for a trace header. -/
theorem C74_bad_count_continues_in_samples (data : Bytes) (ub : Option BinHeader) (m : HdrMap)
    (r : Reader) (hr : Reachable data ub m r) (hc : r.curr = r.file.pos) (h : Header) (f : File) (n : Int)
    (hvar : r.bh.fixedTrLength = 0 ∧ r.bh.revMajor ≠ 0)
    (hh : readTrcHeader r = .ok (h, f)) (hn : h.get "SAMP_NUM" = some (.int n))
    (hneg : n < 0 ∧ -2 ^ 63 ≤ n * r.bps) (as : List Ask) :
    f = ⟨data, r.file.pos + 240 * (r.bh.maxNumAddTrHeaders + 1).toNat⟩ ∧
    asks ⟨r, false⟩ (.trace :: as) =
      (.error (.exn .lengthError), decide (f.pos ≠ r.endData)) ::
        asks ⟨{ r with file := f, curr := f.pos }, false⟩ as := by
  have hi := inv_reachable hr
  have hf : fixedLength r.bh = false := by
    unfold fixedLength
    simp [hvar.1, hvar.2]
  have ef : f = ⟨data, r.file.pos + 240 * (r.bh.maxNumAddTrHeaders + 1).toNat⟩ := by
    rw [readTrcHeader_file hh, hi.data]
    rfl
  refine ⟨ef, ?_⟩
  obtain ⟨k, rd', hk, hk0, -⟩ := decodeSamples_total hi.fmt r.bo
  rw [hi.bps] at hk
  have hk := Option.some.inj hk
  have hsn : sampNum h = .ok (n, h) := by
    unfold sampNum Header.at
    rw [hn]
  have hprod : n * r.bps < 0 := Int.mul_neg_of_neg_of_pos hneg.1 (by omega)
  have hu : 2 ^ 63 ≤ toU 8 (n * r.bps) := by
    unfold toU
    norm_num
    omega
  have hx : readTrace r = .error (.exn .lengthError) := by
    unfold readTrace
    rw [hh, ok_bind]
    simp only
    rw [if_neg (by rw [hf]; decide), hsn, ok_bind]
    simp only
    have := hi.buf
    rw [if_pos (by omega)]
    unfold resizeVec
    rw [if_pos hu]
    rfl
  have ha := ask_agree r hc hi .trace
  have hx2 : ask r .trace = .error (.exn .lengthError) := by
    unfold ask
    rw [hx]
    rfl
  rw [hx2] at ha
  obtain ⟨h1, h2⟩ := ha
  rcases h2 with ⟨h2, -⟩ | ⟨u, h2⟩ | ⟨-, -, h', f', h2, h3⟩
  · cases h2
  · cases h2
  · rw [hh] at h2
    cases h2
    rw [asks]
    simp only
    rw [h1, h3]
    rfl

/-- The file: a trace with a damaged count of samples (-120 instead of 120), whose 120 samples are
mostly zero, and a good trace. -/
def exBadCount : Bytes :=
  exFile exRev1 (exBlock 7 (-120) ++ (List.replicate 8 0 ++ [0, 0, 0, 42] ++ List.replicate 228 0) ++
    exBlock 8 1 ++ [0, 5])

/-- It meets the hypotheses of the last theorem. -/
example :
    (do let r ← openReader exBadCount none exMap
        let (h, f) ← readTrcHeader r
        pure (h.get "SAMP_NUM", f.pos, r.bh.fixedTrLength, r.bh.revMajor, r.bps, decide (r.curr = r.file.pos))) =
      (.ok (some (.int (-120)), 3840, 0, 1, 2, true) : Out _) := by decide +kernel

/-- **C74, counterexample.** The first call throws. The second returns a trace that is not in the
file: record 42, without samples. The third returns the next trace. -/
theorem C74_false_trace :
    (do let r ← openReader exBadCount none exMap
        pure (asks ⟨r, false⟩ [.trace, .trace, .trace])) =
      (.ok [(.error (.exn .lengthError), true),
        (.ok (.trace ⟨[("FFID", .int 42), ("SAMP_NUM", .int 0)], []⟩), true),
        (.ok (.trace ⟨[("FFID", .int 8), ("SAMP_NUM", .int 1)], [dblOfInt 5]⟩), false)] : Out _) := by
  decide +kernel

end Sedaman.Props
