import Verif.Lemmas.Sorted1D
import Verif.Props.ISEGY

/-!
# Properties C37 to C41: the reader in sorted order
-/

namespace Sedaman.Props

open Spec

/-! A file for the examples: five traces of one 16 bit sample, record numbers 7, 3, 7, -2, 3. -/

/-- Record number and sample. -/
def exS (ffid : Int) (x : Byte) : Bytes := exBlock ffid 1 ++ [0, x]

/-- Five traces. -/
def exSorted : Bytes :=
  exFile { sampPerTr := 1, formatCode := 3 } (exS 7 1 ++ exS 3 2 ++ exS 7 3 ++ exS (-2) 4 ++ exS 3 5)

/-- `n` traces of the sorted reader: record number and samples; and `has_trace` afterwards. -/
def readSorted : Nat → Sorted1D → Out (List (Option Value × List Dbl) × Bool)
  | 0, s => .ok ([], s.hasTrace)
  | n + 1, s => do
    let (t, s) ← s.readTrace
    let (l, b) ← readSorted n s
    pure ((t.header.get "FFID", t.samples) :: l, b)

/-- How the constructor fails, if it does. -/
def failure (o : Option (Out Sorted1D)) : Option Err :=
  match o with
  | some (.error e) => some e
  | _ => none

theorem fails_of {data : Bytes} {ub : Option BinHeader} {m : HdrMap} {name : String} {n : Nat}
    {e : Err} (h : failure (openSorted data ub m name n) = some e) : FailsSorted data ub m name e := by
  refine ⟨n, ?_⟩
  cases ho : openSorted data ub m name n with
  | none => rw [ho] at h; cases h
  | some x =>
    cases x with
    | ok s => rw [ho] at h; cases h
    | error e' => rw [ho] at h; rw [Option.some.inj h]

/-! ## C37 -/

/-- **C37, except for NaN keys and files without traces.** The plain reader meets the traces `ts`,
each of which has the chosen header. Then the sorted reader can be opened, and its loop over
`has_trace`, with `read_trace` or `read_header` at each step, meets exactly the traces `us`, which
are the `ts` in non-decreasing order of the header, equal ones in file order. -/
theorem C37_traces_partial (data : Bytes) (ub : Option BinHeader) (m : HdrMap) (name : String)
    (r : Reader) (ts : List Trace) (ho : openReader data ub m = .ok r) (hv : Visits r ts)
    (hne : ts ≠ []) (hk : ∀ t ∈ ts, ∃ v, t.header.get name = some v ∧ Ordered v) :
    ∃ s us, OpensSorted data ub m name s ∧ StableSort Trace.header name ts us ∧ SVisits s us := by
  have hi := inv_opened ho
  obtain ⟨l, h1, h2⟩ := scans_of_visits hi (Same.refl hi) hv
  obtain ⟨e1, e2, e3⟩ := entries_of hi h2
  have hkl : Keyed name l := by
    intro e he
    rw [← e2 e he]
    exact hk _ (by rw [e1]; exact List.mem_map_of_mem he)
  obtain ⟨s, hs, hf⟩ := sortedOpens_of ho h1 hkl (by rintro rfl; exact hne e1)
  obtain ⟨g1, g2⟩ := fresh_inv hf
  refine ⟨s, (flat (entryIndex name l)).map (traceOf r), hs, ?_, ?_⟩
  · rw [e1]; exact stable_flat hkl (traceOf r) e2
  · rw [svisits_iff hi g1, g2]
    exact forall2_map _ _ fun e he => e3 e ((flat_perm (grouped_index hkl)).mem_iff.1 he)

/-- **C37, for whatever file the constructor returns on.** The plain reader's loop over
`read_header` ends, and the sorted reader's loop meets the same headers in non-decreasing order,
equal ones in file order. -/
theorem C37_headers (data : Bytes) (ub : Option BinHeader) (m : HdrMap) (name : String)
    (s : Sorted1D) (hs : OpensSorted data ub m name s) :
    ∃ r l us, openReader data ub m = .ok r ∧ Scans r l ∧ l ≠ [] ∧
      StableSort id name (l.map Prod.snd) us ∧ SHeaders s us := by
  obtain ⟨r, l, ho, hf⟩ := sortedOpens_inv hs
  obtain ⟨g1, g2⟩ := fresh_inv hf
  refine ⟨r, l, (flat (entryIndex name l)).map Prod.snd, ho, hf.scans, hf.ne,
    stable_flat hf.keyed Prod.snd fun _ _ => rfl, ?_⟩
  rw [sheaders_iff g1, g2]
  exact forall2_map _ _ fun e he => scans_pos (Same.refl (inv_opened ho)) hf.scans e
    ((flat_perm (grouped_index hf.keyed)).mem_iff.1 he)

/-- The five traces come as -2, 3, 3, 7, 7, and the samples show that equal ones are in file
order. -/
example :
    (match openSorted exSorted none exMap "FFID" 6 with
      | some (.ok s) => readSorted 5 s
      | _ => .ok ([], true)) =
    .ok ([(some (.int (-2)), [dblOfInt 4]), (some (.int 3), [dblOfInt 2]),
      (some (.int 3), [dblOfInt 5]), (some (.int 7), [dblOfInt 1]), (some (.int 7), [dblOfInt 3])],
      false) := by decide +kernel

/-- A header map with a floating point field. -/
def exFMap : HdrMap := [⟨"SEG00000", [⟨8, "VELOCITY", .ieeeSingle⟩]⟩]

/-- One trace whose field at byte 8 has the given bits. -/
def exF (bits : Int) : Bytes :=
  exFile { sampPerTr := 1, formatCode := 3 } (exS bits 1)

/-- **C37 fails for NaN.** A trace whose chosen header holds NaN: the map is given a key its
comparison cannot order. -/
theorem C37_nan_fails : FailsSorted (exF 0x7fc00000) none exFMap "VELOCITY" (.ub .badOrder) :=
  fails_of (n := 9) (by decide +kernel)

/-- Other floating point keys are accepted. -/
example : (match openSorted (exF 0x3f800000) none exFMap "VELOCITY" 9 with
    | some (.ok s) => some s.getKeys
    | _ => none) = some [.dbl (dblOfInt 1)] := by decide +kernel

/-! ## C38 -/

/-- **C38.** After any history of calls, `get_keys` returns values of the chosen header, strictly
ascending, and every value that occurs in the file is among them. -/
theorem C38_keys (data : Bytes) (ub : Option BinHeader) (m : HdrMap) (name : String)
    (s s' : Sorted1D) (cs : List SCall) (out : List (Header × Option (List Dbl))) (r : Reader)
    (l : List (Nat × Header)) (hs : OpensSorted data ub m name s) (hh : SHistory s cs out s')
    (ho : openReader data ub m = .ok r) (hl : Scans r l) :
    s'.getKeys.Pairwise KeyLt ∧
    (∀ k ∈ s'.getKeys, ∃ e ∈ l, e.2.get name = some k) ∧
    ∀ e ∈ l, ∃ k ∈ s'.getKeys, HasKey name k e.2 := by
  obtain ⟨r', l', ho', hf⟩ := sortedOpens_inv hs
  rw [ho] at ho'
  obtain rfl := Except.ok.inj ho'
  obtain rfl := scans_unique hf.scans hl
  obtain ⟨g1, -⟩ := fresh_inv hf
  obtain ⟨-, hidx, -⟩ := history_inv (inv_opened ho) hh g1
  have hg := grouped_index hf.keyed
  have hkeys : s'.getKeys = (entryIndex name l').map (·.1) := by
    unfold Sorted1D.getKeys
    rw [hidx, hf.index, List.map_map]
    rfl
  have hord : ∀ g ∈ entryIndex name l', Ordered g.1 := by
    intro g hg'
    obtain ⟨-, ⟨b, hb, e⟩, -⟩ := hg.groups g hg'
    rw [← e]; exact keyed_ordered hf.keyed b hb
  rw [hkeys]
  refine ⟨?_, ?_, ?_⟩
  · rw [List.pairwise_map]
    exact hg.keys.imp_of_mem fun {a b} ha hb h => (keyLt_rank (hord a ha) (hord b hb)).2 h
  · intro k hk
    obtain ⟨g, hg', rfl⟩ := List.mem_map.1 hk
    obtain ⟨-, ⟨b, hb, e⟩, -⟩ := hg.groups g hg'
    refine ⟨b, hb, ?_⟩
    obtain ⟨v, h1, -⟩ := hf.keyed b hb
    rw [← e]
    unfold entryKey
    rw [h1]; rfl
  · intro e he
    obtain ⟨g, hg', e'⟩ := hg.all e he
    exact ⟨g.1, List.mem_map_of_mem hg', (hasKey_iff hf.keyed (hord g hg') he).2 e'.symm⟩

example : (match openSorted exSorted none exMap "FFID" 6 with
    | some (.ok s) => some s.getKeys
    | _ => none) = some [.int (-2), .int 3, .int 7] := by decide +kernel

/-! ## C39 -/

/-- The entries found for a value. -/
theorem find_entries {name : String} {r : Reader} {l : List (Nat × Header)} {s : Sorted1D}
    (hf : Fresh name r l s) {v : Value} (hv : Ordered v) :
    (mapFind s.index v = none ∧ l.filter (fun e => decide (rank (entryKey name e) = rank v)) = []) ∨
    mapFind s.index v =
      some ((l.filter fun e => decide (rank (entryKey name e) = rank v)).map Prod.fst) := by
  rw [hf.index, mapFind_map]
  rcases find_grouped (grouped_index hf.keyed) (keyed_ordered hf.keyed) hv with ⟨h1, h2⟩ | h
  · exact .inl ⟨by rw [h1]; rfl, h2⟩
  · exact .inr (by rw [h]; rfl)

/-- **C39 for `get_traces`, except for NaN.** After any history of calls, `get_traces(v, max)`
returns the first `max` traces of the file whose chosen header equals `v`, in file order. In
particular it returns nothing when there is none. -/
theorem C39_traces_partial (data : Bytes) (ub : Option BinHeader) (m : HdrMap) (name : String)
    (s s' : Sorted1D) (cs : List SCall) (out : List (Header × Option (List Dbl))) (r : Reader)
    (ts : List Trace) (hs : OpensSorted data ub m name s) (hh : SHistory s cs out s')
    (ho : openReader data ub m = .ok r) (hl : Visits r ts) (v : Value) (hv : Ordered v)
    (max : Nat) :
    ∃ s'', s'.getTraces v max = .ok ((withKey Trace.header name v ts).take max, s'') := by
  have hi := inv_opened ho
  obtain ⟨r', l', ho', hf⟩ := sortedOpens_inv hs
  rw [ho] at ho'
  obtain rfl := Except.ok.inj ho'
  obtain ⟨l, h1, h2⟩ := scans_of_visits hi (Same.refl hi) hl
  obtain rfl := scans_unique hf.scans h1
  obtain ⟨e1, e2, e3⟩ := entries_of hi h2
  obtain ⟨g1, -⟩ := fresh_inv hf
  obtain ⟨g2, hidx, -⟩ := history_inv hi hh g1
  have hw := withKey_map (hdr := Trace.header) hf.keyed (traceOf r) e2 (fun _ h => h) hv
  rw [← e1] at hw
  unfold Sorted1D.getTraces
  rw [if_neg (by rw [(ordered_iff v).1 hv]; simp), hidx, hw]
  rcases find_entries hf hv with ⟨h3, h4⟩ | h3
  · rw [h3, h4]; simp
  · rw [h3]
    obtain ⟨r'', g3, g4⟩ := tracesFrom_of hi g2.same (forall2_map Prod.fst (traceOf r)
      (l := l'.filter fun e => decide (rank (entryKey name e) = rank v)) fun e he =>
        e3 e (List.mem_filter.1 he).1) max
    simp only
    rw [g3, ok_bind]
    exact ⟨_, rfl⟩

/-- **C39 for `get_headers`, except for NaN.** -/
theorem C39_headers_partial (data : Bytes) (ub : Option BinHeader) (m : HdrMap) (name : String)
    (s s' : Sorted1D) (cs : List SCall) (out : List (Header × Option (List Dbl))) (r : Reader)
    (l : List (Nat × Header)) (hs : OpensSorted data ub m name s) (hh : SHistory s cs out s')
    (ho : openReader data ub m = .ok r) (hl : Scans r l) (v : Value) (hv : Ordered v)
    (max : Nat) :
    ∃ s'', s'.getHeaders v max = .ok ((withKey id name v (l.map Prod.snd)).take max, s'') := by
  have hi := inv_opened ho
  obtain ⟨r', l', ho', hf⟩ := sortedOpens_inv hs
  rw [ho] at ho'
  obtain rfl := Except.ok.inj ho'
  obtain rfl := scans_unique hf.scans hl
  obtain ⟨g1, -⟩ := fresh_inv hf
  obtain ⟨g2, hidx, -⟩ := history_inv hi hh g1
  have hw := withKey_map (hdr := id) hf.keyed Prod.snd (fun _ _ => rfl) (fun _ h => h) hv
  unfold Sorted1D.getHeaders
  rw [if_neg (by rw [(ordered_iff v).1 hv]; simp), hidx, hw]
  rcases find_entries hf hv with ⟨h3, h4⟩ | h3
  · rw [h3, h4]; simp
  · rw [h3]
    obtain ⟨r'', g3, g4⟩ := headersFrom_of g2.same (forall2_map Prod.fst Prod.snd
      (l := l'.filter fun e => decide (rank (entryKey name e) = rank v)) fun e he =>
        scans_pos (Same.refl hi) hf.scans e (List.mem_filter.1 he).1) max
    simp only
    rw [g3, ok_bind]
    exact ⟨_, rfl⟩

/-- **C39 for values that do not occur.** -/
theorem C39_absent (data : Bytes) (ub : Option BinHeader) (m : HdrMap) (name : String)
    (s s' : Sorted1D) (cs : List SCall) (out : List (Header × Option (List Dbl))) (r : Reader)
    (l : List (Nat × Header)) (hs : OpensSorted data ub m name s) (hh : SHistory s cs out s')
    (ho : openReader data ub m = .ok r) (hl : Scans r l) (v : Value) (hv : Ordered v)
    (max : Nat) (ha : ∀ e ∈ l, ¬ HasKey name v e.2) :
    s'.getHeaders v max = .ok ([], s') ∧ s'.getTraces v max = .ok ([], s') := by
  have hi := inv_opened ho
  obtain ⟨r', l', ho', hf⟩ := sortedOpens_inv hs
  rw [ho] at ho'
  obtain rfl := Except.ok.inj ho'
  obtain rfl := scans_unique hf.scans hl
  obtain ⟨g1, -⟩ := fresh_inv hf
  obtain ⟨g2, hidx, -⟩ := history_inv hi hh g1
  have hn : l'.filter (fun e => decide (rank (entryKey name e) = rank v)) = [] := by
    rw [List.filter_eq_nil_iff]
    intro e he hc
    exact ha e he ((hasKey_iff hf.keyed hv he).2 (by simpa using hc))
  have hnone : mapFind s'.index v = none := by
    rw [hidx, hf.index, mapFind_map]
    have hgr := grouped_index hf.keyed
    rcases find_grouped hgr (keyed_ordered hf.keyed) hv with ⟨h1, h2⟩ | h
    · rw [h1]; rfl
    · exfalso
      rw [hn] at h
      have key : ∀ m' : VecMap (Nat × Header), (∀ g ∈ m', g.2 ≠ []) → mapFind m' v ≠ some [] := by
        intro m'
        induction m' with
        | nil => intro _ hc; cases hc
        | cons g t ih =>
          intro hne
          obtain ⟨k, ps⟩ := g
          unfold mapFind
          split
          · exact ih fun g' hg' => hne g' (List.mem_cons_of_mem _ hg')
          · split
            · intro hc; cases hc
            · intro hc
              exact hne _ List.mem_cons_self (Option.some.inj hc)
      exact key _ (fun g hg => (hgr.groups g hg).1) h
  have hnan : ¬ valueIsNan v = true := by rw [(ordered_iff v).1 hv]; simp
  unfold Sorted1D.getHeaders Sorted1D.getTraces
  rw [if_neg hnan, if_neg hnan, hnone]
  exact ⟨rfl, rfl⟩

/-- The traces with record number 3, all, then at most one, then those of an absent number. -/
example :
    (match openSorted exSorted none exMap "FFID" 6 with
      | some (.ok s) => do
        let (a, s) ← s.getTraces (.int 3) 9
        let (b, s) ← s.getTraces (.int 3) 1
        let (c, s) ← s.getTraces (.int 4) 1
        let (d, _) ← s.getHeaders (.int 7) (2 ^ 64 - 1)
        pure (a.map Trace.samples, b.map Trace.samples, c.length, d.length)
      | _ => .ok ([], [], 0, 0)) =
    .ok ([[dblOfInt 2], [dblOfInt 5]], [[dblOfInt 2]], 0, 2) := by decide +kernel

/-- **C39 fails for NaN.** NaN equals no header, but looking it up breaks the requirements of the
map. -/
theorem C39_nan_fails :
    (match openSorted (exF 0x3f800000) none exFMap "VELOCITY" 9 with
      | some (.ok s) => (s.getTraces (.dbl 0x7ff8000000000000) 1).map fun (x : List Trace × Sorted1D) => x.1.length
      | _ => .ok 0) = .error (.ub .badOrder) := by decide +kernel

/-! ## C40 -/

/-- **C40.** However `get_keys`, `get_headers` and `get_traces` are interleaved with `read_header`
and `read_trace`: if the iteration alone meets the traces `us`, then the reads of the history have
returned the first of these, in order, and the iteration that remains meets the others. -/
theorem C40_interleaved (data : Bytes) (ub : Option BinHeader) (m : HdrMap) (name : String)
    (s s' : Sorted1D) (cs : List SCall) (out : List (Header × Option (List Dbl)))
    (us : List Trace) (hs : OpensSorted data ub m name s) (hv : SVisits s us)
    (hh : SHistory s cs out s') :
    List.Forall₂ (fun o t => o.1 = t.header ∧ ∀ xs, o.2 = some xs → xs = t.samples)
      out (us.take out.length) ∧ SVisits s' (us.drop out.length) := by
  obtain ⟨r, l, ho, hf⟩ := sortedOpens_inv hs
  have hi := inv_opened ho
  obtain ⟨g1, -⟩ := fresh_inv hf
  obtain ⟨g2, -, ps, g3, g4⟩ := history_inv hi hh g1
  rw [svisits_iff hi g1, g3] at hv
  rw [svisits_iff hi g2]
  have hlen := g4.length_eq
  rw [← hlen]
  clear hlen hh hs g3
  induction g4 generalizing us with
  | nil => exact ⟨.nil, hv⟩
  | @cons p o ps out h1 h2 ih =>
    cases hv with
    | @cons _ t _ ts h3 h4 =>
      obtain ⟨i1, i2⟩ := ih ts h4
      refine ⟨.cons ⟨h1.1.unique (h3.header hi), fun xs hx => ?_⟩ i1, i2⟩
      have := (h1.2 xs hx).unique h3
      rw [← this]

/-- **C40, headers only.** The same when the traces cannot all be read but their headers can. -/
theorem C40_interleaved_headers (data : Bytes) (ub : Option BinHeader) (m : HdrMap) (name : String)
    (s s' : Sorted1D) (cs : List SCall) (out : List (Header × Option (List Dbl)))
    (us : List Header) (hs : OpensSorted data ub m name s) (hv : SHeaders s us)
    (hh : SHistory s cs out s') :
    out.map Prod.fst = us.take out.length ∧ SHeaders s' (us.drop out.length) := by
  obtain ⟨r, l, ho, hf⟩ := sortedOpens_inv hs
  have hi := inv_opened ho
  obtain ⟨g1, -⟩ := fresh_inv hf
  obtain ⟨g2, -, ps, g3, g4⟩ := history_inv hi hh g1
  rw [sheaders_iff g1, g3] at hv
  rw [sheaders_iff g2]
  have hlen := g4.length_eq
  rw [← hlen]
  clear hlen hh hs g3
  induction g4 generalizing us with
  | nil => exact ⟨rfl, hv⟩
  | @cons p o ps out h1 h2 ih =>
    cases hv with
    | @cons _ t _ ts h3 h4 =>
      obtain ⟨i1, i2⟩ := ih ts h4
      refine ⟨?_, i2⟩
      rw [List.map_cons, List.length_cons, List.take_succ_cons, i1, h1.1.unique h3]

/-- Queries between all reads. -/
def exInterleaved (s : Sorted1D) :
    Out (List (Option Value × List Dbl) × Bool) := do
  let (_, s) ← s.getTraces (.int 7) 9
  let (a, s) ← s.readTrace
  let (_, s) ← s.getHeaders (.int (-2)) 9
  let (b, s) ← s.readHeader
  let (_, s) ← s.getTraces (.int 3) 1
  let (c, s) ← s.readTrace
  let (_, s) ← s.getTraces (.int 7) 1
  let (l, e) ← readSorted 2 s
  pure ([(a.header.get "FFID", a.samples), (b.get "FFID", []), (c.header.get "FFID", c.samples)] ++ l, e)

/-- The same sequence as above. -/
example :
    (match openSorted exSorted none exMap "FFID" 6 with
      | some (.ok s) => exInterleaved s
      | _ => .ok ([], true)) =
    .ok ([(some (.int (-2)), [dblOfInt 4]), (some (.int 3), []), (some (.int 3), [dblOfInt 5]),
      (some (.int 7), [dblOfInt 1]), (some (.int 7), [dblOfInt 3])], false) := by decide +kernel

/-! ## C41 -/

theorem scan_missing {name : String} {r0 r : Reader} {l : List (Nat × Header)} {e : Nat × Header}
    {l' : List (Nat × Header)} (hs : Same r0 r) (h : Scans r (l ++ e :: l')) (hk : Keyed name l)
    (he : e.2.get name = none) (idx : VecMap Nat) :
    scanKeys name (l.length + 1) r idx = some (.error (.exn .noSuchHeader)) := by
  induction l generalizing r idx with
  | nil =>
    obtain ⟨h1, h2, r', h3, h4⟩ := h
    unfold scanKeys
    rw [h1, h3]
    simp only [if_true, he]
    rfl
  | cons a l ih =>
    obtain ⟨h1, h2, r', h3, h4⟩ := h
    have e0 : r.goto a.1 = r := by rw [← h2]; rfl
    have h3' := h3
    rw [← e0] at h3
    obtain ⟨h5, -⟩ := header_same' hs h3
    obtain ⟨v, hv, ho⟩ := hk a List.mem_cons_self
    rw [List.length_cons]
    unfold scanKeys
    rw [h1, h3']
    simp only [if_true, hv]
    rw [(ordered_iff v).1 ho]
    simp only [Bool.false_eq_true, if_false]
    exact ih h5 h4 (fun e' h' => hk e' (List.mem_cons_of_mem _ h')) _

/-- **C41, missing header.** A trace without the chosen header, after any number of traces that have
it: construction throws "no such header in trace". -/
theorem C41_missing_partial (data : Bytes) (ub : Option BinHeader) (m : HdrMap) (name : String)
    (r : Reader) (l l' : List (Nat × Header)) (e : Nat × Header)
    (ho : openReader data ub m = .ok r) (hl : Scans r (l ++ e :: l'))
    (hk : ∀ a ∈ l, ∃ v, a.2.get name = some v ∧ Ordered v) (he : e.2.get name = none) :
    FailsSorted data ub m name (.exn .noSuchHeader) := by
  refine ⟨l.length + 1, ?_⟩
  unfold openSorted
  rw [ho]
  simp only [scan_missing (Same.refl (inv_opened ho)) hl hk he []]

example : failure (openSorted exSorted none exMap "CDP" 6) = some (.exn .noSuchHeader) := by
  decide +kernel

/-- **C41, no traces: the property fails.** Whenever the file has no traces, the constructor
dereferences the end of an empty map, so that `has_trace` cannot be asked. -/
theorem C41_empty_undefined (data : Bytes) (ub : Option BinHeader) (m : HdrMap) (name : String)
    (r : Reader) (ho : openReader data ub m = .ok r) (hl : hasTrace r = false) :
    FailsSorted data ub m name (.ub .endIterator) := by
  refine ⟨1, ?_⟩
  unfold openSorted
  rw [ho]
  simp only [scanKeys]
  rw [hl]
  rfl

/-- A file with headers and no traces. -/
example : failure (openSorted (exFile exRev0 []) none exMap "FFID" 1) = some (.ub .endIterator) := by
  decide +kernel

/-- The outcome of the constructor does not depend on the bound used to compute it. -/
theorem C41_outcome_unique (data : Bytes) (ub : Option BinHeader) (m : HdrMap) (name : String)
    (n k : Nat) (a b : Out Sorted1D) (h1 : openSorted data ub m name n = some a)
    (h2 : openSorted data ub m name k = some b) : a = b := by
  have mono : ∀ (n k : Nat) (r : Reader) (idx : VecMap Nat) (x y : Out (Reader × VecMap Nat)),
      scanKeys name n r idx = some x → scanKeys name k r idx = some y → x = y := by
    intro n
    induction n with
    | zero => intro k r idx x y h; cases h
    | succ n ih =>
      intro k r idx x y hx hy
      cases k with
      | zero => cases hy
      | succ k =>
        unfold scanKeys at hx hy
        split at hx
        · rename_i ht
          rw [if_pos ht] at hy
          cases hr : readHeader r with
          | error e =>
            rw [hr] at hx hy
            exact Option.some.inj (hx.symm.trans hy)
          | ok q =>
            obtain ⟨hd, r'⟩ := q
            rw [hr] at hx hy
            simp only at hx hy
            cases hg : hd.get name with
            | none =>
              rw [hg] at hx hy
              exact Option.some.inj (hx.symm.trans hy)
            | some v =>
              rw [hg] at hx hy
              simp only at hx hy
              split at hx
              · rename_i hn
                rw [if_pos hn] at hy
                exact Option.some.inj (hx.symm.trans hy)
              · rename_i hn
                rw [if_neg hn] at hy
                exact ih k _ _ x y hx hy
        · rename_i ht
          rw [if_neg ht] at hy
          exact Option.some.inj (hx.symm.trans hy)
  unfold openSorted at h1 h2
  cases ho : openReader data ub m with
  | error e =>
    rw [ho] at h1 h2
    exact Option.some.inj (h1.symm.trans h2)
  | ok r =>
    rw [ho] at h1 h2
    simp only at h1 h2
    cases s1 : scanKeys name n r [] with
    | none => rw [s1] at h1; cases h1
    | some x =>
      cases s2 : scanKeys name k r [] with
      | none => rw [s2] at h2; cases h2
      | some y =>
        obtain rfl := mono n k r [] x y s1 s2
        rw [s1] at h1
        rw [s2] at h2
        exact Option.some.inj (h1.symm.trans h2)

end Sedaman.Props
