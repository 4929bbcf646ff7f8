import Verif.Lemmas.Pieces
import Verif.Lemmas.Copy
import Verif.Props.SegyCut

/-!
# C101: SEG-Y files can be cut between traces and put together from traces
-/

namespace Sedaman.Props

open Sedaman Spec

/-- **C101.** A file is read as the traces `ts` exactly when its bytes, from the first trace to the end of
the data, are pieces that on their own are read as these traces. The condition is a number of additional
headers that is not negative. -/
theorem C101_pieces (data : Bytes) (ub : Option BinHeader) (m : HdrMap) (r : Reader) (ts : List Trace)
    (ho : openReader data ub m = .ok r) (hmax : 0 ≤ r.bh.maxNumAddTrHeaders) :
    Visits r ts ↔ r.curr ≤ r.endData ∧ ∃ cs, List.Forall₂ (IsTrace r) cs ts ∧
      (data.drop r.curr).take (r.endData - r.curr) = cs.flatten := by
  have hi := inv_opened ho
  have he := endData_le ho
  obtain ⟨-, -, -, -, -, -, -, -, -, -, -, -, -, -, hcp, hd, -⟩ := openReader_ok ho
  refine ⟨visits_pieces hi hmax hcp he, fun ⟨hle, cs, h1, h2⟩ => ?_⟩
  have hlen : cs.flatten.length = r.endData - r.curr := by
    rw [← h2, List.length_take, List.length_drop]
    omega
  have hpl : (data.take r.curr).length = r.curr := by rw [List.length_take]; omega
  refine visits_opened hi h1 (data.take r.curr) (data.drop r.endData) ?_ (by rw [hpl, hcp]) hcp (by omega)
  rw [← h2]
  conv_lhs => rw [← List.take_append_drop r.curr data, ← List.take_append_drop (r.endData - r.curr) (data.drop r.curr),
    List.drop_drop]
  rw [show r.curr + (r.endData - r.curr) = r.endData by omega]

/-- **C101.** The headers of a file without trailer stanzas (the first trace lies behind them) and any
traces, taken from any files of the same header, one behind the other, are a file that opens with the same
headers and is read as these traces. -/
theorem C101_put_together (data : Bytes) (ub : Option BinHeader) (m : HdrMap) (r : Reader) (cs : List Bytes)
    (ts : List Trace) (ho : openReader data ub m = .ok r) (ht : r.bh.numOfTrailerStanza = 0)
    (hh : headersEnd r ≤ r.curr) (hl : r.curr ≤ data.length) (hc : List.Forall₂ (IsTrace r) cs ts) :
    ∃ s, openReader (data.take r.curr ++ cs.flatten) ub m = .ok s ∧ Visits s ts ∧ s.texts = r.texts ∧
      s.bh = r.bh := by
  obtain ⟨s, h1, h2, h3, h4, -⟩ := put_together ho ht hh hl hc
  exact ⟨s, h1, h2, h3, h4⟩

theorem forall2_append_right {α β : Type} {R : α → β → Prop} {l : List α} {k k' : List β}
    (h : List.Forall₂ R l (k ++ k')) : ∃ x y, List.Forall₂ R x k ∧ List.Forall₂ R y k' ∧ l = x ++ y := by
  induction k generalizing l with
  | nil => exact ⟨[], l, .nil, h, rfl⟩
  | cons b k ih =>
    cases h with
    | cons a h =>
      obtain ⟨x, y, h1, h2, rfl⟩ := ih h
      exact ⟨_ :: x, y, .cons a h1, h2, rfl⟩

/-- **C101, joining.** The bytes of the traces of one file put behind another file, whose binary header says
the same: the joined file opens with the headers of the first and is read as the traces of the first and
then those of the second. -/
theorem C101_join (a b : Bytes) (ub ub' : Option BinHeader) (m : HdrMap) (r s : Reader) (ts us : List Trace)
    (h1 : openReader a ub m = .ok r) (h2 : openReader b ub' m = .ok s) (hb : s.bh = r.bh) (hbo : s.bo = r.bo)
    (ht : r.bh.numOfTrailerStanza = 0) (hmax : 0 ≤ r.bh.maxNumAddTrHeaders) (hh : headersEnd r ≤ r.curr)
    (hv : Visits r ts) (hu : Visits s us) :
    ∃ q, openReader (a ++ b.drop s.curr) ub m = .ok q ∧ Visits q (ts ++ us) ∧ q.texts = r.texts ∧
      q.bh = r.bh := by
  have e1 := endData_of h1 ht
  have e2 := endData_of h2 (by rw [hb]; exact ht)
  obtain ⟨l1, cs, c1, c2⟩ := (C101_pieces a ub m r ts h1 hmax).1 hv
  obtain ⟨l2, ds, d1, d2⟩ := (C101_pieces b ub' m s us h2 (by rw [hb]; exact hmax)).1 hu
  rw [e1] at c2 l1
  rw [e2] at d2 l2
  rw [List.take_of_length_le (by rw [List.length_drop])] at c2 d2
  obtain ⟨q, q1, q2, q3, q4⟩ := C101_put_together a ub m r (cs ++ ds) (ts ++ us) h1 ht hh l1
    (List.rel_append c1 (isTrace_all (opened_alike h1 h2 hb hbo).symm d1))
  refine ⟨q, ?_, q2, q3, q4⟩
  rw [List.flatten_append, ← c2, ← d2, ← List.append_assoc, List.take_append_drop] at q1
  exact q1

/-- **C101, splitting.** A file of `ts` followed by `us` can be cut in two: its start is a file of `ts`, and
its headers followed by the rest are a file of `us`. -/
theorem C101_split (a : Bytes) (ub : Option BinHeader) (m : HdrMap) (r : Reader) (ts us : List Trace)
    (ho : openReader a ub m = .ok r) (ht : r.bh.numOfTrailerStanza = 0) (hmax : 0 ≤ r.bh.maxNumAddTrHeaders)
    (hh : headersEnd r ≤ r.curr) (hv : Visits r (ts ++ us)) :
    ∃ k p q, openReader (a.take k) ub m = .ok p ∧ Visits p ts ∧ p.texts = r.texts ∧ p.bh = r.bh ∧
      openReader (a.take r.curr ++ a.drop k) ub m = .ok q ∧ Visits q us ∧ q.texts = r.texts ∧ q.bh = r.bh := by
  have e1 := endData_of ho ht
  obtain ⟨l1, cs, c1, c2⟩ := (C101_pieces a ub m r _ ho hmax).1 hv
  rw [e1] at c2 l1
  rw [List.take_of_length_le (by rw [List.length_drop])] at c2
  obtain ⟨x, y, hx, hy, rfl⟩ := forall2_append_right c1
  obtain ⟨p, p1, p2, p3, p4⟩ := C101_put_together a ub m r x ts ho ht hh l1 hx
  obtain ⟨q, q1, q2, q3, q4⟩ := C101_put_together a ub m r y us ho ht hh l1 hy
  have ea : a = a.take r.curr ++ (x.flatten ++ y.flatten) := by
    rw [← List.flatten_append, ← c2, List.take_append_drop]
  have hlen : (a.take r.curr ++ x.flatten).length = r.curr + x.flatten.length := by
    rw [List.length_append, List.length_take]; omega
  refine ⟨r.curr + x.flatten.length, p, q, ?_, p2, p3, p4, ?_, q2, q3, q4⟩
  · rw [← p1]
    congr 1
    conv_lhs => rw [ea, ← List.append_assoc, ← hlen]
    exact List.take_left
  · rw [← q1]
    congr 2
    conv_lhs => rw [ea, ← List.append_assoc, ← hlen]
    exact List.drop_left

/-- **C101, choosing.** Whatever traces of a file one wants, in whatever order, as often as one likes: there
is a file with the same headers that is read as just these. -/
theorem C101_choose (a : Bytes) (ub : Option BinHeader) (m : HdrMap) (r : Reader) (ts us : List Trace)
    (ho : openReader a ub m = .ok r) (ht : r.bh.numOfTrailerStanza = 0) (hmax : 0 ≤ r.bh.maxNumAddTrHeaders)
    (hh : headersEnd r ≤ r.curr) (hv : Visits r ts) (hu : ∀ u ∈ us, u ∈ ts) :
    ∃ b q, b.take r.curr = a.take r.curr ∧ openReader b ub m = .ok q ∧ Visits q us ∧ q.texts = r.texts ∧
      q.bh = r.bh := by
  have e1 := endData_of ho ht
  obtain ⟨l1, cs, c1, -⟩ := (C101_pieces a ub m r _ ho hmax).1 hv
  rw [e1] at l1
  have hx : ∃ ds, List.Forall₂ (fun u d => IsTrace r d u) us ds :=
    forall2_of_exists fun u h => by
      obtain ⟨c, -, hc⟩ := forall₂_mem_right c1 (hu u h)
      exact ⟨c, hc⟩
  obtain ⟨ds, hds⟩ := hx
  obtain ⟨q, q1, q2, q3, q4⟩ := C101_put_together a ub m r ds us ho ht hh l1 hds.flip
  refine ⟨_, q, ?_, q1, q2, q3, q4⟩
  rw [List.take_append_of_le_length (by rw [List.length_take]; omega), List.take_take, Nat.min_self]

/-- A file of traces of any length (one of two samples). -/
def exPartA : Bytes := exFile exRev1 (exBlock 7 2 ++ [0, 1, 0, 2])

/-- Another one with the same binary header (one trace of one sample). -/
def exPartB : Bytes := exFile exRev1 (exBlock 8 1 ++ [0, 3])

/-- The two files open with the same header and byte order, have no trailer stanzas and no additional headers,
their first traces lie behind the headers, and each loop ends after one trace; the joined file is read as both
traces. -/
example : (do
      let r ← openReader exPartA none exMap
      let s ← openReader exPartB none exMap
      let (t, r1) ← readTrace r
      let (u, s1) ← readTrace s
      let q ← openReader (exPartA ++ exPartB.drop s.curr) none exMap
      let (t', q1) ← readTrace q
      let (u', q2) ← readTrace q1
      pure [decide (s.bh = r.bh), decide (s.bo = r.bo), decide (r.bh.numOfTrailerStanza = 0),
        decide (0 ≤ r.bh.maxNumAddTrHeaders), decide (headersEnd r ≤ r.curr), hasTrace r, hasTrace s,
        !hasTrace r1, !hasTrace s1, decide (t' = t), decide (u' = u), hasTrace q1, !hasTrace q2,
        decide (t.samples.length = 2), decide (u.samples.length = 1)]) =
    (Except.ok (List.replicate 15 true) : Out (List Bool)) := by decide +kernel

/-- **C101 fails with trailer stanzas.** The same two traces in files that end with a trailer stanza and
announce one trace: the traces of the second file put behind the first are not found. If both traces
are put in front of the stanza, the file does not open. -/
theorem C101_trailers_lost :
    let h : BinHeader := { exRev1 with revMajor := 2, numOfTrailerStanza := -1, numOfTrInFile := 1 }
    let a := exBlock 7 2 ++ [0, 1, 0, 2]
    let b := exBlock 8 1 ++ [0, 3]
    (do let r ← openReader (exFile h (a ++ exLast ++ b ++ exLast)) none exMap
        let (t, r) ← readTrace r
        pure (t.samples.length, hasTrace r)) = (Except.ok (2, false) : Out (Nat × Bool)) ∧
    (openReader (exFile h (a ++ b ++ exLast)) none exMap).isOk = false := by
  refine ⟨by decide +kernel, by decide +kernel⟩

end Sedaman.Props
