import Verif.Spec.SegdIO
import Verif.Lemmas.SegdCur

/-! # Lemmas about the SEG-D writer -/

namespace Sedaman

open Spec

theorem totalChannels_eq (sets : List (List ChSet)) : totalChannels sets = announced sets := by
  unfold totalChannels announced
  induction sets with
  | nil => rfl
  | cons l t ih => simp [List.sum_append, ih]

theorem openSegdWriter_counts {H : Host} {heap : Nat} {a : OSegdArgs} {s : OSegd}
    (h : openSegdWriter H heap a = .ok s) :
    s.args = a ∧ s.chansWritten = 0 ∧ s.chansInRecord = (heap + announced a.chSets) % 2 ^ 64 := by
  unfold openSegdWriter at h
  cases h1 : storeAdd a.addHdrs [] with
  | error e => rw [h1] at h; cases h
  | ok m =>
    rw [h1] at h
    by_cases hc : a.chSets.length ≠ toU 8 a.gh1.scanTypesPerRecord
    · change (if _ then _ else _) = _ at h
      rw [if_pos hc] at h; cases h
    · change (if _ then _ else _) = _ at h
      rw [if_neg hc] at h
      cases h2 : writeHeaders H a m with
      | error e => rw [h2] at h; cases h
      | ok out =>
        rw [h2] at h
        cases h
        exact ⟨rfl, rfl, by rw [totalChannels_eq]⟩

theorem extIO_ok {H : Host} {a : OSegdArgs} {h : Header} : ∀ {n i : Nat} {e : Bytes},
    writeExtLoop H.est H.room a.gh2.segdRevMajor a.extMap h n i = .ok e →
    extIO H a h n i = (e, .ok ()) := by
  intro n
  induction n with
  | zero => intro i e he; cases he; rfl
  | succ n ih =>
    intro i e he
    unfold writeExtLoop at he
    unfold extIO
    cases h1 : writeExtBlock H.est H.room a.gh2.segdRevMajor a.extMap h i with
    | error x => rw [h1] at he; cases he
    | ok b =>
      rw [h1] at he
      cases h2 : writeExtLoop H.est H.room a.gh2.segdRevMajor a.extMap h n (i + 1) with
      | error x =>
        change (writeExtLoop H.est H.room a.gh2.segdRevMajor a.extMap h n (i + 1) >>= _) = _ at he
        rw [h2] at he; cases he
      | ok o =>
        change (writeExtLoop H.est H.room a.gh2.segdRevMajor a.extMap h n (i + 1) >>= _) = _ at he
        rw [h2] at he
        cases he
        simp only [ih h2]

theorem writeExt_ok {H : Host} {a : OSegdArgs} {h : Header} {e : Bytes}
    (he : writeExt H.est H.room a.gh2.segdRevMajor a.extMap h = .ok e) :
    ∃ n, intOf h "TR_HDR_EXT" = .ok n ∧ extIO H a h (toU 1 n) 0 = (e, .ok ()) := by
  unfold writeExt at he
  cases h1 : intOf h "TR_HDR_EXT" with
  | error x => rw [h1] at he; cases he
  | ok n => rw [h1] at he; exact ⟨n, rfl, extIO_ok he⟩

/-- What one call can do: throw at the limit, fail without being counted, or be counted. -/
theorem writeTraceD_cases (H : Host) (t : Trace) (s : OSegd) :
    (s.chansWritten = s.chansInRecord ∧ writeTraceD H t s = (throwExn .allTracesWritten, s)) ∨
    (s.chansWritten ≠ s.chansInRecord ∧ (∃ e, (writeTraceD H t s).1 = .error e) ∧
      (writeTraceD H t s).2.chansWritten = s.chansWritten ∧
      (writeTraceD H t s).2.chansInRecord = s.chansInRecord ∧
      (writeTraceD H t s).2.args = s.args ∧
      ∃ b, (writeTraceD H t s).2.out = s.out ++ b) ∨
    (s.chansWritten ≠ s.chansInRecord ∧ (writeTraceD H t s).1 = .ok () ∧
      (writeTraceD H t s).2.chansWritten = s.chansWritten + 1 ∧
      (writeTraceD H t s).2.chansInRecord = s.chansInRecord ∧
      (writeTraceD H t s).2.args = s.args ∧
      ∃ b, (writeTraceD H t s).2.out = s.out ++ b) := by
  by_cases h : s.chansWritten = s.chansInRecord
  · exact .inl ⟨h, by unfold writeTraceD; rw [if_pos h]⟩
  right
  unfold writeTraceD
  rw [if_neg h]
  cases h1 : writeTraceHdrD t.header with
  | error e => exact .inl ⟨h, ⟨e, rfl⟩, rfl, rfl, rfl, [], by simp⟩
  | ok b =>
    cases h2 : intOf t.header "TR_HDR_EXT" with
    | error e => exact .inl ⟨h, ⟨e, rfl⟩, rfl, rfl, rfl, b, rfl⟩
    | ok n =>
      rcases h3 : extIO H s.args t.header (toU 1 n) 0 with ⟨e, _ | _⟩
      · exact .inl (by simp [h, h3])
      · cases h4 : writeSamplesOf H s.args t s.mem with
        | error x => exact .inl (by simp [h, h3])
        | ok x => exact .inr (by simp [h, h3])

theorem writeTraceD_writable {H : Host} {t : Trace} {s : OSegd} {bytes : Bytes}
    (h : s.chansWritten ≠ s.chansInRecord) (hw : Writable H s.args t bytes) :
    ∃ m, writeTraceD H t s = (.ok (), { s with out := s.out ++ bytes
                                               chansWritten := s.chansWritten + 1
                                               mem := m }) := by
  obtain ⟨b, e, x, h1, h2, h3, rfl⟩ := hw
  obtain ⟨n, h4, h5⟩ := writeExt_ok h2
  obtain ⟨m', h6⟩ := h3 s.mem
  refine ⟨m', ?_⟩
  unfold writeTraceD
  rw [if_neg h, h1]
  simp only [h4, h5, h6, List.append_assoc]

/-- The counter after any number of calls. -/
theorem writeAll_counts (H : Host) : ∀ (ts : List Trace) (s : OSegd),
    s.chansWritten ≤ s.chansInRecord →
    (writeAll H ts s).2.chansInRecord = s.chansInRecord ∧
    (writeAll H ts s).2.args = s.args ∧
    (writeAll H ts s).2.chansWritten = s.chansWritten + accepted (writeAll H ts s).1 ∧
    (writeAll H ts s).2.chansWritten ≤ s.chansInRecord := by
  intro ts
  induction ts with
  | nil => intro s hs; exact ⟨rfl, rfl, rfl, hs⟩
  | cons t ts ih =>
    intro s hs
    have hw : writeAll H (t :: ts) s = ((writeTraceD H t s).1 ::
        (writeAll H ts (writeTraceD H t s).2).1, (writeAll H ts (writeTraceD H t s).2).2) := rfl
    rw [hw]
    rcases writeTraceD_cases H t s with ⟨h1, h2⟩ | ⟨h1, ⟨e, he⟩, h3, h4, h5, -⟩ |
        ⟨h1, h2, h3, h4, h5, -⟩
    · rw [h2]
      obtain ⟨a, b, c, d⟩ := ih s hs
      exact ⟨a, b, by rw [c]; simp [accepted, throwExn], d⟩
    · obtain ⟨a, b, c, d⟩ := ih (writeTraceD H t s).2 (by omega)
      refine ⟨a.trans h4, b.trans h5, ?_, d.trans_eq h4⟩
      simp only [c, h3, he]
      simp [accepted]
    · obtain ⟨a, b, c, d⟩ := ih (writeTraceD H t s).2 (by omega)
      refine ⟨a.trans h4, b.trans h5, ?_, d.trans_eq h4⟩
      simp only [c, h3, h2]
      simp [accepted]; omega

end Sedaman
