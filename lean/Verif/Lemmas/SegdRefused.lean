import Verif.Spec.SegdRefused
import Verif.Lemmas.SegdWriter
import Verif.Lemmas.SegdLayout
import Verif.Lemmas.File

/-! # Lemmas about SEG-D traces that are refused -/

namespace Sedaman

open Spec

theorem wr_bind_inv {α β : Type} {x : Wr α} {f : α → Wr β} {c : Cur} {r : β × Cur}
    (h : (x >>= f) c = .ok r) : ∃ a c', x c = .ok (a, c') ∧ f a c' = .ok r := by
  rw [wr_bind] at h
  obtain ⟨⟨a, c'⟩, h1, h2⟩ := bind_ok h
  exact ⟨a, c', h1, h2⟩

theorem wrLift_inv {α : Type} {x : Out α} {c : Cur} {r : α × Cur} (h : wrLift x c = .ok r) :
    x = .ok r.1 := by
  unfold wrLift at h
  obtain ⟨a, h1, h2⟩ := bind_ok h
  cases h2
  exact h1

theorem intOf_kind {h : Header} {n : String} {v : Int} {x : Value} (hi : intOf h n = .ok v)
    (hg : h.get n = some x) : SameKind (.int 0) x := by
  unfold intOf at hi
  rw [hg] at hi
  cases x with
  | int i => trivial
  | dbl d => cases hi

theorem intOfSet_kind {h : Header} {n : String} {v : Int} {x : Value} (hi : intOfSet h n = .ok v)
    (hg : h.get n = some x) : SameKind (.int 0) x := by
  unfold intOfSet at hi
  rw [hg] at hi
  cases x with
  | int i => trivial
  | dbl d => cases hi

theorem scaledOf_kind {h : Header} {n : String} {v : Dbl} {x : Value} (hi : scaledOf h n = .ok v)
    (hg : h.get n = some x) (d : Dbl) : SameKind (.dbl d) x := by
  unfold scaledOf at hi
  rw [hg] at hi
  cases x with
  | int i => cases hi
  | dbl d => trivial

/-- A header that can be written has values of the right kinds. -/
theorem hdr_kinds {h : Header} {b : Bytes} (hb : writeTraceHdrD h = .ok b) : ¬ WrongKindD h := by
  unfold writeTraceHdrD wrBlock at hb
  obtain ⟨⟨u, c⟩, h0, -⟩ := bind_ok hb
  unfold wrTraceHdr at h0
  obtain ⟨ffid, c1, e1, h0⟩ := wr_bind_inv h0
  obtain ⟨_, c2, -, h0⟩ := wr_bind_inv h0
  obtain ⟨scan, c3, e2, h0⟩ := wr_bind_inv h0
  obtain ⟨_, c4, -, h0⟩ := wr_bind_inv h0
  obtain ⟨chSet, c5, e3, h0⟩ := wr_bind_inv h0
  obtain ⟨_, c6, -, h0⟩ := wr_bind_inv h0
  obtain ⟨chan, c7, e4, h0⟩ := wr_bind_inv h0
  obtain ⟨_, c8, -, h0⟩ := wr_bind_inv h0
  obtain ⟨tim, c9, e5, h0⟩ := wr_bind_inv h0
  obtain ⟨_, c10, -, h0⟩ := wr_bind_inv h0
  obtain ⟨ext, c11, e6, h0⟩ := wr_bind_inv h0
  obtain ⟨_, c12, -, h0⟩ := wr_bind_inv h0
  obtain ⟨skew, c13, e7, h0⟩ := wr_bind_inv h0
  obtain ⟨_, c14, -, h0⟩ := wr_bind_inv h0
  obtain ⟨edit, c15, e8, h0⟩ := wr_bind_inv h0
  obtain ⟨_, c16, -, h0⟩ := wr_bind_inv h0
  obtain ⟨brk, c17, e9, h0⟩ := wr_bind_inv h0
  have e1 := wrLift_inv e1
  have e2 := wrLift_inv e2
  have e3 := wrLift_inv e3
  have e4 := wrLift_inv e4
  have e5 := wrLift_inv e5
  have e6 := wrLift_inv e6
  have e7 := wrLift_inv e7
  have e8 := wrLift_inv e8
  have e9 := wrLift_inv e9
  rintro ⟨p, hp, v, hg, hk⟩
  unfold stdTraceNames at hp
  simp only [List.mem_cons, List.not_mem_nil, or_false] at hp
  rcases hp with rfl | rfl | rfl | rfl | rfl | rfl | rfl | rfl | rfl
  · exact hk (intOf_kind e1 hg)
  · exact hk (intOf_kind e2 hg)
  · exact hk (intOfSet_kind e3 hg)
  · exact hk (intOf_kind e4 hg)
  · exact hk (scaledOf_kind e5 hg _)
  · exact hk (intOf_kind e6 hg)
  · exact hk (scaledOf_kind e7 hg _)
  · exact hk (intOf_kind e8 hg)
  · exact hk (scaledOf_kind e9 hg _)

/-- A trace with a value of the wrong kind is refused before anything is written. -/
theorem wrongKind_refused {H : Host} {t : Trace} (s : OSegd) (h : WrongKindD t.header) :
    ∃ e, writeTraceD H t s = (.error e, s) := by
  unfold writeTraceD
  by_cases hc : s.chansWritten = s.chansInRecord
  · rw [if_pos hc]; exact ⟨_, rfl⟩
  · rw [if_neg hc]
    cases hb : writeTraceHdrD t.header with
    | error e => exact ⟨e, rfl⟩
    | ok b => exact absurd h (hdr_kinds hb)

/-- Calls that are accepted or refused without a change: the writer is as if only the accepted ones had
been made. -/
theorem writeAll_kept {H : Host} : ∀ (ts : List Trace) (s : OSegd),
    (∀ t ∈ ts, (∃ bytes, Writable H s.args t bytes) ∨ WrongKindD t.header) →
    Spec.writeAll H (keptOf (Spec.writeAll H ts s).1 ts) s
      = (List.replicate (keptOf (Spec.writeAll H ts s).1 ts).length (.ok ()), (Spec.writeAll H ts s).2) := by
  intro ts
  induction ts with
  | nil => intro s _; rfl
  | cons t ts ih =>
    intro s hp
    have same : ∀ e, writeTraceD H t s = (.error e, s) →
        Spec.writeAll H (keptOf (Spec.writeAll H (t :: ts) s).1 (t :: ts)) s
          = (List.replicate (keptOf (Spec.writeAll H (t :: ts) s).1 (t :: ts)).length (.ok ()),
            (Spec.writeAll H (t :: ts) s).2) := by
      intro e he
      have hk := ih s (fun t' ht' => hp t' (List.mem_cons_of_mem _ ht'))
      have h1 : (Spec.writeAll H (t :: ts) s).1 = .error e :: (Spec.writeAll H ts s).1 := by
        simp only [Spec.writeAll, he]
      have h2 : (Spec.writeAll H (t :: ts) s).2 = (Spec.writeAll H ts s).2 := by
        simp only [Spec.writeAll, he]
      rw [h1, h2]
      exact hk
    rcases hp t List.mem_cons_self with ⟨bytes, hw⟩ | hw
    · by_cases hc : s.chansWritten = s.chansInRecord
      · exact same (.exn .allTracesWritten) (by unfold writeTraceD; rw [if_pos hc]; rfl)
      · obtain ⟨m, he⟩ := writeTraceD_writable hc hw
        generalize hs1 : ({ s with out := s.out ++ bytes, chansWritten := s.chansWritten + 1, mem := m } : OSegd)
          = s1 at he
        have hargs : s1.args = s.args := by rw [← hs1]
        have hk := ih s1 (fun t' ht' => by rw [hargs]; exact hp t' (List.mem_cons_of_mem _ ht'))
        have h1 : (Spec.writeAll H (t :: ts) s).1 = .ok () :: (Spec.writeAll H ts s1).1 := by
          simp only [Spec.writeAll, he]
        have h2 : (Spec.writeAll H (t :: ts) s).2 = (Spec.writeAll H ts s1).2 := by
          simp only [Spec.writeAll, he]
        rw [h1, h2]
        simp only [keptOf, Spec.writeAll, he, hk, List.length_cons, List.replicate_succ]
    · obtain ⟨e, he⟩ := wrongKind_refused (H := H) s hw
      exact same e he

theorem keptOf_mem : ∀ {rs : List (Out Unit)} {ts : List Trace} {t : Trace}, t ∈ keptOf rs ts → t ∈ ts := by
  intro rs
  induction rs with
  | nil => intro ts t h; cases h
  | cons r rs ih =>
    intro ts t h
    cases ts with
    | nil => cases r <;> cases h
    | cons a ts =>
      cases r with
      | error e => exact List.mem_cons_of_mem _ (ih h)
      | ok u =>
        rcases List.mem_cons.1 h with rfl | h
        · exact List.mem_cons_self
        · exact List.mem_cons_of_mem _ (ih h)

theorem keptOf_length : ∀ {rs : List (Out Unit)} {ts : List Trace}, rs.length = ts.length →
    (keptOf rs ts).length = accepted rs := by
  intro rs
  induction rs with
  | nil => intro ts h; rfl
  | cons r rs ih =>
    intro ts h
    cases ts with
    | nil => cases h
    | cons a ts =>
      have h' : rs.length = ts.length := Nat.succ.inj h
      cases r with
      | error e => simpa [keptOf, accepted] using ih h'
      | ok u =>
        have := ih h'
        unfold accepted at this ⊢
        simp only [keptOf, List.length_cons, this]
        rw [List.countP_cons_of_pos rfl]

theorem writeAll_length {H : Host} : ∀ (ts : List Trace) (s : OSegd), (Spec.writeAll H ts s).1.length = ts.length := by
  intro ts
  induction ts with
  | nil => intro s; rfl
  | cons t ts ih => intro s; simp only [Spec.writeAll, List.length_cons, ih]

/-- Accepted traces have values of the right kinds. -/
theorem kept_kinds {H : Host} : ∀ (ts : List Trace) (s : OSegd),
    ∀ t ∈ keptOf (Spec.writeAll H ts s).1 ts, ¬ WrongKindD t.header := by
  intro ts
  induction ts with
  | nil => intro s t ht; cases ht
  | cons a ts ih =>
    intro s t ht
    rcases he : writeTraceD H a s with ⟨e | u, s1⟩
    · have h1 : (Spec.writeAll H (a :: ts) s).1 = .error e :: (Spec.writeAll H ts s1).1 := by
        simp only [Spec.writeAll, he]
      rw [h1] at ht
      exact ih s1 t ht
    · have h1 : (Spec.writeAll H (a :: ts) s).1 = .ok u :: (Spec.writeAll H ts s1).1 := by
        simp only [Spec.writeAll, he]
      rw [h1] at ht
      rcases List.mem_cons.1 ht with rfl | ht
      · intro hw
        obtain ⟨e, he'⟩ := wrongKind_refused (H := H) s hw
        rw [he] at he'
        cases he'
      · exact ih s1 t ht

/-- What a failed call leaves: nothing, or at least the 20 bytes of a trace header. -/
theorem failed_leaves {H : Host} {t : Trace} {s s' : OSegd} {e : Err} (h : writeTraceD H t s = (.error e, s')) :
    (s' = s ∧ (s.chansWritten = s.chansInRecord ∨ ∃ e', writeTraceHdrD t.header = .error e')) ∨
    (s.chansWritten ≠ s.chansInRecord ∧ ∃ b ext, writeTraceHdrD t.header = .ok b ∧ s'.out = s.out ++ b ++ ext) := by
  unfold writeTraceD at h
  by_cases hc : s.chansWritten = s.chansInRecord
  · rw [if_pos hc] at h; cases h; exact .inl ⟨rfl, .inl hc⟩
  rw [if_neg hc] at h
  cases h1 : writeTraceHdrD t.header with
  | error e' => rw [h1] at h; cases h; exact .inl ⟨rfl, .inr ⟨_, rfl⟩⟩
  | ok b =>
    refine .inr ⟨hc, b, ?_⟩
    rw [h1] at h
    cases h2 : intOf t.header "TR_HDR_EXT" with
    | error e => simp only [h2] at h; cases h; exact ⟨[], rfl, by simp⟩
    | ok n =>
      rcases h3 : extIO H s.args t.header (toU 1 n) 0 with ⟨x, y | y⟩
      · simp only [h2, h3] at h; cases h; exact ⟨x, rfl, rfl⟩
      · cases h4 : writeSamplesOf H s.args t s.mem with
        | error z => simp only [h2, h3, h4] at h; cases h; exact ⟨x, rfl, rfl⟩
        | ok z => simp only [h2, h3, h4] at h; cases h

end Sedaman
