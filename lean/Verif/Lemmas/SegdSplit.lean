import Verif.Lemmas.SegdJoin
import Verif.Spec.SegdSplit

/-!
# SEG-D files cut into records
-/

namespace Sedaman

open Spec Props

/-- From byte `p` and `q` on the files of the two readers are the same, and both readers are at the same place
in the same record. -/
structure Abreast (p q : Nat) (s f : ISegd) : Prop extends Sim p q s f where
  len : f.file.data.length + p = q + s.file.data.length
  rev : f.gh2.segdRevMajor = s.gh2.segdRevMajor
  extMap : f.extMap = s.extMap
  chansRead : f.chansRead = s.chansRead

variable {p q : Nat} {pw : Dbl → Dbl}

theorem Abreast.posEq {s f : ISegd} (h : Abreast p q s f) : f.file.pos + p = q + s.file.pos := by
  obtain ⟨n, h1, h2⟩ := h.pos
  omega

theorem Abreast.le {s f : ISegd} (h : Abreast p q s f) : p ≤ s.file.pos := by
  obtain ⟨n, h1, h2⟩ := h.pos
  omega

theorem Abreast.hasTrace {s f : ISegd} (h : Abreast p q s f) : f.hasTrace = s.hasTrace := by
  unfold ISegd.hasTrace
  rw [h.chansIn, h.chansRead]

theorem Abreast.hasRecord {s f : ISegd} (h : Abreast p q s f) : f.hasRecord = s.hasRecord := by
  have h1 := h.posEq
  have h2 := h.len
  exact decide_eq_decide.2 ⟨fun h => by omega, fun h => by omega⟩

theorem Abreast.own {s f : ISegd} (h : Abreast p q s f) (ho : OnItsOwn s) : OnItsOwn f :=
  ⟨by rw [h.gh1]; exact ho.gh2, by rw [h.gh1, h.rev]; exact ho.skew, by rw [h.gh1]; exact ho.scans⟩

theorem Abreast.at {s f : ISegd} (h : Abreast p q s f) (n : Nat) :
    Abreast p q (s.at (p + n)) (f.at (q + n)) :=
  ⟨⟨h.data, ⟨n, rfl, rfl⟩, h.gh1, h.chSets, h.chansIn⟩, h.len, h.rev, h.extMap, h.chansRead⟩

theorem onRest_abreast {α : Type} {s f s' : ISegd} {r : Rd α} {a : α} (h : Abreast p q s f)
    (e : s.onRest r = .ok (a, s')) :
    ∃ n, f.onRest r = .ok (a, f.at (q + n)) ∧ s' = s.at (p + n) := by
  rw [onRest_eq] at e ⊢
  rw [h.rest]
  cases e1 : r (s.file.data.drop s.file.pos) with
  | error x => rw [e1] at e; cases e
  | ok y =>
    obtain ⟨a', rest⟩ := y
    rw [e1] at e
    cases e
    obtain ⟨n, h1, h2⟩ := h.pos
    exact ⟨n + ((s.file.data.drop s.file.pos).length - rest.length), by
      simp only [h2, Nat.add_assoc], by simp only [h1, Nat.add_assoc]⟩

theorem body_abreast {s f s' : ISegd} {t : Trace} (h : Abreast p q s f)
    (e : readTraceBody pw s = .ok (t, s')) :
    ∃ n, readTraceBody pw f = .ok (t, f.at (q + n)) ∧ s' = s.at (p + n) := by
  obtain ⟨⟨b, s1⟩, h1, k⟩ := bind_ok e
  obtain ⟨⟨hd, r⟩, h2, k2⟩ := bind_ok k
  obtain ⟨⟨hd2, s2⟩, h3, k3⟩ := bind_ok k2
  obtain ⟨⟨c, hd3⟩, h4, k4⟩ := bind_ok k3
  obtain ⟨n, h5, k5⟩ := bind_ok k4
  obtain ⟨⟨xs, s3⟩, h6, k6⟩ := bind_ok k5
  obtain ⟨e1, rfl⟩ := fill_sim h.toSim h1
  obtain ⟨n0, g1, g2⟩ := h.pos
  have b1 := h.at (n0 + 20)
  have hp : q + (n0 + 20) = f.file.pos + 20 := by omega
  have hp' : p + (n0 + 20) = s.file.pos + 20 := by omega
  rw [hp, hp'] at b1
  obtain ⟨n1, e3, es2⟩ := onRest_abreast b1 h3
  have b2 := b1.at n1
  rw [← es2] at b2
  obtain ⟨n2, e6, es3⟩ := onRest_abreast b2 h6
  have hset : ((f.at (f.file.pos + 20)).at (q + n1)).chSetOf hd2 = .ok (c, hd3) := by
    rw [← h4]
    unfold ISegd.chSetOf
    rw [b2.chSets]
  refine ⟨n2, ?_, ?_⟩
  · unfold readTraceBody
    rw [e1, ok_bind]
    simp only
    rw [h2, ok_bind]
    simp only
    rw [b1.rev, b1.extMap, e3, ok_bind]
    simp only
    rw [hset, ok_bind]
    simp only
    rw [h5, ok_bind, b2.gh1, e6, ok_bind]
    cases k6
    rfl
  · cases k6
    rw [es3, es2]
    rfl

theorem headers_abreast {s f s' : ISegd} (hd : f.file.data.drop q = s.file.data.drop p)
    (hp : ∃ n, s.file.pos = p + n ∧ f.file.pos = q + n) (hc : f.chSets = s.chSets) (hn : f.chansIn = s.chansIn)
    (hr : f.chansRead = s.chansRead) (hm : f.extMap = s.extMap)
    (hl : f.file.data.length + p = q + s.file.data.length) (h : readHeaders s = .ok s') (ho : OnItsOwn s') :
    ∃ f', readHeaders f = .ok f' ∧ Abreast p q s' f' := by
  have hsim : Sim p q s { f with gh1 := s.gh1 } := ⟨hd, hp, rfl, hc, hn⟩
  obtain ⟨f', e, gs, -, -, e3, e4⟩ := readHeaders_sim hsim (Q := fun _ _ => True) (fun _ _ _ _ _ => trivial)
    trivial h ho.gh2 ho.skew
  obtain ⟨a1, a2, a3, -⟩ := readHeaders_ok h
  obtain ⟨b1, b2, b3, -⟩ := readHeaders_ok e
  refine ⟨f', (readHeaders_gh1 f s.gh1).trans e, gs.toSim, ?_, ?_, ?_, ?_⟩
  · rw [b1, a1]; exact hl
  · rw [gs.gh2]; split <;> rfl
  · rw [b2, a2]; exact hm
  · rw [b3, a3]; exact hr

theorem trace_abreast {s f s' : ISegd} {t : Trace} (h : Abreast p q s f)
    (e : readTraceD pw s = .ok (t, s')) (ho : OnItsOwn s') :
    ∃ f', readTraceD pw f = .ok (t, f') ∧ Abreast p q s' f' := by
  obtain ⟨pos, hb, -, hc⟩ := readTraceD_cases e
  obtain ⟨n, hbf, hat'⟩ := body_abreast h hb
  have hat := h.at n
  have hpos : pos = p + n := congrArg (fun s : ISegd => s.file.pos) hat'
  subst hpos
  have hlen := h.len
  rcases hc with ⟨c1, rfl⟩ | ⟨c1, c2, rfl⟩ | ⟨c1, c2, c3⟩
  · refine ⟨{ f.at (q + n) with chansRead := f.chansRead + 1 }, ?_, ?_⟩
    · unfold readTraceD ISegd.advance
      rw [hbf, ok_bind]
      simp only
      rw [if_neg (show ¬ (f.at (q + n)).chansIn = (f.at (q + n)).chansRead + 1 by
        change ¬ f.chansIn = f.chansRead + 1
        rw [h.chansIn, h.chansRead]
        exact c1)]
      rfl
    · exact ⟨⟨hat.data, hat.pos, hat.gh1, hat.chSets, hat.chansIn⟩, hat.len, hat.rev, hat.extMap,
        by change f.chansRead + 1 = s.chansRead + 1; rw [h.chansRead]⟩
  · refine ⟨{ f.at (q + n) with chansIn := 0, chansRead := 0, chSets := [] }, ?_, ?_⟩
    · unfold readTraceD ISegd.advance
      rw [hbf, ok_bind]
      simp only
      rw [if_pos (show (f.at (q + n)).chansIn = (f.at (q + n)).chansRead + 1 by
        change f.chansIn = f.chansRead + 1
        rw [h.chansIn, h.chansRead]
        exact c1)]
      have : ISegd.hasRecord { f.at (q + n) with chansIn := 0, chansRead := 0, chSets := [] } = false := by
        refine decide_eq_false (not_not_intro ?_)
        change q + n = f.file.data.length
        omega
      rw [if_neg (by rw [this]; decide)]
      rfl
    · exact ⟨⟨hat.data, hat.pos, hat.gh1, rfl, rfl⟩, hat.len, hat.rev, hat.extMap, rfl⟩
  · obtain ⟨f', e1, e2⟩ := headers_abreast (p := p) (q := q)
      (s := { s.at (p + n) with chansIn := 0, chansRead := 0, chSets := [] })
      (f := { f.at (q + n) with chansIn := 0, chansRead := 0, chSets := [] })
      hat.data ⟨n, rfl, rfl⟩ rfl rfl rfl hat.extMap hat.len c3 ho
    refine ⟨f', ?_, e2⟩
    unfold readTraceD ISegd.advance
    rw [hbf, ok_bind]
    simp only
    rw [if_pos (show (f.at (q + n)).chansIn = (f.at (q + n)).chansRead + 1 by
      change f.chansIn = f.chansRead + 1
      rw [h.chansIn, h.chansRead]
      exact c1)]
    have : ISegd.hasRecord { f.at (q + n) with chansIn := 0, chansRead := 0, chSets := [] } = true := by
      refine decide_eq_true ?_
      change q + n ≠ f.file.data.length
      omega
    rw [if_pos this, e1]
    rfl

theorem readsAll_abreast {ts : List Trace} : ∀ {s f : ISegd}, Abreast p q s f →
    ReadsAll pw s ts → ReadsAll pw f ts := by
  induction ts with
  | nil =>
    intro s f h ⟨h1, h2, h3, h4⟩
    exact ⟨h.own h1, by rw [h.hasTrace]; exact h2, by rw [h.hasRecord]; exact h3, by rw [h.chSets]; exact h4⟩
  | cons t ts ih =>
    intro s f h ⟨h1, h2, s1, h3, h4⟩
    obtain ⟨f1, e1, e2⟩ := trace_abreast h h3 (readsAll_own h4)
    exact ⟨h.own h1, by rw [h.hasTrace]; exact h2, f1, e1, ih e2 h4⟩

/-- What the reader has not read yet of the current record, and the records behind it. -/
theorem readsAll_first {m : ExtMap} {ts : List Trace} : ∀ {s : ISegd}, ts ≠ [] → s.extMap = m →
    ReadsAll pw s ts →
    ∃ ts1 ts2 b, ts = ts1 ++ ts2 ∧ ts1 ≠ [] ∧ s.file.pos ≤ b ∧ b ≤ s.file.data.length ∧
      s.chansRead + ts1.length = s.chansIn ∧ ReadsAll pw (s.on (s.file.data.take b)) ts1 ∧
      (ts2 = [] ∧ b = s.file.data.length ∨ GivesTraces pw m (s.file.data.drop b) ts2) := by
  induction ts with
  | nil => intro s h; exact absurd rfl h
  | cons t ts ih =>
    intro s _ hm ⟨ho, ht, s1, h3, h4⟩
    have hown : ∀ d, OnItsOwn (s.on d) := fun d => ⟨ho.gh2, ho.skew, ho.scans⟩
    obtain ⟨pos, hb, hpos, hc⟩ := readTraceD_cases h3
    -- the last trace of the record, which ends at `pos`
    have last : s.chansIn = s.chansRead + 1 → pos ≤ s.file.data.length →
        ReadsAll pw (s.on (s.file.data.take pos)) [t] := by
      intro c1 hle
      have hbf := (loc_body (s.file.data.take pos) pw s _ hb).2.2 (SameTo.inside (n := pos) (by
        change List.take pos (List.take pos s.file.data) = List.take pos s.file.data
        rw [List.take_take, Nat.min_self]) _)
      have hbf : readTraceBody pw (s.on (s.file.data.take pos)) = .ok (t, (s.at pos).on (s.file.data.take pos)) :=
        hbf
      have hno : ISegd.hasRecord { (s.at pos).on (s.file.data.take pos) with
          chansIn := 0, chansRead := 0, chSets := [] } = false := by
        refine decide_eq_false (not_not_intro ?_)
        change pos = (s.file.data.take pos).length
        rw [List.length_take, Nat.min_eq_left hle]
      refine ⟨hown _, ht, { (s.at pos).on (s.file.data.take pos) with chansIn := 0, chansRead := 0, chSets := [] },
        ?_, ⟨ho.gh2, ho.skew, ho.scans⟩, rfl, hno, rfl⟩
      unfold readTraceD ISegd.advance
      rw [hbf, ok_bind]
      simp only
      rw [if_pos (show ((s.at pos).on (s.file.data.take pos)).chansIn =
        ((s.at pos).on (s.file.data.take pos)).chansRead + 1 from c1), if_neg (by rw [hno]; decide)]
      rfl
    rcases hc with ⟨c1, rfl⟩ | ⟨c1, c2, rfl⟩ | ⟨c1, c2, c3⟩
    · have hne : ts ≠ [] := by
        rintro rfl
        have := of_decide_eq_false h4.2.1
        exact c1 (Decidable.not_not.1 this)
      obtain ⟨ts1, ts2, b, r1, r2, r3, r4, r5, r6, r7⟩ :=
        ih (s := { s.at pos with chansRead := s.chansRead + 1 }) hne hm h4
      have r3 : pos ≤ b := r3
      have r4 : b ≤ s.file.data.length := r4
      have r5 : s.chansRead + 1 + ts1.length = s.chansIn := r5
      refine ⟨t :: ts1, ts2, b, by rw [r1]; rfl, by simp, by omega, r4, by simp only [List.length_cons]; omega, ?_, r7⟩
      refine ⟨hown _, ht, _, readTraceD_on h3 (s.file.data.take b) (.inl (Nat.succ_ne_zero _)) ?_, r6⟩
      change List.take pos (List.take b s.file.data) = List.take pos s.file.data
      rw [List.take_take, Nat.min_eq_left r3]
    · have hts : ts = [] := by
        cases ts with
        | nil => rfl
        | cons t2 ts =>
          have : 0 ≠ 0 := of_decide_eq_true h4.2.1
          exact absurd rfl this
      subst hts
      exact ⟨[t], [], pos, rfl, by simp, by omega, by omega, by simp only [List.length_singleton]; omega,
        last c1 (by omega), .inl ⟨rfl, c2⟩⟩
    · have hroom : pos + 32 ≤ s.file.data.length := readHeaders_room c3
      have hne : ts ≠ [] := by
        rintro rfl
        obtain ⟨g1, g2, g3, g4⟩ := h4
        obtain ⟨-, -, -, -, -, new, n1, -, n3⟩ := readHeaders_ok c3
        have n1 : s1.chSets = [] ++ new := n1
        rw [g4, List.nil_append] at n1
        rw [← n1] at n3
        have := g1.scans
        simp only [List.length_nil] at n3
        omega
      obtain ⟨f', e1, e2⟩ := headers_abreast (p := pos) (q := 0)
        (s := { s.at pos with chansIn := 0, chansRead := 0, chSets := [] })
        (f := ISegd.init (s.file.data.drop pos) m) rfl ⟨0, rfl, rfl⟩ rfl rfl rfl hm.symm
        (by
          change (s.file.data.drop pos).length + pos = 0 + s.file.data.length
          rw [List.length_drop]
          omega) c3 (readsAll_own h4)
      exact ⟨[t], ts, pos, rfl, by simp, by omega, by omega, by simp only [List.length_singleton]; omega,
        last c1 (by omega), .inr ⟨hne, f', e1, readsAll_abreast e2 h4⟩⟩

/-- The first record of a file and the others. -/
theorem gives_first {m : ExtMap} {data : Bytes} {ts : List Trace} (h : GivesTraces pw m data ts) :
    ∃ d1 d2 ts1 ts2, data = d1 ++ d2 ∧ ts = ts1 ++ ts2 ∧ ts1 ≠ [] ∧ GivesRecord pw m d1 ts1 ∧
      (d2 = [] ∧ ts2 = [] ∨ GivesTraces pw m d2 ts2) := by
  obtain ⟨hne, s, ho, hr⟩ := h
  obtain ⟨a1, a2, a3, -, -, new, a4, a5, -⟩ := readHeaders_ok ho
  have a1 : s.file.data = data := a1
  have a3 : s.chansRead = 0 := a3
  have a4 : s.chSets = new := a4
  have a5 : s.chansIn = 0 + announced new := a5
  obtain ⟨ts1, ts2, b, r1, r2, r3, r4, r5, r6, r7⟩ := readsAll_first hne a2 hr
  rw [a1] at r4 r6 r7
  have hopen : openSegd (data.take b) m = .ok (s.on (data.take b)) := by
    refine (loc_headers (data.take b) (ISegd.init data m) s ho).2.2 (SameTo.inside (n := s.file.pos) ?_ _)
    change List.take s.file.pos (List.take b data) = List.take s.file.pos data
    rw [List.take_take, Nat.min_eq_left r3]
  refine ⟨data.take b, data.drop b, ts1, ts2, (List.take_append_drop ..).symm, r1, r2,
    ⟨⟨r2, _, hopen, r6⟩, _, hopen, ?_⟩, ?_⟩
  · change ts1.length = announced s.chSets
    rw [a4]
    omega
  · rcases r7 with ⟨h1, h2⟩ | h
    · exact .inl ⟨by rw [h2, List.drop_length], h1⟩
    · exact .inr h

end Sedaman
