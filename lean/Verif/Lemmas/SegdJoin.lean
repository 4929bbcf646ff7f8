import Verif.Lemmas.SegdLocal
import Verif.Lemmas.SegdE2E2
import Verif.Props.SegdRecord
import Verif.Spec.SegdJoin

/-!
# SEG-D files joined one behind the other
-/

namespace Sedaman

open Spec Props

/-- The file of `f` is that of `s` behind `q` other bytes, and both readers are at the same place in the same
record. -/
structure Beside (q : Nat) (s f : ISegd) : Prop extends Sim 0 q s f where
  len : f.file.data.length = q + s.file.data.length
  rev : f.gh2.segdRevMajor = s.gh2.segdRevMajor
  extMap : f.extMap = s.extMap
  chansRead : f.chansRead = s.chansRead

theorem Beside.posEq {q : Nat} {s f : ISegd} (h : Beside q s f) : f.file.pos = q + s.file.pos := by
  obtain ⟨n, h1, h2⟩ := h.pos
  rw [h1, h2, Nat.zero_add]

theorem Beside.hasTrace {q : Nat} {s f : ISegd} (h : Beside q s f) : f.hasTrace = s.hasTrace := by
  unfold ISegd.hasTrace
  rw [h.chansIn, h.chansRead]

theorem Beside.hasRecord {q : Nat} {s f : ISegd} (h : Beside q s f) : f.hasRecord = s.hasRecord := by
  unfold ISegd.hasRecord
  rw [h.posEq, h.len]
  exact decide_eq_decide.2 ⟨fun h => by omega, fun h => by omega⟩

theorem Beside.own {q : Nat} {s f : ISegd} (h : Beside q s f) (ho : OnItsOwn s) : OnItsOwn f :=
  ⟨by rw [h.gh1]; exact ho.gh2, by rw [h.gh1, h.rev]; exact ho.skew, by rw [h.gh1]; exact ho.scans⟩

theorem Beside.at {q : Nat} {s f : ISegd} (h : Beside q s f) (n : Nat) :
    Beside q (s.at n) (f.at (q + n)) :=
  ⟨⟨h.data, ⟨n, (Nat.zero_add _).symm, rfl⟩, h.gh1, h.chSets, h.chansIn⟩, h.len, h.rev, h.extMap, h.chansRead⟩

theorem onRest_beside {α : Type} {q : Nat} {s f s' : ISegd} {r : Rd α} {a : α} (h : Beside q s f)
    (e : s.onRest r = .ok (a, s')) :
    f.onRest r = .ok (a, f.at (q + s'.file.pos)) ∧ s' = s.at s'.file.pos := by
  rw [onRest_eq] at e ⊢
  rw [h.rest]
  cases e1 : r (s.file.data.drop s.file.pos) with
  | error x => rw [e1] at e; cases e
  | ok y =>
    obtain ⟨a', rest⟩ := y
    rw [e1] at e
    cases e
    refine ⟨?_, rfl⟩
    simp only [ISegd.at, h.posEq, Nat.add_assoc]

theorem body_beside {q : Nat} {pw : Dbl → Dbl} {s f s' : ISegd} {t : Trace} (h : Beside q s f)
    (e : readTraceBody pw s = .ok (t, s')) : readTraceBody pw f = .ok (t, f.at (q + s'.file.pos)) := by
  obtain ⟨⟨b, s1⟩, h1, k⟩ := bind_ok e
  obtain ⟨⟨hd, r⟩, h2, k2⟩ := bind_ok k
  obtain ⟨⟨hd2, s2⟩, h3, k3⟩ := bind_ok k2
  obtain ⟨⟨c, hd3⟩, h4, k4⟩ := bind_ok k3
  obtain ⟨n, h5, k5⟩ := bind_ok k4
  obtain ⟨⟨xs, s3⟩, h6, k6⟩ := bind_ok k5
  obtain ⟨e1, rfl⟩ := fill_sim h.toSim h1
  have b1 := h.at (s.file.pos + 20)
  have hp : q + (s.file.pos + 20) = f.file.pos + 20 := by rw [h.posEq, Nat.add_assoc]
  rw [hp] at b1
  obtain ⟨e3, es2⟩ := onRest_beside b1 h3
  have b2 := b1.at s2.file.pos
  rw [← es2] at b2
  obtain ⟨e6, es3⟩ := onRest_beside b2 h6
  have hset : ((f.at (f.file.pos + 20)).at (q + s2.file.pos)).chSetOf hd2 = .ok (c, hd3) := by
    rw [← h4]
    unfold ISegd.chSetOf
    rw [b2.chSets]
  unfold readTraceBody
  rw [e1, ok_bind]
  simp only
  rw [h2, ok_bind]
  simp only
  rw [b1.rev, b1.extMap, e3, ok_bind]
  simp only
  rw [hset, ok_bind]
  simp only
  rw [h5, ok_bind, b2.gh1, e6, ok_bind]
  cases k6
  rfl

theorem headers_beside {q : Nat} {s f s' : ISegd} (hd : f.file.data.drop q = s.file.data)
    (hp : f.file.pos = q + s.file.pos) (hc : f.chSets = s.chSets) (hn : f.chansIn = s.chansIn)
    (hr : f.chansRead = s.chansRead) (hm : f.extMap = s.extMap)
    (hl : f.file.data.length = q + s.file.data.length) (h : readHeaders s = .ok s') (ho : OnItsOwn s') :
    ∃ f', readHeaders f = .ok f' ∧ Beside q s' f' := by
  have hsim : Sim 0 q s { f with gh1 := s.gh1 } :=
    ⟨hd, ⟨s.file.pos, (Nat.zero_add _).symm, hp⟩, rfl, hc, hn⟩
  obtain ⟨f', e, gs, -, -, e3, e4⟩ := readHeaders_sim hsim (Q := fun _ _ => True) (fun _ _ _ _ _ => trivial)
    trivial h ho.gh2 ho.skew
  obtain ⟨a1, a2, a3, -⟩ := readHeaders_ok h
  obtain ⟨b1, b2, b3, -⟩ := readHeaders_ok e
  refine ⟨f', (readHeaders_gh1 f s.gh1).trans e, gs.toSim, ?_, ?_, ?_, ?_⟩
  · rw [b1, a1]; exact hl
  · rw [gs.gh2]; split <;> rfl
  · rw [b2, a2]; exact hm
  · rw [b3, a3]; exact hr

theorem readsAll_own {pw : Dbl → Dbl} {s : ISegd} {ts : List Trace} (h : ReadsAll pw s ts) : OnItsOwn s := by
  cases ts with
  | nil => exact h.1
  | cons t ts => exact h.1

theorem trace_beside {q : Nat} {pw : Dbl → Dbl} {s f s' : ISegd} {t : Trace} (h : Beside q s f)
    (e : readTraceD pw s = .ok (t, s')) (ho : OnItsOwn s') :
    ∃ f', readTraceD pw f = .ok (t, f') ∧ Beside q s' f' := by
  obtain ⟨p, hb, -, hc⟩ := readTraceD_cases e
  have hbf := body_beside h hb
  have hat := h.at p
  have hbf : readTraceBody pw f = .ok (t, f.at (q + p)) := hbf
  rcases hc with ⟨c1, rfl⟩ | ⟨c1, c2, rfl⟩ | ⟨c1, c2, c3⟩
  · refine ⟨{ f.at (q + p) with chansRead := f.chansRead + 1 }, ?_, ?_⟩
    · unfold readTraceD ISegd.advance
      rw [hbf, ok_bind]
      simp only
      rw [if_neg (show ¬ (f.at (q + p)).chansIn = (f.at (q + p)).chansRead + 1 by
        change ¬ f.chansIn = f.chansRead + 1
        rw [h.chansIn, h.chansRead]
        exact c1)]
      rfl
    · exact ⟨⟨hat.data, hat.pos, hat.gh1, hat.chSets, hat.chansIn⟩, hat.len, hat.rev, hat.extMap,
        by change f.chansRead + 1 = s.chansRead + 1; rw [h.chansRead]⟩
  · refine ⟨{ f.at (q + p) with chansIn := 0, chansRead := 0, chSets := [] }, ?_, ?_⟩
    · unfold readTraceD ISegd.advance
      rw [hbf, ok_bind]
      simp only
      rw [if_pos (show (f.at (q + p)).chansIn = (f.at (q + p)).chansRead + 1 by
        change f.chansIn = f.chansRead + 1
        rw [h.chansIn, h.chansRead]
        exact c1)]
      have : ISegd.hasRecord { f.at (q + p) with chansIn := 0, chansRead := 0, chSets := [] } = false := by
        refine decide_eq_false (not_not_intro ?_)
        change q + p = f.file.data.length
        rw [h.len, c2]
      rw [if_neg (by rw [this]; decide)]
      rfl
    · exact ⟨⟨hat.data, hat.pos, hat.gh1, rfl, rfl⟩, hat.len, hat.rev, hat.extMap, rfl⟩
  · obtain ⟨f', e1, e2⟩ := headers_beside (q := q)
      (s := { s.at p with chansIn := 0, chansRead := 0, chSets := [] })
      (f := { f.at (q + p) with chansIn := 0, chansRead := 0, chSets := [] })
      hat.data rfl rfl rfl rfl hat.extMap hat.len c3 ho
    refine ⟨f', ?_, e2⟩
    unfold readTraceD ISegd.advance
    rw [hbf, ok_bind]
    simp only
    rw [if_pos (show (f.at (q + p)).chansIn = (f.at (q + p)).chansRead + 1 by
      change f.chansIn = f.chansRead + 1
      rw [h.chansIn, h.chansRead]
      exact c1)]
    have : ISegd.hasRecord { f.at (q + p) with chansIn := 0, chansRead := 0, chSets := [] } = true := by
      refine decide_eq_true ?_
      change q + p ≠ f.file.data.length
      rw [h.len]
      omega
    rw [if_pos this, e1]
    rfl

theorem readsAll_beside {q : Nat} {pw : Dbl → Dbl} {ts : List Trace} : ∀ {s f : ISegd}, Beside q s f →
    ReadsAll pw s ts → ReadsAll pw f ts := by
  induction ts with
  | nil =>
    intro s f h ⟨h1, h2, h3, h4⟩
    exact ⟨h.own h1, by rw [h.hasTrace]; exact h2, by rw [h.hasRecord]; exact h3, by rw [h.chSets]; exact h4⟩
  | cons t ts ih =>
    intro s f h ⟨h1, h2, s1, h3, h4⟩
    obtain ⟨f1, e1, e2⟩ := trace_beside h h3 (readsAll_own h4)
    exact ⟨h.own h1, by rw [h.hasTrace]; exact h2, f1, e1, ih e2 h4⟩

/-- Reading the first file to its end and going on with the second. -/
theorem readsAll_join {pw : Dbl → Dbl} {d2 : Bytes} {m : ExtMap} {f2 : ISegd} {ts2 : List Trace}
    (h2 : openSegd d2 m = .ok f2) (hr2 : ReadsAll pw f2 ts2) {ts : List Trace} :
    ∀ {s : ISegd}, ts ≠ [] → s.extMap = m → s.file.pos ≤ s.file.data.length → ReadsAll pw s ts →
      ReadsAll pw (s.on (s.file.data ++ d2)) (ts ++ ts2) := by
  induction ts with
  | nil => intro s h; exact absurd rfl h
  | cons t ts ih =>
    intro s _ hm hpos hr
    obtain ⟨ho, ht, s1, h3, h4⟩ := hr
    have hown : OnItsOwn (s.on (s.file.data ++ d2)) := ⟨ho.gh2, ho.skew, ho.scans⟩
    obtain ⟨p, hb, -, hc⟩ := readTraceD_cases h3
    have hfile := readTraceD_file h3
    have hm1 : s1.extMap = s.extMap := by
      rcases hc with ⟨-, rfl⟩ | ⟨-, -, rfl⟩ | ⟨-, -, c⟩
      · rfl
      · rfl
      · exact (readHeaders_ok c).2.1
    cases ts with
    | cons t2 ts =>
      have hroom : s1.file.pos + 20 ≤ s1.file.data.length := by
        obtain ⟨-, -, s2, g3, -⟩ := h4
        exact readTraceD_room g3
      have hroom2 : s1.file.pos + 20 ≤ s.file.data.length := by rw [← hfile.1]; exact hroom
      have e := readTraceD_on h3 (s.file.data ++ d2) (.inr (by omega)) (by
        change List.take s1.file.pos (s.file.data ++ d2) = _
        rw [List.take_append_of_le_length (by omega)])
      have := ih (s := s1) (by simp) (hm1.trans hm) (by omega) h4
      rw [hfile.1] at this
      exact ⟨hown, ht, s1.on (s.file.data ++ d2), e, this⟩
    | nil =>
      obtain ⟨g1, g2, g3, g4⟩ := h4
      rcases hc with ⟨c1, rfl⟩ | ⟨c1, c2, rfl⟩ | ⟨c1, c2, c3⟩
      · have : s.chansIn = s.chansRead + 1 := by
          have := of_decide_eq_false g2
          exact Decidable.not_not.1 this
        exact absurd this c1
      · have hbf := (loc_body (s.file.data ++ d2) pw s _ hb).2.2 (SameTo.inside (n := p) (by
          change List.take p (s.file.data ++ d2) = List.take p s.file.data
          rw [List.take_append_of_le_length (by omega)]) _)
        have hbf : readTraceBody pw (s.on (s.file.data ++ d2)) = .ok (t, (s.at p).on (s.file.data ++ d2)) := hbf
        have hd2 : 0 + 32 ≤ d2.length := readHeaders_room h2
        obtain ⟨f', e1, e2⟩ := headers_beside (q := s.file.data.length)
          (f := { (s.at p).on (s.file.data ++ d2) with chansIn := 0, chansRead := 0, chSets := [] })
          (s := ISegd.init d2 m)
          (by change (s.file.data ++ d2).drop s.file.data.length = d2; rw [List.drop_left])
          (by change p = s.file.data.length + 0; rw [c2]; rfl) rfl rfl rfl hm
          (by change (s.file.data ++ d2).length = s.file.data.length + d2.length; rw [List.length_append])
          h2 (readsAll_own hr2)
        refine ⟨hown, ht, f', ?_, readsAll_beside e2 hr2⟩
        unfold readTraceD ISegd.advance
        rw [hbf, ok_bind]
        simp only
        rw [if_pos (show ((s.at p).on (s.file.data ++ d2)).chansIn = ((s.at p).on (s.file.data ++ d2)).chansRead + 1
          from c1)]
        have : ISegd.hasRecord { (s.at p).on (s.file.data ++ d2) with chansIn := 0, chansRead := 0, chSets := [] }
            = true := by
          refine decide_eq_true ?_
          change p ≠ (s.file.data ++ d2).length
          rw [List.length_append]
          omega
        rw [if_pos this, e1]
        rfl
      · obtain ⟨-, -, -, -, -, new, n1, -, n3⟩ := readHeaders_ok c3
        have n1 : s1.chSets = [] ++ new := n1
        rw [g4, List.nil_append] at n1
        rw [← n1] at n3
        have := g1.scans
        simp only [List.length_nil] at n3
        omega

end Sedaman
