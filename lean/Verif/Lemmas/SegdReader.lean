import Verif.Spec.SegdIO
import Verif.Lemmas.File

/-! # Lemmas about the SEG-D reader: what each step can change -/

namespace Sedaman

open Spec

/-- The reader with another file position. -/
def ISegd.at (s : ISegd) (p : Nat) : ISegd := { s with file := ⟨s.file.data, p⟩ }

@[simp] theorem at_at (s : ISegd) (p q : Nat) : (s.at p).at q = s.at q := rfl

theorem fill_ok {s s' : ISegd} {n : Nat} {b : Bytes} (h : s.fill n = .ok (b, s')) :
    b = (s.file.data.drop s.file.pos).take n ∧ b.length = n ∧ s' = s.at (s.file.pos + n) := by
  obtain ⟨⟨b', f⟩, h1, h2⟩ := bind_ok h
  cases h2
  obtain ⟨e1, e2, e3⟩ := read_ok h1
  exact ⟨e1, e2, by rw [e3]; rfl⟩

theorem readBlks_ok {rd : Bytes → BlkMap → Out BlkMap} : ∀ {n : Nat} {s s' : ISegd},
    readBlks rd n s = .ok s' →
    ∃ m, s' = { s.at (s.file.pos + 32 * n) with blks := m } := by
  intro n
  induction n with
  | zero => intro s s' h; cases h; exact ⟨s.blks, rfl⟩
  | succ n ih =>
    intro s s' h
    obtain ⟨⟨b, s1⟩, h1, h⟩ := bind_ok h
    obtain ⟨m, h2, h⟩ := bind_ok h
    obtain ⟨-, -, rfl⟩ := fill_ok h1
    obtain ⟨m', rfl⟩ := ih h
    refine ⟨m', ?_⟩
    have : s.file.pos + 32 + 32 * n = s.file.pos + 32 * (n + 1) := by omega
    simp only [ISegd.at, this]

/-- What `read_general_headers` can change. -/
theorem readGeneralAdd_ok {s s' : ISegd} (h : readGeneralAdd s = .ok s') :
    ∃ p g2 g3 m, s' = { s.at p with gh2 := g2, gh3 := g3, blks := m } ∧ s.file.pos ≤ p := by
  obtain ⟨⟨b, s1⟩, h1, h⟩ := bind_ok h
  obtain ⟨⟨g2, r⟩, h2, h⟩ := bind_ok h
  obtain ⟨-, -, rfl⟩ := fill_ok h1
  simp only at h
  split at h
  · obtain ⟨⟨g2', r'⟩, h3, h⟩ := bind_ok h
    obtain ⟨m, rfl⟩ := readBlks_ok h
    exact ⟨_, g2', s.gh3, m, rfl, by simp only [ISegd.at]; omega⟩
  · obtain ⟨⟨g2', r'⟩, h3, h⟩ := bind_ok h
    obtain ⟨⟨b, s1⟩, h4, h⟩ := bind_ok h
    obtain ⟨-, -, rfl⟩ := fill_ok h4
    obtain ⟨⟨g3, r3⟩, h5, h⟩ := bind_ok h
    obtain ⟨m, rfl⟩ := readBlks_ok h
    exact ⟨_, g2', g3, m, rfl, by simp only [ISegd.at]; omega⟩

theorem readGeneral_ok {s s' : ISegd} (h : readGeneral s = .ok s') :
    ∃ p g1 g2 g3 m, s' = { s.at p with gh1 := g1, gh2 := g2, gh3 := g3, blks := m } ∧
      s.file.pos + 32 ≤ p ∧
      ∃ rest, readGenHdr1 ((s.file.data.drop s.file.pos).take 32) = .ok (g1, rest) := by
  obtain ⟨⟨b, s1⟩, h1, k⟩ := bind_ok h
  clear h
  obtain ⟨rfl, -, rfl⟩ := fill_ok h1
  obtain ⟨⟨g1, r⟩, h2, h⟩ := bind_ok k
  simp only at h
  split at h
  · obtain ⟨p, g2, g3, m, rfl, hp⟩ := readGeneralAdd_ok h
    exact ⟨p, g1, g2, g3, m, rfl, hp, r, h2⟩
  · cases h
    exact ⟨_, g1, s.gh2, s.gh3, s.blks, rfl, Nat.le_refl _, r, h2⟩

theorem readChSetHdr_ok {s s' : ISegd} {c : ChSet} (h : readChSetHdr s = .ok (c, s')) :
    ∃ p, s' = s.at p ∧ s.file.pos ≤ p := by
  obtain ⟨⟨b, s1⟩, h1, h⟩ := bind_ok h
  obtain ⟨⟨c', r⟩, h2, h⟩ := bind_ok h
  obtain ⟨-, -, rfl⟩ := fill_ok h1
  cases h
  exact ⟨_, rfl, by omega⟩

theorem readChSets_ok : ∀ {n : Nat} {s s' : ISegd} {sets : List ChSet},
    readChSets n s = .ok (sets, s') →
    sets.length = n ∧ ∃ p, s' = { s.at p with
      chansIn := s.chansIn + (sets.map ChSet.numberOfChannels).sum } ∧ s.file.pos ≤ p := by
  intro n
  induction n with
  | zero => intro s s' sets h; cases h; exact ⟨rfl, s.file.pos, by simp [ISegd.at], Nat.le_refl _⟩
  | succ n ih =>
    intro s s' sets h
    obtain ⟨⟨c, s1⟩, h1, h⟩ := bind_ok h
    obtain ⟨⟨t, s2⟩, h2, h⟩ := bind_ok h
    obtain ⟨p, rfl, hp⟩ := readChSetHdr_ok h1
    obtain ⟨hl, q, rfl, hq⟩ := ih h2
    cases h
    refine ⟨by simp [hl], q, ?_, Nat.le_trans hp hq⟩
    simp only [ISegd.at, List.map_cons, List.sum_cons, Nat.add_assoc]

theorem skipSkew_ok {s s' : ISegd} (h : s.skipSkew = .ok s') :
    ∃ p, s' = s.at p ∧ s.file.pos ≤ p := by
  obtain ⟨f, h1, h⟩ := bind_ok h
  cases h
  unfold File.seekCur File.seek at h1
  split at h1
  · cases h1
  · cases h1
    exact ⟨_, rfl, by omega⟩

theorem announced_append (a b : List (List ChSet)) :
    announced (a ++ b) = announced a + announced b := by
  simp [announced, List.sum_append]

theorem readScanTypes_ok : ∀ {n : Nat} {s s' : ISegd}, readScanTypes n s = .ok s' →
    ∃ p new, s' = { s.at p with chSets := s.chSets ++ new, chansIn := s.chansIn + announced new } ∧
      new.length = n ∧ s.file.pos ≤ p := by
  intro n
  induction n with
  | zero => intro s s' h; cases h; exact ⟨s.file.pos, [], by simp [ISegd.at, announced], rfl,
      Nat.le_refl _⟩
  | succ n ih =>
    intro s s' h
    obtain ⟨⟨sets, s1⟩, h1, h⟩ := bind_ok h
    obtain ⟨s2, h2, h⟩ := bind_ok h
    obtain ⟨-, p, rfl, hp⟩ := readChSets_ok h1
    obtain ⟨q, rfl, hq⟩ := skipSkew_ok h2
    obtain ⟨r, new, rfl, hn, hr⟩ := ih h
    refine ⟨r, sets :: new, ?_, by simp [hn], Nat.le_trans hp (Nat.le_trans hq hr)⟩
    simp only [ISegd.at, announced, List.flatten_cons, List.map_append, List.sum_append,
      List.append_assoc, List.singleton_append, Nat.add_assoc]

theorem readBlocks32_ok : ∀ {n : Nat} {s s' : ISegd} {bs : List Bytes},
    readBlocks32 n s = .ok (bs, s') → ∃ p, s' = s.at p ∧ s.file.pos ≤ p := by
  intro n
  induction n with
  | zero => intro s s' bs h; cases h; exact ⟨s.file.pos, rfl, Nat.le_refl _⟩
  | succ n ih =>
    intro s s' bs h
    obtain ⟨⟨b, s1⟩, h1, h⟩ := bind_ok h
    obtain ⟨⟨t, s2⟩, h2, h⟩ := bind_ok h
    obtain ⟨-, -, rfl⟩ := fill_ok h1
    obtain ⟨q, rfl, hq⟩ := ih h2
    cases h
    exact ⟨q, rfl, by simp only [ISegd.at] at hq; omega⟩

/-- What `read_headers_before_traces` can change. -/
theorem readHeaders_ok {s s' : ISegd} (h : readHeaders s = .ok s') :
    s'.file.data = s.file.data ∧ s'.extMap = s.extMap ∧ s'.chansRead = s.chansRead ∧
    s.file.pos + 32 ≤ s'.file.pos ∧
    (∃ rest, readGenHdr1 ((s.file.data.drop s.file.pos).take 32) = .ok (s'.gh1, rest)) ∧
    ∃ new, s'.chSets = s.chSets ++ new ∧ s'.chansIn = s.chansIn + announced new ∧
      new.length = s'.gh1.scanTypesPerRecord.toNat := by
  obtain ⟨s1, h1, h⟩ := bind_ok h
  obtain ⟨_, h2, h⟩ := bind_ok h
  obtain ⟨s3, h3, h⟩ := bind_ok h
  obtain ⟨⟨ex, s4⟩, h4, h⟩ := bind_ok h
  obtain ⟨⟨el, s5⟩, h5, h⟩ := bind_ok h
  obtain ⟨p1, g1, g2, g3, m, rfl, hp1, hg⟩ := readGeneral_ok h1
  obtain ⟨p3, new, rfl, hn, hp3⟩ := readScanTypes_ok h3
  obtain ⟨p4, rfl, hp4⟩ := readBlocks32_ok h4
  obtain ⟨p5, rfl, hp5⟩ := readBlocks32_ok h5
  cases h
  refine ⟨rfl, rfl, rfl, ?_, hg, new, rfl, rfl, hn⟩
  simp only [ISegd.at] at *
  omega

theorem onRest_ok {α : Type} {s s' : ISegd} {r : Rd α} {a : α} (h : s.onRest r = .ok (a, s')) :
    ∃ p, s' = s.at p ∧ s.file.pos ≤ p := by
  obtain ⟨⟨b, rest⟩, h1, h⟩ := bind_ok h
  cases h
  exact ⟨_, rfl, Nat.le_add_right _ _⟩

theorem readTraceBody_ok {pw : Dbl → Dbl} {s s' : ISegd} {t : Trace}
    (h : readTraceBody pw s = .ok (t, s')) : ∃ p, s' = s.at p ∧ s.file.pos + 20 ≤ p := by
  obtain ⟨⟨b, s1⟩, h1, h⟩ := bind_ok h
  obtain ⟨⟨hd, _⟩, h2, h⟩ := bind_ok h
  obtain ⟨⟨hd', s2⟩, h3, h⟩ := bind_ok h
  obtain ⟨⟨c, hd''⟩, h4, h⟩ := bind_ok h
  obtain ⟨n, h5, h⟩ := bind_ok h
  obtain ⟨⟨xs, s3⟩, h6, h⟩ := bind_ok h
  obtain ⟨-, -, rfl⟩ := fill_ok h1
  obtain ⟨p2, rfl, hp2⟩ := onRest_ok h3
  obtain ⟨p3, rfl, hp3⟩ := onRest_ok h6
  cases h
  exact ⟨p3, rfl, by simp only [ISegd.at] at *; omega⟩

theorem sameRecord_at (s : ISegd) (p c : Nat) :
    SameRecord s { s.at p with chansRead := c } := by
  constructor <;> rfl

/-- One call of `read_trace`. -/
theorem readTraceD_cases {pw : Dbl → Dbl} {s s' : ISegd} {t : Trace}
    (h : readTraceD pw s = .ok (t, s')) :
    ∃ p, readTraceBody pw s = .ok (t, s.at p) ∧ s.file.pos + 20 ≤ p ∧
      ((s.chansIn ≠ s.chansRead + 1 ∧ s' = { s.at p with chansRead := s.chansRead + 1 }) ∨
       (s.chansIn = s.chansRead + 1 ∧ p = s.file.data.length ∧
          s' = { s.at p with chansIn := 0, chansRead := 0, chSets := [] }) ∨
       (s.chansIn = s.chansRead + 1 ∧ p ≠ s.file.data.length ∧
          readHeaders { s.at p with chansIn := 0, chansRead := 0, chSets := [] } = .ok s')) := by
  obtain ⟨⟨t', s1⟩, h1, k⟩ := bind_ok h
  clear h
  obtain ⟨p, rfl, hp⟩ := readTraceBody_ok h1
  obtain ⟨s2, h2, h⟩ := bind_ok k
  cases h
  refine ⟨p, h1, hp, ?_⟩
  unfold ISegd.advance at h2
  by_cases hc : s.chansIn = s.chansRead + 1
  · right
    have hc' : (s.at p).chansIn = (s.at p).chansRead + 1 := hc
    simp only at h2
    rw [if_pos hc'] at h2
    by_cases he : p = s.file.data.length
    · left
      refine ⟨hc, he, ?_⟩
      have : (ISegd.hasRecord { s.at p with chansIn := 0, chansRead := 0, chSets := [] }) = false := by
        simp [ISegd.hasRecord, ISegd.at, he]
      rw [if_neg (by rw [this]; decide)] at h2
      cases h2
      rfl
    · right
      refine ⟨hc, he, ?_⟩
      have : (ISegd.hasRecord { s.at p with chansIn := 0, chansRead := 0, chSets := [] }) = true := by
        simp [ISegd.hasRecord, ISegd.at, he]
      rw [if_pos this] at h2
      exact h2
  · left
    have hc' : ¬ (s.at p).chansIn = (s.at p).chansRead + 1 := hc
    simp only at h2
    rw [if_neg hc'] at h2
    cases h2
    exact ⟨hc, rfl⟩

end Sedaman
