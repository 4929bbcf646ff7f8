import Verif.Lemmas.SegdReader
import Verif.Lemmas.SegdRev3

/-! # Reading headers at a position and reading them from a file that starts there -/

namespace Sedaman

open Spec

/-- The file of `f` from byte `q` on is that of `s` from byte `p` on, and both readers are at the same place. -/
structure Sim (p q : Nat) (s f : ISegd) : Prop where
  data : f.file.data.drop q = s.file.data.drop p
  pos : ∃ n, s.file.pos = p + n ∧ f.file.pos = q + n
  gh1 : f.gh1 = s.gh1
  chSets : f.chSets = s.chSets
  chansIn : f.chansIn = s.chansIn

/-- The members of general header 2 that decide what follows agree. -/
structure Sim2 (p q : Nat) (s f : ISegd) : Prop extends Sim p q s f where
  rev : f.gh2.segdRevMajor = s.gh2.segdRevMajor
  sets : f.gh2.extChSetsPerScanType = s.gh2.extChSetsPerScanType
  extended : f.gh2.extendedHdrBlocks = s.gh2.extendedHdrBlocks
  external : f.gh2.externalHdrBlocks = s.gh2.externalHdrBlocks
  skew : f.skewBlks = s.skewBlks

theorem Sim.rest {p q : Nat} {s f : ISegd} (h : Sim p q s f) :
    f.file.data.drop f.file.pos = s.file.data.drop s.file.pos := by
  obtain ⟨n, h1, h2⟩ := h.pos
  rw [h1, h2, ← List.drop_drop, ← List.drop_drop, h.data]

theorem Sim.move {p q : Nat} {s f : ISegd} (h : Sim p q s f) (n : Nat) :
    Sim p q (s.at (s.file.pos + n)) (f.at (f.file.pos + n)) :=
  ⟨h.data, by
    obtain ⟨m, h1, h2⟩ := h.pos
    exact ⟨m + n, by simp only [ISegd.at]; omega, by simp only [ISegd.at]; omega⟩, h.gh1, h.chSets, h.chansIn⟩

theorem Sim2.move {p q : Nat} {s f : ISegd} (h : Sim2 p q s f) (n : Nat) :
    Sim2 p q (s.at (s.file.pos + n)) (f.at (f.file.pos + n)) :=
  ⟨h.toSim.move n, h.rev, h.sets, h.extended, h.external, h.skew⟩

theorem fill_iff {s : ISegd} {n : Nat} (h : n ≤ (s.file.data.drop s.file.pos).length) :
    s.fill n = .ok ((s.file.data.drop s.file.pos).take n, s.at (s.file.pos + n)) := by
  unfold ISegd.fill File.read
  rw [if_pos (by rw [List.length_take]; omega)]
  rfl

theorem fill_sim {p q : Nat} {s f s' : ISegd} {n : Nat} {b : Bytes} (hs : Sim p q s f)
    (h : s.fill n = .ok (b, s')) :
    f.fill n = .ok (b, f.at (f.file.pos + n)) ∧ s' = s.at (s.file.pos + n) := by
  obtain ⟨e1, e2, e3⟩ := fill_ok h
  refine ⟨?_, e3⟩
  have hl : n ≤ (f.file.data.drop f.file.pos).length := by
    rw [hs.rest]
    rw [e1, List.length_take] at e2
    omega
  rw [fill_iff hl, hs.rest, ← e1]

/-! ## Channel sets and blocks -/

theorem readChSetHdr_sim {p q : Nat} {s f s' : ISegd} {c : ChSet} (hs : Sim2 p q s f)
    (h : readChSetHdr s = .ok (c, s')) :
    ∃ f', readChSetHdr f = .ok (c, f') ∧ Sim2 p q s' f' := by
  have hr : f.rev3 = s.rev3 := by unfold ISegd.rev3; rw [hs.gh1, hs.rev]
  obtain ⟨⟨b, s1⟩, h1, k⟩ := bind_ok h
  obtain ⟨⟨c', r⟩, h2, k⟩ := bind_ok k
  cases k
  obtain ⟨e, rfl⟩ := fill_sim hs.toSim h1
  refine ⟨_, ?_, hs.move _⟩
  unfold readChSetHdr
  rw [hr, e, ok_bind]
  have hr2 : (f.at (f.file.pos + if s.rev3 = true then 96 else 32)).rev3 = s.rev3 := hr
  simp only [hr2]
  have h2' : (if s.rev3 = true then readChSetR3 else readChSet) b = .ok (c, r) := h2
  rw [h2', ok_bind]
  rfl

theorem readChSets_sim {p q : Nat} : ∀ {n : Nat} {s f s' : ISegd} {sets : List ChSet}, Sim2 p q s f →
    readChSets n s = .ok (sets, s') → ∃ f', readChSets n f = .ok (sets, f') ∧ Sim2 p q s' f' := by
  intro n
  induction n with
  | zero => intro s f s' sets hs h; cases h; exact ⟨f, rfl, hs⟩
  | succ n ih =>
    intro s f s' sets hs h
    obtain ⟨⟨c, s1⟩, h1, k⟩ := bind_ok h
    obtain ⟨⟨t, s2⟩, h2, k⟩ := bind_ok k
    cases k
    obtain ⟨f1, e1, hs1⟩ := readChSetHdr_sim hs h1
    have hs1' : Sim2 p q { s1 with chansIn := s1.chansIn + c.numberOfChannels }
        { f1 with chansIn := f1.chansIn + c.numberOfChannels } :=
      ⟨⟨hs1.data, hs1.pos, hs1.gh1, hs1.chSets, by simp only [hs1.chansIn]⟩, hs1.rev, hs1.sets,
        hs1.extended, hs1.external, hs1.skew⟩
    obtain ⟨f2, e2, hs2⟩ := ih hs1' h2
    refine ⟨f2, ?_, hs2⟩
    unfold readChSets
    rw [e1, ok_bind]
    simp only [e2, ok_bind]
    rfl

theorem skipSkew_sim {p q : Nat} {s f s' : ISegd} (hs : Sim2 p q s f) (h : s.skipSkew = .ok s') :
    ∃ f', f.skipSkew = .ok f' ∧ Sim2 p q s' f' := by
  have key : ∀ x : ISegd, x.skipSkew = .ok (x.at (x.file.pos + x.skewBlks * 32)) := by
    intro x
    unfold ISegd.skipSkew File.seekCur File.seek
    rw [if_neg (by omega), ok_bind]
    rfl
  rw [key] at h
  cases h
  refine ⟨_, key f, ?_⟩
  rw [hs.skew]
  exact hs.move _

theorem readScanTypes_sim {p q : Nat} : ∀ {n : Nat} {s f s' : ISegd}, Sim2 p q s f →
    readScanTypes n s = .ok s' → ∃ f', readScanTypes n f = .ok f' ∧ Sim2 p q s' f' := by
  intro n
  induction n with
  | zero => intro s f s' hs h; cases h; exact ⟨f, rfl, hs⟩
  | succ n ih =>
    intro s f s' hs h
    have hn : f.setsPerScan = s.setsPerScan := by unfold ISegd.setsPerScan; rw [hs.gh1, hs.sets]
    obtain ⟨⟨sets, s1⟩, h1, k⟩ := bind_ok h
    obtain ⟨s2, h2, k⟩ := bind_ok k
    obtain ⟨f1, e1, hs1⟩ := readChSets_sim hs h1
    have hs1' : Sim2 p q { s1 with chSets := s1.chSets ++ [sets] }
        { f1 with chSets := f1.chSets ++ [sets] } :=
      ⟨⟨hs1.data, hs1.pos, hs1.gh1, by simp only [hs1.chSets], hs1.chansIn⟩, hs1.rev, hs1.sets,
        hs1.extended, hs1.external, hs1.skew⟩
    obtain ⟨f2, e2, hs2⟩ := skipSkew_sim hs1' h2
    obtain ⟨f3, e3, hs3⟩ := ih hs2 k
    refine ⟨f3, ?_, hs3⟩
    unfold readScanTypes
    rw [hn, e1, ok_bind]
    simp only [e2, ok_bind]
    exact e3

theorem readBlocks32_sim {p q : Nat} : ∀ {n : Nat} {s f s' : ISegd} {bs : List Bytes}, Sim2 p q s f →
    readBlocks32 n s = .ok (bs, s') → ∃ f', readBlocks32 n f = .ok (bs, f') ∧ Sim2 p q s' f' := by
  intro n
  induction n with
  | zero => intro s f s' bs hs h; cases h; exact ⟨f, rfl, hs⟩
  | succ n ih =>
    intro s f s' bs hs h
    obtain ⟨⟨b, s1⟩, h1, k⟩ := bind_ok h
    obtain ⟨⟨t, s2⟩, h2, k⟩ := bind_ok k
    cases k
    obtain ⟨e1, rfl⟩ := fill_sim hs.toSim h1
    obtain ⟨f2, e2, hs2⟩ := ih (hs.move 32) h2
    refine ⟨f2, ?_, hs2⟩
    unfold readBlocks32
    rw [e1, ok_bind]
    simp only [e2, ok_bind]
    rfl

/-! ## General headers -/

/-- One block reader either leaves the map alone or stores one block in it, whatever the map. -/
def Stores (rd : Bytes → BlkMap → Out BlkMap) : Prop :=
  ∀ b m m', rd b m = .ok m' → (m' = m ∧ ∀ m0, rd b m0 = .ok m0) ∨
    ∃ k x, m' = m.put k x ∧ ∀ m0, rd b m0 = .ok (m0.put k x)

theorem stores_rev2 : Stores readRev2Blk := by
  intro b m m' h
  obtain ⟨⟨x, r⟩, h1, k⟩ := bind_ok h
  cases k
  refine .inr ⟨_, _, rfl, fun m0 => ?_⟩
  unfold readRev2Blk
  rw [h1, ok_bind]
  rfl

theorem stores_rev3 : Stores readRev3Blk := by
  intro b m m' h
  unfold readRev3Blk at h ⊢
  cases hb : b[31]? with
  | none => rw [hb] at h; cases h
  | some c =>
    rw [hb] at h
    simp only at h ⊢
    cases hi : blkItems c.toNat with
    | none =>
      rw [hi] at h
      cases h
      exact .inl ⟨rfl, fun m0 => rfl⟩
    | some items =>
      rw [hi] at h
      simp only at h ⊢
      obtain ⟨⟨x, r⟩, h1, k⟩ := bind_ok h
      cases k
      refine .inr ⟨_, x, rfl, fun m0 => ?_⟩
      rw [h1, ok_bind]
      rfl

/-- The map after reading blocks: what the blocks store, and the old contents elsewhere. -/
def Over (old m mf : BlkMap) : Prop := ∀ k, m.find k = (mf.find k).or (old.find k)

/-- Storing the same block in both maps keeps the relation. -/
def KeptByPut (Q : BlkMap → BlkMap → Prop) : Prop := ∀ m mf k x, Q m mf → Q (m.put k x) (mf.put k x)

theorem over_put {old m mf : BlkMap} (h : Over old m mf) (k : Nat) (x : AddBlk) :
    Over old (m.put k x) (mf.put k x) := by
  intro j
  by_cases hj : j = k
  · subst hj; rw [find_put_same, find_put_same]; rfl
  · rw [find_put_other m x hj, find_put_other mf x hj]; exact h j

theorem readBlks_sim {p q : Nat} {rd : Bytes → BlkMap → Out BlkMap} (hrd : Stores rd) {Q : BlkMap → BlkMap → Prop}
    (hQ : KeptByPut Q) :
    ∀ {n : Nat} {s f s' : ISegd}, Sim p q s f → Q s.blks f.blks → readBlks rd n s = .ok s' →
    ∃ f', readBlks rd n f = .ok f' ∧ Sim p q s' f' ∧ Q s'.blks f'.blks := by
  intro n
  induction n with
  | zero => intro s f s' hs ho h; cases h; exact ⟨f, rfl, hs, ho⟩
  | succ n ih =>
    intro s f s' hs ho h
    obtain ⟨⟨b, s1⟩, h1, k⟩ := bind_ok h
    obtain ⟨m, h2, k⟩ := bind_ok k
    obtain ⟨e1, rfl⟩ := fill_sim hs h1
    have step : ∃ mf, rd b f.blks = .ok mf ∧ Q m mf := by
      rcases hrd b _ m h2 with ⟨rfl, g⟩ | ⟨j, x, rfl, g⟩
      · exact ⟨f.blks, g _, ho⟩
      · exact ⟨_, g _, hQ _ _ j x ho⟩
    obtain ⟨mf, e2, ho2⟩ := step
    have hm := hs.move 32
    have hs2 : Sim p q { s.at (s.file.pos + 32) with blks := m }
        { f.at (f.file.pos + 32) with blks := mf } :=
      ⟨hm.data, hm.pos, hm.gh1, hm.chSets, hm.chansIn⟩
    obtain ⟨f3, e3, hs3, ho3⟩ := ih hs2 ho2 k
    refine ⟨f3, ?_, hs3, ho3⟩
    unfold readBlks
    rw [e1, ok_bind]
    simp only
    rw [show (f.at (f.file.pos + 32)).blks = f.blks from rfl, e2, ok_bind]
    exact e3

/-- The members a revision 2 block sets, the others from another header. -/
def GenHdr2.over2 (g h : GenHdr2) : GenHdr2 :=
  { g with extendedSkewBlocks := h.extendedSkewBlocks, recordSetNumber := h.recordSetNumber
           extNumAddBlksInGenHdr := h.extNumAddBlksInGenHdr
           dominantSamplingInt := h.dominantSamplingInt }

/-- The members a revision 3 block sets, the others from another header. -/
def GenHdr2.over3 (g h : GenHdr2) : GenHdr2 :=
  { g with extRecordLen := h.extRecordLen, sequenceNumber := h.sequenceNumber }

theorem readRevision_other {g g' h : GenHdr2} {b r : Bytes} (e : readRevision g b = .ok (g', r)) :
    readRevision h b = .ok ({ h with segdRevMajor := g'.segdRevMajor
                                     segdRevMinor := g'.segdRevMinor }, r) ∧
    g' = { g with segdRevMajor := g'.segdRevMajor, segdRevMinor := g'.segdRevMinor } := by
  unfold readRevision at e ⊢
  simp only [rd_bind, rd_pure] at e ⊢
  obtain ⟨⟨_, b1⟩, e1, k⟩ := bind_ok e
  obtain ⟨⟨v1, b2⟩, e2, k⟩ := bind_ok k
  obtain ⟨⟨v2, b3⟩, e3, k⟩ := bind_ok k
  cases k
  simp only [e1, ok_bind, e2, e3]
  exact ⟨trivial, trivial⟩

theorem readGenHdr2_other {g g' h : GenHdr2} {b r : Bytes} (e : readGenHdr2 g b = .ok (g', r))
    (hrev : h.segdRevMajor = g.segdRevMajor) (hmin : h.segdRevMinor = g.segdRevMinor) :
    readGenHdr2 h b = .ok (g'.over2 h, r) ∧ g'.segdRevMajor = g.segdRevMajor := by
  unfold readGenHdr2 at e ⊢
  simp only [rd_bind, rd_pure] at e ⊢
  obtain ⟨⟨v1, b1⟩, e1, k⟩ := bind_ok e
  obtain ⟨⟨v2, b2⟩, e2, k⟩ := bind_ok k
  obtain ⟨⟨v3, b3⟩, e3, k⟩ := bind_ok k
  obtain ⟨⟨v4, b4⟩, e4, k⟩ := bind_ok k
  obtain ⟨⟨v5, b5⟩, e5, k⟩ := bind_ok k
  obtain ⟨⟨v6, b6⟩, e6, k⟩ := bind_ok k
  obtain ⟨⟨v7, b7⟩, e7, k⟩ := bind_ok k
  obtain ⟨⟨v8, b8⟩, e8, k⟩ := bind_ok k
  obtain ⟨⟨v9, b9⟩, e9, k⟩ := bind_ok k
  obtain ⟨⟨v10, b10⟩, e10, k⟩ := bind_ok k
  obtain ⟨⟨v11, b11⟩, e11, k⟩ := bind_ok k
  cases k
  simp only [e1, ok_bind, e2, e3, e4, e5, e6, e7, e8, e9, e10, e11]
  refine ⟨?_, trivial⟩
  unfold GenHdr2.over2
  simp only [hrev, hmin]

theorem readGenHdr2R3_other {g g' h : GenHdr2} {b r : Bytes}
    (e : readGenHdr2R3 g b = .ok (g', r))
    (hrev : h.segdRevMajor = g.segdRevMajor) (hmin : h.segdRevMinor = g.segdRevMinor) :
    readGenHdr2R3 h b = .ok (g'.over3 h, r) ∧ g'.segdRevMajor = g.segdRevMajor := by
  unfold readGenHdr2R3 at e ⊢
  simp only [rd_bind, rd_pure] at e ⊢
  obtain ⟨⟨v1, b1⟩, e1, k⟩ := bind_ok e
  obtain ⟨⟨v2, b2⟩, e2, k⟩ := bind_ok k
  obtain ⟨⟨v3, b3⟩, e3, k⟩ := bind_ok k
  obtain ⟨⟨v4, b4⟩, e4, k⟩ := bind_ok k
  obtain ⟨⟨v5, b5⟩, e5, k⟩ := bind_ok k
  obtain ⟨⟨v6, b6⟩, e6, k⟩ := bind_ok k
  obtain ⟨⟨v7, b7⟩, e7, k⟩ := bind_ok k
  obtain ⟨⟨v8, b8⟩, e8, k⟩ := bind_ok k
  obtain ⟨⟨v9, b9⟩, e9, k⟩ := bind_ok k
  obtain ⟨⟨v10, b10⟩, e10, k⟩ := bind_ok k
  obtain ⟨⟨v11, b11⟩, e11, k⟩ := bind_ok k
  obtain ⟨⟨v12, b12⟩, e12, k⟩ := bind_ok k
  cases k
  simp only [e1, ok_bind, e2, e3, e4, e5, e6, e7, e8, e9, e10, e11, e12]
  refine ⟨?_, trivial⟩
  unfold GenHdr2.over3
  simp only [hrev, hmin]

/-- The general headers after reading a record with additional blocks, compared with a reader that
starts at the record. -/
structure GenSim (p q : Nat) (Q : BlkMap → BlkMap → Prop) (g0 : GenHdr2) (s f : ISegd) : Prop extends Sim p q s f where
  gh2 : f.gh2 = if s.gh2.segdRevMajor < 3 then s.gh2.over2 g0 else s.gh2.over3 g0
  gh3 : 3 ≤ s.gh2.segdRevMajor → f.gh3 = s.gh3
  blks : Q s.blks f.blks

theorem readGeneralAdd_sim {p q : Nat} {s f s' : ISegd} (hs : Sim p q s f) {Q : BlkMap → BlkMap → Prop}
    (hQ : KeptByPut Q)
    (ho : Q s.blks f.blks) (h : readGeneralAdd s = .ok s') :
    ∃ f', readGeneralAdd f = .ok f' ∧ GenSim p q Q f.gh2 s' f' := by
  obtain ⟨⟨b, s1⟩, h1, k⟩ := bind_ok h
  obtain ⟨⟨g2, r⟩, h2, k⟩ := bind_ok k
  obtain ⟨e1, rfl⟩ := fill_sim hs h1
  obtain ⟨e2, -⟩ := readRevision_other (h := f.gh2) h2
  have hm := hs.move 32
  simp only at k
  unfold readGeneralAdd
  rw [e1, ok_bind]
  simp only
  rw [show (f.at (f.file.pos + 32)).gh2 = f.gh2 from rfl, e2, ok_bind]
  simp only
  by_cases hr : g2.segdRevMajor < 3
  · rw [if_pos hr] at k ⊢
    obtain ⟨⟨g2', r'⟩, h3, k⟩ := bind_ok k
    obtain ⟨e3, em⟩ := readGenHdr2_other (h := { f.gh2 with segdRevMajor := g2.segdRevMajor
                                                            segdRevMinor := g2.segdRevMinor })
      h3 rfl rfl
    have hs2 : Sim p q { s.at (s.file.pos + 32) with gh2 := g2' }
        { f.at (f.file.pos + 32) with gh2 := g2'.over2 f.gh2 } :=
      ⟨hm.data, hm.pos, hm.gh1, hm.chSets, hm.chansIn⟩
    have k' : readBlks readRev2Blk (s.gh1.addGenHdrBlocks - 1).toNat
      { s.at (s.file.pos + 32) with gh2 := g2' } = .ok s' := k
    obtain ⟨f3, e4, hs3, ho3⟩ := readBlks_sim stores_rev2 hQ hs2 ho k'
    refine ⟨f3, ?_, ?_⟩
    · unfold readGeneral2
      simp only
      rw [e3, ok_bind]
      rw [← hs.gh1] at e4
      exact e4
    · obtain ⟨m, rfl⟩ := readBlks_ok k'
      obtain ⟨mf, rfl⟩ := readBlks_ok e4
      have hlt : g2'.segdRevMajor < 3 := by rw [em]; exact hr
      refine ⟨hs3, ?_, fun hge => ?_, ho3⟩
      · exact (if_pos hlt).symm
      · simp only [ISegd.at] at hge
        omega
  · rw [if_neg hr] at k ⊢
    obtain ⟨⟨g2', r'⟩, h3, k⟩ := bind_ok k
    obtain ⟨⟨b3, s3⟩, h4, k⟩ := bind_ok k
    obtain ⟨⟨g3, r3⟩, h5, k⟩ := bind_ok k
    obtain ⟨e3, em⟩ := readGenHdr2R3_other (h := { f.gh2 with segdRevMajor := g2.segdRevMajor
                                                              segdRevMinor := g2.segdRevMinor })
      h3 rfl rfl
    have hs2 : Sim p q { s.at (s.file.pos + 32) with gh2 := g2' }
        { f.at (f.file.pos + 32) with gh2 := g2'.over3 f.gh2 } :=
      ⟨hm.data, hm.pos, hm.gh1, hm.chSets, hm.chansIn⟩
    obtain ⟨e4, rfl⟩ := fill_sim hs2 h4
    have hm2 := hs2.move 32
    have hs3 : Sim p q { s.at (s.file.pos + 32 + 32) with gh2 := g2', gh3 := g3 }
        { f.at (f.file.pos + 32 + 32) with gh2 := g2'.over3 f.gh2, gh3 := g3 } :=
      ⟨hm2.data, hm2.pos, hm2.gh1, hm2.chSets, hm2.chansIn⟩
    have k' : readBlks readRev3Blk (toU 2 ((addBlksNum
        { s.at (s.file.pos + 32 + 32) with gh2 := g2', gh3 := g3 } : Int) - 2))
      { s.at (s.file.pos + 32 + 32) with gh2 := g2', gh3 := g3 } = .ok s' := k
    have hn : addBlksNum { f.at (f.file.pos + 32 + 32) with gh2 := g2'.over3 f.gh2, gh3 := g3 }
        = addBlksNum { s.at (s.file.pos + 32 + 32) with gh2 := g2', gh3 := g3 } := by
      change (if f.gh1.addGenHdrBlocks = 0xf then g2'.extNumAddBlksInGenHdr
        else toU 2 f.gh1.addGenHdrBlocks) = _
      rw [hs.gh1]
      rfl
    obtain ⟨f3, e5, hs4, ho3⟩ := readBlks_sim stores_rev3 hQ hs3 ho k'
    refine ⟨f3, ?_, ?_⟩
    · unfold readGeneral3
      simp only
      rw [e3, ok_bind]
      change (ISegd.fill { f.at (f.file.pos + 32) with gh2 := g2'.over3 f.gh2 } 32 >>= _) = _
      rw [e4, ok_bind]
      simp only
      rw [h5, ok_bind]
      simp only
      rw [← hn] at e5
      exact e5
    · obtain ⟨m, rfl⟩ := readBlks_ok k'
      obtain ⟨mf, rfl⟩ := readBlks_ok e5
      have hlt : ¬ g2'.segdRevMajor < 3 := by rw [em]; exact hr
      refine ⟨hs4, ?_, fun _ => rfl, ho3⟩
      exact (if_neg hlt).symm

theorem readGeneral_sim {p q : Nat} {s f s' : ISegd} (hs : Sim p q s f) {Q : BlkMap → BlkMap → Prop}
    (hQ : KeptByPut Q)
    (ho : Q s.blks f.blks) (h : readGeneral s = .ok s')
    (hadd : s'.gh1.addGenHdrBlocks ≠ 0) :
    ∃ f', readGeneral f = .ok f' ∧ GenSim p q Q f.gh2 s' f' := by
  obtain ⟨⟨b, s1⟩, h1, k⟩ := bind_ok h
  obtain ⟨⟨g1, r⟩, h2, k⟩ := bind_ok k
  obtain ⟨e1, rfl⟩ := fill_sim hs h1
  have hm := hs.move 32
  have hs2 : Sim p q { s.at (s.file.pos + 32) with gh1 := g1 } { f.at (f.file.pos + 32) with gh1 := g1 } :=
    ⟨hm.data, hm.pos, rfl, hm.chSets, hm.chansIn⟩
  simp only at k
  have hg : g1.addGenHdrBlocks ≠ 0 := by
    by_cases hz : g1.addGenHdrBlocks ≠ 0
    · exact hz
    · rw [if_neg hz] at k
      cases k
      exact hadd
  rw [if_pos hg] at k
  obtain ⟨f', e2, gs⟩ := readGeneralAdd_sim hs2 hQ ho k
  refine ⟨f', ?_, gs⟩
  unfold readGeneral
  rw [e1, ok_bind]
  simp only
  rw [h2, ok_bind]
  simp only
  rw [if_pos hg]
  exact e2

end Sedaman
