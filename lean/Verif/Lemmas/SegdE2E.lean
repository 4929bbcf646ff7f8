import Verif.Spec.SegdE2E
import Verif.Lemmas.SegdReader
import Verif.Lemmas.SegdWriter
import Verif.Props.SegdGen
import Verif.Props.SegdChSet
import Verif.Props.SegdTrace
import Verif.Props.SegdExt
import Verif.Props.SegdSample

/-! # Lemmas: the SEG-D reader on what the writer wrote -/

namespace Sedaman

open Spec Props

/-- The bytes the reader has before it. -/
def Ahead (s : ISegd) (bs : Bytes) : Prop := ∃ pre, s.file = ⟨pre ++ bs, pre.length⟩

theorem fill_ahead {s : ISegd} {c rest : Bytes} {n : Nat} (h : Ahead s (c ++ rest))
    (hn : c.length = n) :
    s.fill n = .ok (c, s.at (s.file.pos + n)) ∧ Ahead (s.at (s.file.pos + n)) rest := by
  obtain ⟨pre, hf⟩ := h
  constructor
  · unfold ISegd.fill
    rw [hf, read_chunk pre c rest hn, ok_bind]
    simp only [ISegd.at, hf]
    rfl
  · exact ⟨pre ++ c, by simp [ISegd.at, hf, hn]⟩

theorem onRest_ahead {α : Type} {s : ISegd} {c rest : Bytes} {r : Rd α} {x : α}
    (h : Ahead s (c ++ rest)) (hr : r (c ++ rest) = .ok (x, rest)) :
    s.onRest r = .ok (x, s.at (s.file.pos + c.length)) ∧
      Ahead (s.at (s.file.pos + c.length)) rest := by
  obtain ⟨pre, hf⟩ := h
  constructor
  · unfold ISegd.onRest
    simp only [hf, List.drop_left, hr, ok_bind, ISegd.at]
    simp [pure, Except.pure]
  · exact ⟨pre ++ c, by simp [ISegd.at, hf]⟩

theorem ahead_with {s s' : ISegd} {bs : Bytes} (h : Ahead s bs) (hf : s'.file = s.file) :
    Ahead s' bs := by
  obtain ⟨pre, h⟩ := h
  exact ⟨pre, hf.trans h⟩

/-! ## Additional general headers -/

/-- The entry of an additional header in the map. -/
def entryN (h : GenHdrN) : Nat × AddBlk := (h.genHdrBlockNum, .n h)

theorem put_new (l : List GenHdrN) (h : GenHdrN)
    (hs : l.Pairwise fun x y => x.genHdrBlockNum < y.genHdrBlockNum)
    (hn : ∀ x ∈ l, x.genHdrBlockNum ≠ h.genHdrBlockNum) :
    ∃ l' : List GenHdrN, BlkMap.put (l.map entryN) h.genHdrBlockNum (.n h) = l'.map entryN ∧ l'.Perm (h :: l) ∧
      l'.Pairwise fun x y => x.genHdrBlockNum < y.genHdrBlockNum := by
  induction l with
  | nil => exact ⟨[h], rfl, .refl _, List.pairwise_singleton _ _⟩
  | cons x t ih =>
    rw [List.pairwise_cons] at hs
    simp only [List.map_cons, entryN, BlkMap.put]
    by_cases h1 : h.genHdrBlockNum < x.genHdrBlockNum
    · rw [if_pos h1]
      refine ⟨h :: x :: t, rfl, .refl _, ?_⟩
      rw [List.pairwise_cons, List.pairwise_cons]
      refine ⟨fun y hy => ?_, hs⟩
      rcases List.mem_cons.1 hy with rfl | hy
      · exact h1
      · exact Nat.lt_trans h1 (hs.1 y hy)
    · rw [if_neg h1, if_neg (fun e => hn x (List.mem_cons_self ..) e.symm)]
      obtain ⟨l', e, p, q⟩ := ih hs.2 (fun y hy => hn y (List.mem_cons_of_mem _ hy))
      refine ⟨x :: l', ?_, ?_, ?_⟩
      · rw [List.map_cons, ← e]; rfl
      · exact (p.cons x).trans (List.Perm.swap h x t)
      · rw [List.pairwise_cons]
        refine ⟨fun y hy => ?_, q⟩
        rcases List.mem_cons.1 (p.mem_iff.1 hy) with rfl | hy
        · have := hn x (List.mem_cons_self ..)
          omega
        · exact hs.1 y hy

theorem storeAdd_ok (ns l : List GenHdrN)
    (hs : l.Pairwise fun x y => x.genHdrBlockNum < y.genHdrBlockNum)
    (hn : ((l ++ ns).map GenHdrN.genHdrBlockNum).Nodup)
    (hc : ∀ h ∈ ns, blkItems h.genHdrBlockNum = none) :
    ∃ l' : List GenHdrN, storeAdd (ns.map .n) (l.map entryN) = .ok (l'.map entryN) ∧ l'.Perm (l ++ ns) ∧
      l'.Pairwise fun x y => x.genHdrBlockNum < y.genHdrBlockNum := by
  induction ns generalizing l with
  | nil => exact ⟨l, rfl, by simp, hs⟩
  | cons h t ih =>
    have hp : (l ++ h :: t).Perm (h :: l ++ t) := List.perm_middle
    have hn2 := (hp.map GenHdrN.genHdrBlockNum).nodup_iff.1 hn
    obtain ⟨l1, e1, p1, s1⟩ := put_new l h hs (fun x hx => by
      rw [List.cons_append, List.map_cons, List.nodup_cons] at hn2
      intro e
      exact hn2.1 (List.mem_map.2 ⟨x, List.mem_append_left _ hx, e⟩))
    obtain ⟨l', e2, p2, s2⟩ := ih l1 s1
      (((p1.append_right t).map GenHdrN.genHdrBlockNum).nodup_iff.2 hn2)
      (fun x hx => hc x (List.mem_cons_of_mem _ hx))
    refine ⟨l', ?_, p2.trans ((p1.append_right t).trans hp.symm), s2⟩
    simp only [List.map_cons, storeAdd, AddBlk.stored, hc h (List.mem_cons_self ..)]
    simp only [Option.isSome_none, Bool.false_eq_true, if_false, ok_bind, AddBlk.type]
    rw [e1]
    exact e2

/-- A block in ascending order goes to the end of the map. -/
theorem put_last (l : List GenHdrN) (h : GenHdrN)
    (hs : ∀ x ∈ l, x.genHdrBlockNum < h.genHdrBlockNum) :
    BlkMap.put (l.map entryN) h.genHdrBlockNum (.n h) = (l ++ [h]).map entryN := by
  induction l with
  | nil => rfl
  | cons x t ih =>
    have := hs x (List.mem_cons_self ..)
    simp only [List.map_cons, entryN, BlkMap.put, List.cons_append]
    rw [if_neg (by omega), if_neg (by omega)]
    rw [ih (fun y hy => hs y (List.mem_cons_of_mem _ hy))]

theorem block_rt {h : GenHdrN} (hb : BlockSurvives h) :
    ∃ block, writeGenHdrN h = .ok block ∧ block.length = 32 ∧
      ∃ r, readGenHdrN block = .ok (h, r) := by
  obtain ⟨l, l1, l2⟩ := hb.line
  obtain ⟨p, p1, p2⟩ := hb.point
  obtain ⟨block, h1, h2, h3⟩ := C46_roundtrip_partial h l p l2 p2 l1 p1 hb.file hb.index
    hb.phaseControl hb.typeVibrator hb.phaseAngle hb.number hb.set
  obtain ⟨r, hr⟩ := h3 []
  rw [List.append_nil] at hr
  exact ⟨block, h1, h2, r, hr⟩

theorem addHdrs_rt (l : List GenHdrN) (hb : ∀ h ∈ l, BlockSurvives h) :
    ∃ bs, writeAddHdrs (l.map entryN) = .ok bs ∧ ∀ (l0 : List GenHdrN) (s : ISegd) (rest : Bytes),
      (l0 ++ l).Pairwise (fun x y => x.genHdrBlockNum < y.genHdrBlockNum) →
      s.blks = l0.map entryN → Ahead s (bs ++ rest) →
      ∃ p, readBlks readRev2Blk l.length s = .ok { s.at p with blks := (l0 ++ l).map entryN } ∧
        Ahead (s.at p) rest := by
  induction l with
  | nil =>
    refine ⟨[], rfl, fun l0 s rest hs hbl ha => ⟨s.file.pos, ?_, ahead_with ha rfl⟩⟩
    simp only [List.length_nil, readBlks, List.append_nil, ← hbl]
    rfl
  | cons h t ih =>
    obtain ⟨block, w1, w2, r, w3⟩ := block_rt (hb h (List.mem_cons_self ..))
    obtain ⟨bs, e1, e2⟩ := ih (fun x hx => hb x (List.mem_cons_of_mem _ hx))
    refine ⟨block ++ bs, ?_, fun l0 s rest hs hbl ha => ?_⟩
    · simp only [List.map_cons, entryN, writeAddHdrs, AddBlk.asN, ok_bind, w1]
      rw [e1]; rfl
    · rw [List.append_assoc] at ha
      obtain ⟨f1, f2⟩ := fill_ahead ha w2
      have hput := put_last l0 h (fun x hx => by
        rw [List.pairwise_append] at hs
        exact hs.2.2 x hx h (List.mem_cons_self ..))
      obtain ⟨p, g1, g2⟩ := e2 (l0 ++ [h])
        { s.at (s.file.pos + 32) with blks := (l0 ++ [h]).map entryN } rest
        (by rw [List.append_assoc]; exact hs) rfl (ahead_with f2 rfl)
      refine ⟨p, ?_, ahead_with g2 rfl⟩
      simp only [List.length_cons, readBlks]
      rw [f1, ok_bind]
      simp only [readRev2Blk, w3, ok_bind]
      change readBlks readRev2Blk t.length
        { s.at (s.file.pos + 32) with
          blks := BlkMap.put s.blks h.genHdrBlockNum (.n h) } = _
      rw [hbl, hput, g1, List.append_assoc]
      rfl

/-! ## Channel sets -/

theorem chSet_rt {lg : Int → Dbl} {c : ChSet} (hlg : LogOk lg) (hc : ChSetSurvives c) :
    ∃ block, writeChSet lg c = .ok block ∧ block.length = 32 ∧
      readChSet block = .ok ({ c with numberOfSamples := some 0 }, []) := by
  obtain ⟨k, k1, k2⟩ := hc.descale
  obtain ⟨block, h1, h2, h3⟩ := C47_stored lg c k hlg hc.typed k2 k1 hc.subscans.1 hc.subscans.2
  have := h3 []
  rw [List.append_nil, hc.stored] at this
  exact ⟨block, h1, h2, this⟩

/-- The channel set as the reader shows it. -/
def shownSet (c : ChSet) : ChSet := { c with numberOfSamples := some 0 }

theorem chSets_rt {H : Host} {a : OSegdArgs} (hlg : LogOk H.lg) (hrev : a.gh2.segdRevMajor < 3)
    (l : List ChSet) (hc : ∀ c ∈ l, ChSetSurvives c) :
    ∃ bs, writeChSets H a l = .ok bs ∧ ∀ (s : ISegd) (rest : Bytes), s.rev3 = false →
      Ahead s (bs ++ rest) → ∃ s', readChSets l.length s = .ok (l.map shownSet, s') ∧
        Ahead s' rest := by
  induction l with
  | nil => exact ⟨[], rfl, fun s rest _ ha => ⟨s, rfl, ha⟩⟩
  | cons c t ih =>
    obtain ⟨block, w1, w2, w3⟩ := chSet_rt hlg (hc c (List.mem_cons_self ..))
    obtain ⟨bs, e1, e2⟩ := ih (fun x hx => hc x (List.mem_cons_of_mem _ hx))
    refine ⟨block ++ bs, ?_, fun s rest hs ha => ?_⟩
    · simp only [writeChSets, writeChSetHdr]
      rw [if_pos (.inr hrev), w1, ok_bind, e1]; rfl
    · rw [List.append_assoc] at ha
      obtain ⟨f1, f2⟩ := fill_ahead ha w2
      obtain ⟨s', g1, g2⟩ := e2
        { s.at (s.file.pos + 32) with chansIn := s.chansIn + c.numberOfChannels } rest hs
        (ahead_with f2 rfl)
      refine ⟨s', ?_, g2⟩
      have hh : readChSetHdr s = .ok (shownSet c, s.at (s.file.pos + 32)) := by
        unfold readChSetHdr
        simp only [hs, Bool.false_eq_true, if_false]
        rw [f1, ok_bind]
        have : (s.at (s.file.pos + 32)).rev3 = false := hs
        simp only [this, Bool.false_eq_true, if_false, w3, ok_bind]
        rfl
      simp only [List.length_cons, readChSets]
      rw [hh, ok_bind]
      change (do
        let (t', s) ← readChSets t.length
          { s.at (s.file.pos + 32) with chansIn := s.chansIn + c.numberOfChannels }
        pure (shownSet c :: t', s)) = _
      rw [g1]; rfl

theorem scanTypes_rt {H : Host} {a : OSegdArgs} (hlg : LogOk H.lg) (hrev : a.gh2.segdRevMajor < 3)
    (ll : List (List ChSet)) (hl : ∀ l ∈ ll, l.length = a.setsPerScan)
    (hc : ∀ l ∈ ll, ∀ c ∈ l, ChSetSurvives c) :
    ∃ bs, writeScanTypes H a ll = .ok bs ∧ ∀ (s : ISegd) (rest : Bytes), s.rev3 = false →
      s.setsPerScan = a.setsPerScan → s.skewBlks = a.gh1.skewBlocks.toNat →
      Ahead s (bs ++ rest) → ∃ p, readScanTypes ll.length s = .ok { s.at p with
          chSets := s.chSets ++ ll.map (·.map shownSet)
          chansIn := s.chansIn + announced ll } ∧
        Ahead (s.at p) rest := by
  induction ll with
  | nil =>
    refine ⟨[], rfl, fun s rest _ _ _ ha => ⟨s.file.pos, ?_, ahead_with ha rfl⟩⟩
    simp [readScanTypes, ISegd.at, announced]
  | cons l t ih =>
    obtain ⟨b1, w1, w2⟩ := chSets_rt hlg hrev l (hc l (List.mem_cons_self ..))
    obtain ⟨bs, e1, e2⟩ := ih (fun x hx => hl x (List.mem_cons_of_mem _ hx))
      (fun x hx => hc x (List.mem_cons_of_mem _ hx))
    refine ⟨b1 ++ List.replicate (a.gh1.skewBlocks.toNat * 32) 0 ++ bs, ?_,
      fun s rest hs hp hk ha => ?_⟩
    · simp only [writeScanTypes]
      rw [if_neg (by simpa using hl l (List.mem_cons_self ..)), w1, ok_bind, e1]; rfl
    · rw [List.append_assoc, List.append_assoc] at ha
      obtain ⟨s', g1, g2⟩ := w2 s _ hs ha
      obtain ⟨-, p1, rfl, -⟩ := readChSets_ok g1
      have hlen : l.length = s.setsPerScan := by rw [hp]; exact hl l (List.mem_cons_self ..)
      have hsum : ((l.map shownSet).map ChSet.numberOfChannels).sum
          = (l.map ChSet.numberOfChannels).sum := by
        rw [List.map_map]; rfl
      rw [hsum] at g1 g2
      obtain ⟨pre, hpre⟩ := g2
      have hpre' : (⟨s.file.data, p1⟩ : File) = ⟨pre ++ (List.replicate (a.gh1.skewBlocks.toNat * 32) 0
        ++ (bs ++ rest)), pre.length⟩ := hpre
      let s2 : ISegd := { s.at (p1 + a.gh1.skewBlocks.toNat * 32) with
        chSets := s.chSets ++ [l.map shownSet]
        chansIn := s.chansIn + (l.map ChSet.numberOfChannels).sum }
      have hs2 : Ahead s2 (bs ++ rest) := by
        refine ⟨pre ++ List.replicate (a.gh1.skewBlocks.toNat * 32) 0, ?_⟩
        simp only [File.mk.injEq] at hpre'
        simp [s2, ISegd.at, hpre'.1, hpre'.2]
      obtain ⟨p, k1, k2⟩ := e2 s2 rest hs hp hk hs2
      refine ⟨p, ?_, ahead_with k2 rfl⟩
      simp only [List.length_cons, readScanTypes]
      rw [← hlen, g1, ok_bind]
      have hskip : ISegd.skipSkew { s.at p1 with
          chSets := s.chSets ++ [l.map shownSet]
          chansIn := s.chansIn + (l.map ChSet.numberOfChannels).sum } = .ok s2 := by
        unfold ISegd.skipSkew
        have : ISegd.skewBlks { s.at p1 with
          chSets := s.chSets ++ [l.map shownSet]
          chansIn := s.chansIn + (l.map ChSet.numberOfChannels).sum } = a.gh1.skewBlocks.toNat := hk
        rw [this, seekCur_nat, ok_bind]
        rfl
      change (do
        let s ← ISegd.skipSkew { s.at p1 with
          chSets := s.chSets ++ [l.map shownSet]
          chansIn := s.chansIn + (l.map ChSet.numberOfChannels).sum }
        readScanTypes t.length s) = _
      rw [hskip, ok_bind, k1]
      simp only [s2, ISegd.at, List.map_cons, announced, List.flatten_cons, List.map_append,
        List.sum_append, List.append_assoc, List.singleton_append, Nat.add_assoc]

/-! ## Blocks given by the user -/

theorem writeBlocks32_all (hs : List Bytes) : ∀ (t pre : List Bytes), hs = pre ++ t →
    (∀ b ∈ t, b.length = 32) → writeBlocks32 hs t.length pre.length = .ok t.flatten := by
  intro t
  induction t with
  | nil => intro pre _ _; rfl
  | cons b t ih =>
    intro pre e hb
    have hb1 := hb b (List.mem_cons_self ..)
    simp only [List.length_cons, writeBlocks32]
    rw [show hs[pre.length]? = some b by rw [e]; simp]
    simp only
    rw [if_neg (by omega)]
    have := ih (pre ++ [b]) (by rw [e]; simp) (fun x hx => hb x (List.mem_cons_of_mem _ hx))
    rw [List.length_append, List.length_singleton] at this
    rw [this, ok_bind, List.take_of_length_le (by omega)]
    rfl

theorem readBlocks32_rt : ∀ (t : List Bytes) (s : ISegd) (rest : Bytes),
    (∀ b ∈ t, b.length = 32) → Ahead s (t.flatten ++ rest) →
    ∃ p, readBlocks32 t.length s = .ok (t, s.at p) ∧ Ahead (s.at p) rest := by
  intro t
  induction t with
  | nil => intro s rest _ ha; exact ⟨s.file.pos, rfl, ahead_with ha rfl⟩
  | cons b t ih =>
    intro s rest hb ha
    rw [List.flatten_cons, List.append_assoc] at ha
    obtain ⟨f1, f2⟩ := fill_ahead ha (hb b (List.mem_cons_self ..))
    obtain ⟨p, g1, g2⟩ := ih _ rest (fun x hx => hb x (List.mem_cons_of_mem _ hx)) f2
    refine ⟨p, ?_, g2⟩
    simp only [List.length_cons, readBlocks32]
    rw [f1, ok_bind, g1]
    rfl

end Sedaman
