import Verif.Spec.SegdParts
import Verif.Lemmas.SegdE2E
import Verif.Lemmas.SegdSafe
import Verif.Lemmas.SegdRecord

/-! # Lemmas: the SEG-D reader on a sequence of blocks -/

namespace Sedaman

open Spec

/-- A decoder of a channel set header for the revision. -/
def setDecoder (rev3 : Bool) (b : Bytes) : Out ChSet := (if rev3 then readChSetR3 b else readChSet b).map Prod.fst

/-- Bytes of a channel set header. -/
def setWidth (rev3 : Bool) : Nat := if rev3 then 96 else 32

theorem setDecoder_total {rev3 : Bool} {b : Bytes} (h : b.length = setWidth rev3) :
    ∃ c r, setDecoder rev3 b = .ok c ∧ (if rev3 then readChSetR3 else readChSet) b = .ok (c, r) := by
  unfold setDecoder setWidth at *
  cases rev3 with
  | true =>
    obtain ⟨c, hc⟩ := readChSetR3_uses b (by simp at h; omega)
    exact ⟨c, b.drop 95, by simp [hc, Except.map], by simp [hc]⟩
  | false =>
    obtain ⟨c, hc⟩ := readChSet_uses b (by simp at h; omega)
    exact ⟨c, b.drop 32, by simp [hc, Except.map], by simp [hc]⟩

theorem chSets_parts {rev3 : Bool} : ∀ (bs : List Bytes) (s : ISegd) (rest : Bytes), s.rev3 = rev3 →
    (∀ b ∈ bs, b.length = setWidth rev3) → Ahead s (bs.flatten ++ rest) →
    ∃ l p, List.Forall₂ (fun b c => setDecoder rev3 b = .ok c) bs l ∧
      readChSets bs.length s = .ok (l, { s.at p with chansIn := s.chansIn + (l.map ChSet.numberOfChannels).sum }) ∧
      Ahead (s.at p) rest := by
  intro bs
  induction bs with
  | nil =>
    intro s rest _ _ ha
    exact ⟨[], s.file.pos, .nil, rfl, ahead_with ha rfl⟩
  | cons b bs ih =>
    intro s rest hs hw ha
    rw [List.flatten_cons, List.append_assoc] at ha
    have hb := hw b List.mem_cons_self
    obtain ⟨f1, f2⟩ := fill_ahead ha hb
    obtain ⟨c, r, d1, d2⟩ := setDecoder_total hb
    have hone : readChSetHdr s = .ok (c, s.at (s.file.pos + setWidth rev3)) := by
      unfold readChSetHdr
      have hw' : (if s.rev3 = true then 96 else 32) = setWidth rev3 := by rw [hs]; rfl
      rw [hw', f1, ok_bind]
      simp only
      have h3 : (s.at (s.file.pos + setWidth rev3)).rev3 = rev3 := hs
      rw [h3, d2]
      rfl
    obtain ⟨l, p, g1, g2, g3⟩ := ih { s.at (s.file.pos + setWidth rev3) with chansIn := s.chansIn + c.numberOfChannels } rest hs
      (fun x hx => hw x (List.mem_cons_of_mem _ hx)) (ahead_with f2 rfl)
    refine ⟨c :: l, p, .cons d1 g1, ?_, ahead_with g3 rfl⟩
    rw [List.length_cons, readChSets, hone, ok_bind]
    change (readChSets bs.length { s.at (s.file.pos + setWidth rev3) with chansIn := s.chansIn + c.numberOfChannels } >>= _) = _
    rw [g2, ok_bind]
    simp only [ISegd.at, List.map_cons, List.sum_cons, Nat.add_assoc]
    rfl

theorem scans_parts {rev3 : Bool} {n k : Nat} : ∀ (qs : List ScanBytes) (s : ISegd) (rest : Bytes), s.rev3 = rev3 →
    s.setsPerScan = n → s.skewBlks = k →
    (∀ q ∈ qs, q.sets.length = n) → (∀ q ∈ qs, ∀ b ∈ q.sets, b.length = setWidth rev3) →
    (∀ q ∈ qs, q.skew.length = k * 32) →
    Ahead s ((qs.map fun q => q.sets.flatten ++ q.skew).flatten ++ rest) →
    ∃ ll p, List.Forall₂ (fun q l => List.Forall₂ (fun b c => setDecoder rev3 b = .ok c) q.sets l) qs ll ∧
      readScanTypes qs.length s = .ok { s.at p with
        chSets := s.chSets ++ ll, chansIn := s.chansIn + (ll.flatten.map ChSet.numberOfChannels).sum } ∧
      Ahead (s.at p) rest := by
  intro qs
  induction qs with
  | nil =>
    intro s rest _ _ _ _ _ _ ha
    exact ⟨[], s.file.pos, .nil, by simp [readScanTypes, ISegd.at], ahead_with ha rfl⟩
  | cons q qs ih =>
    intro s rest hs hn hk h1 h2 h3 ha
    rw [List.map_cons, List.flatten_cons, List.append_assoc, List.append_assoc] at ha
    obtain ⟨l, p1, g1, g2, g3⟩ := chSets_parts q.sets s _ hs (h2 q List.mem_cons_self) ha
    obtain ⟨pre, hpre⟩ := g3
    have hpre' : (⟨s.file.data, p1⟩ : File) = ⟨pre ++ (q.skew ++ ((qs.map fun q => q.sets.flatten ++ q.skew).flatten ++ rest)),
      pre.length⟩ := hpre
    let s2 : ISegd := { s.at (p1 + k * 32) with
      chSets := s.chSets ++ [l], chansIn := s.chansIn + (l.map ChSet.numberOfChannels).sum }
    have hs2 : Ahead s2 ((qs.map fun q => q.sets.flatten ++ q.skew).flatten ++ rest) := by
      refine ⟨pre ++ q.skew, ?_⟩
      simp only [File.mk.injEq] at hpre'
      simp [s2, ISegd.at, hpre'.1, hpre'.2, h3 q List.mem_cons_self]
    obtain ⟨ll, p, k1, k2, k3⟩ := ih s2 rest hs hn hk (fun x hx => h1 x (List.mem_cons_of_mem _ hx))
      (fun x hx => h2 x (List.mem_cons_of_mem _ hx)) (fun x hx => h3 x (List.mem_cons_of_mem _ hx)) hs2
    refine ⟨l :: ll, p, .cons g1 k1, ?_, ahead_with k3 rfl⟩
    have hskip : ISegd.skipSkew { s.at p1 with
        chSets := s.chSets ++ [l], chansIn := s.chansIn + (l.map ChSet.numberOfChannels).sum } = .ok s2 := by
      unfold ISegd.skipSkew
      have : ISegd.skewBlks { s.at p1 with
        chSets := s.chSets ++ [l], chansIn := s.chansIn + (l.map ChSet.numberOfChannels).sum } = k := hk
      rw [this, seekCur_nat, ok_bind]
      rfl
    rw [List.length_cons, readScanTypes, hn, ← h1 q List.mem_cons_self, g2, ok_bind]
    change (ISegd.skipSkew { s.at p1 with
        chSets := s.chSets ++ [l], chansIn := s.chansIn + (l.map ChSet.numberOfChannels).sum } >>= fun s =>
          readScanTypes qs.length s) = _
    rw [hskip, ok_bind, k2]
    simp only [s2, ISegd.at, List.flatten_cons, List.map_append, List.sum_append, List.append_assoc, List.singleton_append,
      Nat.add_assoc]

/-- The additional blocks. -/
theorem blks_parts {rd : Bytes → BlkMap → Out BlkMap} : ∀ (bs : List Bytes) (s : ISegd) (rest : Bytes) (m : BlkMap),
    (∀ b ∈ bs, b.length = 32) → bs.foldlM (fun m b => rd b m) s.blks = .ok m → Ahead s (bs.flatten ++ rest) →
    ∃ p, readBlks rd bs.length s = .ok { s.at p with blks := m } ∧ Ahead (s.at p) rest := by
  intro bs
  induction bs with
  | nil =>
    intro s rest m _ hm ha
    cases hm
    exact ⟨s.file.pos, rfl, ahead_with ha rfl⟩
  | cons b bs ih =>
    intro s rest m hb hm ha
    rw [List.flatten_cons, List.append_assoc] at ha
    obtain ⟨f1, f2⟩ := fill_ahead ha (hb b List.mem_cons_self)
    rw [List.foldlM_cons] at hm
    obtain ⟨m1, e1, e2⟩ := bind_ok hm
    obtain ⟨p, g1, g2⟩ := ih { s.at (s.file.pos + 32) with blks := m1 } rest m (fun x hx => hb x (List.mem_cons_of_mem _ hx)) e2
      (ahead_with f2 rfl)
    refine ⟨p, ?_, ahead_with g2 rfl⟩
    rw [List.length_cons, readBlks, f1, ok_bind]
    simp only
    rw [show (s.at (s.file.pos + 32)).blks = s.blks from rfl, e1, ok_bind]
    exact g1

/-- Everything behind the general headers. -/
theorem tail_parts {s0 s : ISegd} {t : RecordTail} {rest : Bytes} {rev3 : Bool} (hg : readGeneral s0 = .ok s)
    (hf : s.gh1.formatCode ∈ segdFormats) (hr : s.rev3 = rev3) (ht : t.Announced s.gh1 s.gh2 (setWidth rev3))
    (hc : s.chSets = []) (hi : s.chansIn = 0) (hd : s.chansRead = 0) (ha : Ahead s (t.bytes ++ rest)) :
    ∃ s', readHeaders s0 = .ok s' ∧ s'.gh1 = s.gh1 ∧ s'.gh2 = s.gh2 ∧ s'.gh3 = s.gh3 ∧ s'.blks = s.blks ∧
      s'.extMap = s.extMap ∧ t.ShownBy (setDecoder rev3) s' ∧ s'.file.data = s.file.data ∧ Ahead s' rest := by
  unfold RecordTail.bytes at ha
  rw [List.append_assoc, List.append_assoc, ] at ha
  obtain ⟨ll, p, k1, k2, k3⟩ := scans_parts t.scans s _ hr (n := _) (k := _) rfl rfl
    (fun q hq => (ht.sets q hq).trans (by unfold numberOr ISegd.setsPerScan toU; rfl)) ht.width
    (fun q hq => (ht.skew q hq).trans (by unfold numberOr ISegd.skewBlks toU; rfl)) ha
  let s1 : ISegd := { s.at p with
        chSets := s.chSets ++ ll, chansIn := s.chansIn + (ll.flatten.map ChSet.numberOfChannels).sum }
  obtain ⟨p2, q1, q2⟩ := readBlocks32_rt t.extended s1 _ ht.extended32 (ahead_with k3 rfl)
  let s2 : ISegd := { s1.at p2 with extended := t.extended }
  obtain ⟨p3, q3, q4⟩ := readBlocks32_rt t.external s2 _ ht.external32 (ahead_with q2 rfl)
  obtain ⟨fr, hfr⟩ := segdReader_bits hf
  refine ⟨{ s2.at p3 with external := t.external }, ?_, rfl, rfl, rfl, rfl, rfl, ⟨?_, rfl, rfl, ?_, hd⟩, rfl, ahead_with q4 rfl⟩
  · have h1 : s.gh1.scanTypesPerRecord.toNat = t.scans.length := by have := ht.scans; omega
    have h2 : s1.extendedBlks = t.extended.length := by
      rw [ht.extended]; unfold numberOr ISegd.extendedBlks toU; rfl
    have h3 : s2.externalBlks = t.external.length := by
      rw [ht.external]; unfold numberOr ISegd.externalBlks toU; rfl
    unfold readHeaders
    rw [hg, ok_bind, hfr, ok_bind, h1, k2, ok_bind]
    change readBlocks32 s1.extendedBlks s1 >>= _ = _
    rw [h2, q1, ok_bind]
    change readBlocks32 s2.externalBlks s2 >>= _ = _
    rw [h3, q3, ok_bind]
    rfl
  · change List.Forall₂ _ t.scans (s.chSets ++ ll)
    rw [hc]
    exact k1
  · change s.chansIn + _ = ((s.chSets ++ ll).flatten.map _).sum
    rw [hi, hc]
    simp

end Sedaman
