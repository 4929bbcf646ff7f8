import Verif.Lemmas.SegdRecord
import Verif.Props.SegdReader

/-!
# C61: what the getters say about the current record
-/

namespace Sedaman.Props

open Spec

/-- The headers of a record, read from two readers in the same place. -/
theorem readHeaders_sim {p q : Nat} {s f s' : ISegd} (hs : Sim p q s f) {Q : BlkMap → BlkMap → Prop}
    (hQ : KeptByPut Q)
    (ho : Q s.blks f.blks) (h : readHeaders s = .ok s')
    (hadd : s'.gh1.addGenHdrBlocks ≠ 0)
    (hskew : 3 ≤ s'.gh2.segdRevMajor ∨ s'.gh1.skewBlocks ≠ 165) :
    ∃ f', readHeaders f = .ok f' ∧ GenSim p q Q f.gh2 s' f' ∧ f'.extended = s'.extended ∧
      f'.external = s'.external ∧ s'.chansRead = s.chansRead ∧ f'.chansRead = f.chansRead := by
  obtain ⟨s1, h1, k⟩ := bind_ok h
  obtain ⟨x, h2, k⟩ := bind_ok k
  obtain ⟨s3, h3, k⟩ := bind_ok k
  obtain ⟨⟨ex, s4⟩, h4, k⟩ := bind_ok k
  obtain ⟨⟨el, s5⟩, h5, k⟩ := bind_ok k
  obtain ⟨p3, new, es3, -, -⟩ := readScanTypes_ok h3
  obtain ⟨p4, es4, -⟩ := readBlocks32_ok h4
  obtain ⟨p5, es5, -⟩ := readBlocks32_ok h5
  have hg1 : s1.gh1 = s'.gh1 := by cases k; rw [es5, es4, es3]; rfl
  have hg2 : s1.gh2 = s'.gh2 := by cases k; rw [es5, es4, es3]; rfl
  have hg3 : s1.gh3 = s'.gh3 := by cases k; rw [es5, es4, es3]; rfl
  have hbl : s1.blks = s'.blks := by cases k; rw [es5, es4, es3]; rfl
  obtain ⟨f1, e1, gs⟩ := readGeneral_sim hs hQ ho h1 (by rw [hg1]; exact hadd)
  have hs1 : Sim2 p q s1 f1 := by
    refine ⟨gs.toSim, ?_, ?_, ?_, ?_, ?_⟩
    · rw [gs.gh2]; split <;> rfl
    · rw [gs.gh2]; split <;> rfl
    · rw [gs.gh2]; split <;> rfl
    · rw [gs.gh2]; split <;> rfl
    · unfold ISegd.skewBlks
      rw [gs.gh1]
      by_cases hr : s1.gh2.segdRevMajor < 3
      · have : s1.gh1.skewBlocks ≠ 165 := by
          rw [hg1]; refine hskew.resolve_left ?_; rw [← hg2]; omega
        rw [if_neg this, if_neg this]
      · rw [gs.gh2, if_neg hr]
        rfl
  obtain ⟨f3, e3, hs3⟩ := readScanTypes_sim hs1 h3
  have ne : f3.extendedBlks = s3.extendedBlks := by
    unfold ISegd.extendedBlks; rw [hs3.gh1, hs3.extended]
  obtain ⟨f4, e4, hs4⟩ := readBlocks32_sim hs3 h4
  have hs4' : Sim2 p q { s4 with extended := ex } { f4 with extended := ex } :=
    ⟨⟨hs4.data, hs4.pos, hs4.gh1, hs4.chSets, hs4.chansIn⟩, hs4.rev, hs4.sets, hs4.extended,
      hs4.external, hs4.skew⟩
  have nl : ({ f4 with extended := ex } : ISegd).externalBlks
      = ({ s4 with extended := ex } : ISegd).externalBlks := by
    unfold ISegd.externalBlks
    simp only [hs4.gh1, hs4.external]
  obtain ⟨f5, e5, hs5⟩ := readBlocks32_sim hs4' h5
  obtain ⟨q3, new', ef3, -, -⟩ := readScanTypes_ok e3
  obtain ⟨q4, ef4, -⟩ := readBlocks32_ok e4
  obtain ⟨q5, ef5, -⟩ := readBlocks32_ok e5
  have hrun : readHeaders f = .ok { f5 with external := el } := by
    unfold readHeaders
    rw [e1, ok_bind, gs.gh1, h2, ok_bind, e3, ok_bind]
    simp only
    rw [ne, e4, ok_bind]
    simp only
    rw [nl, e5, ok_bind]
    rfl
  refine ⟨{ f5 with external := el }, hrun, ?_, ?_, ?_, (readHeaders_ok h).2.2.1,
    (readHeaders_ok hrun).2.2.1⟩
  · cases k
    refine ⟨⟨hs5.data, hs5.pos, hs5.gh1, hs5.chSets, hs5.chansIn⟩, ?_, ?_, ?_⟩
    · have : ({ f5 with external := el } : ISegd).gh2 = f1.gh2 := by rw [ef5, ef4, ef3]; rfl
      rw [this, gs.gh2, hg2]
    · intro h3
      have : ({ f5 with external := el } : ISegd).gh3 = f1.gh3 := by rw [ef5, ef4, ef3]; rfl
      rw [this, gs.gh3 (by rw [hg2]; exact h3), hg3]
    · have : ({ f5 with external := el } : ISegd).blks = f1.blks := by rw [ef5, ef4, ef3]; rfl
      rw [this, ← hbl]
      exact gs.blks
  · cases k
    rw [ef5, es5]
    rfl
  · cases k
    rfl

/-- Reading the headers does not depend on the old general header 1. -/
theorem readHeaders_gh1 (s : ISegd) (g : GenHdr1) :
    readHeaders s = readHeaders { s with gh1 := g } := by
  have : readGeneral s = readGeneral { s with gh1 := g } := by
    unfold readGeneral ISegd.fill
    cases s.file.read 32 with
    | error e => rfl
    | ok x => rfl
  unfold readHeaders
  rw [this]

/-- **C61.** When the reader has moved to the record at byte `p`, its headers are those a new reader
finds in the file that starts at `p`: general header 1, channel sets, extended and external headers,
the counters and general header 3 are equal; general header 2 is equal in the members the block has;
every block of the record is returned as the new reader returns it.
Missing: members of general header 2 that the block does not have, and blocks the record does not
have, are those of an earlier record (`C61_stale_block`); a record without general header 2, or with
the escape 165 in its skew count before revision 3, uses the general header 2 of an earlier record
(`C61_stale_revision`); getters for blocks of the wrong class (`C61_wrong_class`). -/
theorem C61_current_partial (pw : Dbl → Dbl) (data : Bytes) (m : ExtMap) (s s' : ISegd) (t : Trace)
    (p : Nat) (hs : ReachableD pw data m s) (ht : s.hasTrace) (h : readTraceD pw s = .ok (t, s'))
    (hlast : s.chansRead + 1 = announced s.chSets) (hbody : readTraceBody pw s = .ok (t, s.at p))
    (hp : p ≠ data.length) (hadd : s'.gh1.addGenHdrBlocks ≠ 0)
    (hskew : 3 ≤ s'.gh2.segdRevMajor ∨ s'.gh1.skewBlocks ≠ 165) :
    ∃ f, openSegd (data.drop p) m = .ok f ∧ s'.gh1 = f.gh1 ∧ s'.chSets = f.chSets ∧
      s'.extended = f.extended ∧ s'.external = f.external ∧ s'.chansIn = f.chansIn ∧
      s'.chansRead = f.chansRead ∧ s'.file.pos = p + f.file.pos ∧
      s'.generalHeader3 = f.generalHeader3 ∧
      (s'.gh2.segdRevMajor < 3 →
        f.generalHeader2 = some { s'.gh2 with extendedSkewBlocks := 0, recordSetNumber := 0
                                              extNumAddBlksInGenHdr := 0
                                              dominantSamplingInt := 0 }) ∧
      (3 ≤ s'.gh2.segdRevMajor →
        f.generalHeader2 = some { s'.gh2 with extRecordLen := 0, sequenceNumber := 0 }) ∧
      s'.generalHeader2 = some s'.gh2 ∧
      (∀ code x, f.generalBlock code = .ok (some x) → s'.generalBlock code = .ok (some x)) ∧
      (∀ code, f.generalBlock code = .ok none → s'.generalBlock code = s.generalBlock code) := by
  obtain ⟨i1, i2, -⟩ := reachable_inv hs
  obtain ⟨p', hb, -, hc⟩ := readTraceD_cases h
  have hpp : p' = p := by
    rw [hb] at hbody
    have e := congrArg (fun x : Trace × ISegd => x.2.file.pos) (Except.ok.inj hbody)
    exact e
  subst hpp
  rcases hc with ⟨c, -⟩ | ⟨-, e, -⟩ | ⟨-, -, hh⟩
  · exact absurd (by omega) c
  · rw [i1] at e; exact absurd e hp
  · have hext : s.extMap = m := by
      clear hb hh h ht hlast hbody i1 i2
      induction hs with
      | opened s h => exact (readHeaders_ok h).2.1
      | read s t s' _ _ h ih =>
        obtain ⟨p, -, -, ⟨-, rfl⟩ | ⟨-, -, rfl⟩ | ⟨-, -, hh⟩⟩ := readTraceD_cases h
        · exact ih
        · exact ih
        · rw [(readHeaders_ok hh).2.1]; exact ih
    have hh' : readHeaders { s.at p' with gh1 := .zero, chansIn := 0, chansRead := 0, chSets := [] }
        = .ok s' := (readHeaders_gh1 _ _).symm.trans hh
    have hsim : Sim p' 0 { s.at p' with gh1 := .zero, chansIn := 0, chansRead := 0, chSets := [] }
        (.init (data.drop p') m) :=
      ⟨by rw [← i1]; rfl, ⟨0, rfl, rfl⟩, rfl, rfl, rfl⟩
    have ho : Over s.blks { s.at p' with gh1 := .zero, chansIn := 0, chansRead := 0, chSets := [] }.blks
        (ISegd.init (data.drop p') m).blks := fun k => rfl
    obtain ⟨f, e, gs, e1, e2, e3, e4⟩ := readHeaders_sim hsim (Q := Over s.blks) (fun _ _ k x h => over_put h k x) ho hh' hadd hskew
    have hgf : f.generalHeader2 = some f.gh2 := by
      unfold ISegd.generalHeader2; rw [gs.gh1, if_pos hadd]
    have hrev : f.gh2.segdRevMajor = s'.gh2.segdRevMajor := by rw [gs.gh2]; split <;> rfl
    refine ⟨f, e, gs.gh1.symm, gs.chSets.symm, e1.symm, e2.symm, gs.chansIn.symm, by rw [e3, e4]; rfl,
      (by obtain ⟨n, h1, h2⟩ := gs.pos; rw [h1, h2, Nat.zero_add]), ?_, fun hr => ?_, fun hr => ?_, ?_, ?_, ?_⟩
    · unfold ISegd.generalHeader3
      rw [gs.gh1, hrev]
      by_cases hr : s'.gh1.addGenHdrBlocks ≠ 0 ∧ 2 < s'.gh2.segdRevMajor
      · rw [if_pos hr, if_pos hr, gs.gh3 hr.2]
      · rw [if_neg hr, if_neg hr]
    · rw [hgf, gs.gh2, if_pos hr]
      rfl
    · rw [hgf, gs.gh2, if_neg (by omega)]
      rfl
    · unfold ISegd.generalHeader2; rw [if_pos hadd]
    · intro code x hx
      have hb := gs.blks code
      unfold ISegd.generalBlock at hx ⊢
      rw [hb]
      cases hf : f.blks.find code with
      | none => rw [hf] at hx; cases hx
      | some y => rw [hf] at hx; exact hx
    · intro code hx
      have hb := gs.blks code
      unfold ISegd.generalBlock at hx ⊢
      rw [hb]
      cases hf : f.blks.find code with
      | none => rfl
      | some y =>
        rw [hf] at hx
        cases y with
        | n g => cases hx
        | r3 c ty ms =>
          simp only at hx
          split at hx <;> cases hx

/-! ## A concrete case -/

/-- The file written by `openSegdWriter` with two traces. -/
def segdFileOf (a : OSegdArgs) : Out Bytes :=
  (openSegdWriter hostExample 0 a).map fun s =>
    (writeAll hostExample [segdTraceExample, segdTraceExample] s).2.out

/-- The reader after the two traces of the first record. -/
def secondRecord (data : Bytes) : Out ISegd := do
  let s0 ← openSegd data []
  let (_, s1) ← readTraceD hostExample.pw s0
  let (_, s2) ← readTraceD hostExample.pw s1
  pure s2

/-- Two equal records: the headers of the second are read, the conditions of the theorem hold. -/
example : (segdFileOf segdArgsExample >>= fun d => do
      let s ← secondRecord (d ++ d)
      let f ← openSegd d []
      pure (d.length, s.file.pos, s.gh1.addGenHdrBlocks, s.gh1.skewBlocks, s.gh2.segdRevMajor,
        decide (s.gh1 = f.gh1 ∧ s.chSets = f.chSets ∧ s.extended = f.extended ∧ s.gh2 = f.gh2)))
    = .ok (376, 376 + 256, 2, 1, 2, true) := by decide +kernel

/-! ## What can go wrong -/

/-- **C61, counterexample.** The second record has no additional block, but the getter returns the
block of the first one; a reader of the second record alone returns none. -/
theorem C61_stale_block :
    (do let d1 ← segdFileOf segdArgsExample
        let d2 ← segdFileOf { segdArgsExample with
          gh1 := { segdArgsExample.gh1 with addGenHdrBlocks := 1 }, addHdrs := [] }
        let s ← secondRecord (d1 ++ d2)
        let f ← openSegd d2 []
        let a ← s.generalHeaderN
        let b ← f.generalHeaderN
        pure (s.gh1.addGenHdrBlocks, a.map GenHdrN.genHdrBlockNum, b.length))
    = .ok (1, [ghNExample.genHdrBlockNum], 0) := by decide +kernel

/-- A record of one block: no general header 2, no channel sets, and the escape value in the number of
extended headers. -/
def escapeRecord : Out Bytes := do
  let b ← writeGenHdr1 floorLog { gh1Example with addGenHdrBlocks := 0, scanTypesPerRecord := 0
                                                  channelSetsPerScanType := 0, skewBlocks := 0
                                                  extendedHdrBlocks := 0, externalHdrBlocks := 0 } 0
  pure (b.take 30 ++ [0xff, 0])

/-- **C61, counterexample.** A record without general header 2 takes the number of its extended headers
from general header 2 of the record before it. -/
theorem C61_stale_revision :
    (do let d1 ← segdFileOf { segdArgsExample with
          gh2 := { segdArgsExample.gh2 with extendedHdrBlocks := 2 } }
        let d2 ← escapeRecord
        let s ← secondRecord (d1 ++ d2 ++ List.replicate 64 0)
        let f ← openSegd (d2 ++ List.replicate 64 0) []
        pure (s.extended.length, f.extended.length))
    = .ok (2, 0) := by decide +kernel

/-- **C61, counterexample.** A revision 2 block whose number is that of a block class of revision 3
(byte 18 of the block at byte 64): the file opens, the list of blocks contains it, and the getter of
that class dereferences a null pointer. -/
theorem C61_wrong_class :
    (do let d ← segdFileOf segdArgsExample
        let f ← openSegd (d.set 82 0x10) []
        let l ← f.generalHeaderN
        pure (l.map GenHdrN.genHdrBlockNum, (f.generalBlock 0x10).map fun _ => ()))
    = .ok ([0x10], isUb .nullDeref) := by decide +kernel

end Sedaman.Props
