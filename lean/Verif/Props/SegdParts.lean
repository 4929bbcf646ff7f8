import Verif.Lemmas.SegdParts
import Verif.Props.SegdRev3Set

/-!
# C115: the headers of a SEG-D record are read from their own blocks
-/

namespace Sedaman.Props
open Sedaman Sedaman.Spec

private theorem at_end {s : ISegd} {data rest : Bytes} (h : Ahead s rest) (hd : s.file.data = data) :
    s.file = ⟨data, data.length - rest.length⟩ := by
  obtain ⟨pre, h⟩ := h
  rw [h] at hd ⊢
  simp only at hd
  subst hd
  simp

/-- **C115 (part).** A record of revision 3 or later: general headers 1, 2 and 3, additional blocks, and for every scan
type channel set headers of 96 bytes and skew blocks, then extended and external header blocks. Every block is 32 bytes
otherwise. The reader shows what it makes of each block, and stands in front of the first trace. -/
theorem C115_rev3_partial (m : ExtMap) (b1 b2 b3 : Bytes) (blks : List Bytes) (t : RecordTail) (rest : Bytes)
    (h1 : b1.length = 32) (h2 : b2.length = 32) (h3 : b3.length = 32) (hb : ∀ b ∈ blks, b.length = 32)
    (g1 : GenHdr1) (gr g2 : GenHdr2) (g3 : GenHdr3) (mb : BlkMap)
    (d1 : ∃ r, readGenHdr1 b1 = .ok (g1, r))
    (dr : ∃ r, readRevision .zero b2 = .ok (gr, r))
    (d2 : ∃ r, readGenHdr2R3 gr b2 = .ok (g2, r))
    (d3 : ∃ r, readGenHdr3 b3 = .ok (g3, r))
    (db : blks.foldlM (fun m b => readRev3Blk b m) [] = .ok mb)
    (hadd : g1.addGenHdrBlocks ≠ 0) (hrev : 3 ≤ g2.segdRevMajor)
    (hn : blks.length + 2 = numberOr 2 g1.addGenHdrBlocks 15 g2.extNumAddBlksInGenHdr) (hn' : blks.length + 2 < 65536)
    (hf : g1.formatCode ∈ segdFormats) (ht : t.Announced g1 g2 96) :
    let data := b1 ++ b2 ++ b3 ++ blks.flatten ++ t.bytes ++ rest
    ∃ s, openSegd data m = .ok s ∧ s.gh1 = g1 ∧ s.gh2 = g2 ∧ s.gh3 = g3 ∧ s.blks = mb ∧ s.extMap = m ∧
      t.ShownBy (fun b => (readChSetR3 b).map Prod.fst) s ∧ s.file = ⟨data, data.length - rest.length⟩ := by
  intro data
  obtain ⟨r1, d1⟩ := d1
  obtain ⟨r2, dr⟩ := dr
  obtain ⟨r2', d2⟩ := d2
  obtain ⟨r3, d3⟩ := d3
  have hrev' : g2.segdRevMajor = gr.segdRevMajor := (readGenHdr2R3_other (h := gr) d2 rfl rfl).2
  have ha : Ahead (.init data m) (b1 ++ (b2 ++ (b3 ++ (blks.flatten ++ (t.bytes ++ rest))))) :=
    ⟨[], by simp [data, ISegd.init, List.append_assoc]⟩
  have hdata : (ISegd.init data m).file.data = data := rfl
  generalize hs0 : ISegd.init data m = s0 at ha hdata
  have hz : s0.gh2 = .zero ∧ s0.blks = [] ∧ s0.chSets = [] ∧ s0.chansIn = 0 ∧ s0.chansRead = 0 ∧ s0.extMap = m := by
    subst hs0; exact ⟨rfl, rfl, rfl, rfl, rfl, rfl⟩
  obtain ⟨z1, z2, z3, z4, z5, z6⟩ := hz
  obtain ⟨f1, a1⟩ := fill_ahead ha h1
  let s1 : ISegd := { s0.at (s0.file.pos + 32) with gh1 := g1 }
  obtain ⟨f2, a2⟩ := fill_ahead (s := s1) (ahead_with a1 rfl) h2
  let s2 : ISegd := { s1.at (s1.file.pos + 32) with gh2 := g2 }
  obtain ⟨f3, a3⟩ := fill_ahead (s := s2) (ahead_with a2 rfl) h3
  let s3 : ISegd := { s2.at (s2.file.pos + 32) with gh3 := g3 }
  obtain ⟨p, f4, a4⟩ := blks_parts (rd := readRev3Blk) blks s3 (t.bytes ++ rest) mb hb
    (by change blks.foldlM _ s0.blks = _; rw [z2]; exact db) (ahead_with a3 rfl)
  let s4 : ISegd := { s3.at p with blks := mb }
  have hg : readGeneral s0 = .ok s4 := by
    unfold readGeneral
    rw [f1, ok_bind]
    simp only [d1, ok_bind]
    rw [if_pos hadd]
    unfold readGeneralAdd
    change s1.fill 32 >>= _ = _
    rw [f2, ok_bind]
    simp only
    rw [show (s1.at (s1.file.pos + 32)).gh2 = .zero from z1, dr, ok_bind]
    simp only
    rw [if_neg (by omega)]
    unfold readGeneral3
    simp only [d2, ok_bind]
    change s2.fill 32 >>= _ = _
    rw [f3, ok_bind]
    simp only [d3, ok_bind]
    have hcount : toU 2 ((addBlksNum s3 : Int) - 2) = blks.length := by
      have : addBlksNum s3 = blks.length + 2 := by
        rw [hn]; unfold addBlksNum numberOr toU; rfl
      rw [this]
      unfold toU
      omega
    change readBlks readRev3Blk (toU 2 ((addBlksNum s3 : Int) - 2)) s3 = _
    rw [hcount, f4]
  have hr : s4.rev3 = true := by
    unfold ISegd.rev3
    exact decide_eq_true ⟨hadd, hrev⟩
  obtain ⟨s, e, e1, e2, e3, e4, e5, e6, e7, e8⟩ := tail_parts (s := s4) (rev3 := true) hg hf hr ht z3 z4 z5 (ahead_with a4 rfl)
  refine ⟨s, by unfold openSegd; rw [hs0]; exact e, e1, e2, e3, e4, e5.trans z6, e6, at_end e8 (e7.trans hdata)⟩

/-- **C115 (part).** The same for records of revisions 1 and 2: general headers 1 and 2, additional blocks, channel set
headers of 32 bytes. -/
theorem C115_rev2_partial (m : ExtMap) (b1 b2 : Bytes) (blks : List Bytes) (t : RecordTail) (rest : Bytes)
    (h1 : b1.length = 32) (h2 : b2.length = 32) (hb : ∀ b ∈ blks, b.length = 32)
    (g1 : GenHdr1) (gr g2 : GenHdr2) (mb : BlkMap)
    (d1 : ∃ r, readGenHdr1 b1 = .ok (g1, r))
    (dr : ∃ r, readRevision .zero b2 = .ok (gr, r))
    (d2 : ∃ r, readGenHdr2 gr b2 = .ok (g2, r))
    (db : blks.foldlM (fun m b => readRev2Blk b m) [] = .ok mb)
    (hrev : g2.segdRevMajor < 3) (hn : (blks.length : Int) + 1 = g1.addGenHdrBlocks)
    (hf : g1.formatCode ∈ segdFormats) (ht : t.Announced g1 g2 32) :
    let data := b1 ++ b2 ++ blks.flatten ++ t.bytes ++ rest
    ∃ s, openSegd data m = .ok s ∧ s.gh1 = g1 ∧ s.gh2 = g2 ∧ s.blks = mb ∧ s.extMap = m ∧
      t.ShownBy (fun b => (readChSet b).map Prod.fst) s ∧ s.file = ⟨data, data.length - rest.length⟩ := by
  intro data
  obtain ⟨r1, d1⟩ := d1
  obtain ⟨r2, dr⟩ := dr
  obtain ⟨r2', d2⟩ := d2
  have hrev2 : g2.segdRevMajor = gr.segdRevMajor := (readGenHdr2_other (h := gr) d2 rfl rfl).2
  have ha : Ahead (.init data m) (b1 ++ (b2 ++ (blks.flatten ++ (t.bytes ++ rest)))) :=
    ⟨[], by simp [data, ISegd.init, List.append_assoc]⟩
  have hdata : (ISegd.init data m).file.data = data := rfl
  generalize hs0 : ISegd.init data m = s0 at ha hdata
  have hz : s0.gh2 = .zero ∧ s0.blks = [] ∧ s0.chSets = [] ∧ s0.chansIn = 0 ∧ s0.chansRead = 0 ∧ s0.extMap = m := by
    subst hs0; exact ⟨rfl, rfl, rfl, rfl, rfl, rfl⟩
  obtain ⟨z1, z2, z3, z4, z5, z6⟩ := hz
  obtain ⟨f1, a1⟩ := fill_ahead ha h1
  let s1 : ISegd := { s0.at (s0.file.pos + 32) with gh1 := g1 }
  obtain ⟨f2, a2⟩ := fill_ahead (s := s1) (ahead_with a1 rfl) h2
  let s2 : ISegd := { s1.at (s1.file.pos + 32) with gh2 := g2 }
  obtain ⟨p, f4, a4⟩ := blks_parts (rd := readRev2Blk) blks s2 (t.bytes ++ rest) mb hb
    (by change blks.foldlM _ s0.blks = _; rw [z2]; exact db) (ahead_with a2 rfl)
  let s4 : ISegd := { s2.at p with blks := mb }
  have hg : readGeneral s0 = .ok s4 := by
    unfold readGeneral
    rw [f1, ok_bind]
    simp only [d1, ok_bind]
    rw [if_pos (by omega)]
    unfold readGeneralAdd
    change s1.fill 32 >>= _ = _
    rw [f2, ok_bind]
    simp only
    rw [show (s1.at (s1.file.pos + 32)).gh2 = .zero from z1, dr, ok_bind]
    simp only
    rw [if_pos (by omega)]
    unfold readGeneral2
    simp only [d2, ok_bind]
    change readBlks readRev2Blk (g1.addGenHdrBlocks - 1).toNat s2 = _
    rw [show (g1.addGenHdrBlocks - 1).toNat = blks.length by omega, f4]
  have hr : s4.rev3 = false := by
    unfold ISegd.rev3
    refine decide_eq_false fun h => ?_
    have : 3 ≤ g2.segdRevMajor := h.2
    omega
  obtain ⟨s, e, e1, e2, e3, e4, e5, e6, e7, e8⟩ := tail_parts (s := s4) (rev3 := false) hg hf hr ht z3 z4 z5 (ahead_with a4 rfl)
  refine ⟨s, by unfold openSegd; rw [hs0]; exact e, e1, e2, e4, e5.trans z6, e6, at_end e8 (e7.trans hdata)⟩

/-- **C115 (part).** The same for records of revision 0, which have general header 1 only. -/
theorem C115_rev0_partial (m : ExtMap) (b1 : Bytes) (t : RecordTail) (rest : Bytes) (h1 : b1.length = 32) (g1 : GenHdr1)
    (d1 : ∃ r, readGenHdr1 b1 = .ok (g1, r)) (hn : g1.addGenHdrBlocks = 0)
    (hf : g1.formatCode ∈ segdFormats) (ht : t.Announced g1 .zero 32) :
    let data := b1 ++ t.bytes ++ rest
    ∃ s, openSegd data m = .ok s ∧ s.gh1 = g1 ∧ s.blks = [] ∧ s.extMap = m ∧
      t.ShownBy (fun b => (readChSet b).map Prod.fst) s ∧ s.file = ⟨data, data.length - rest.length⟩ := by
  intro data
  obtain ⟨r1, d1⟩ := d1
  have ha : Ahead (.init data m) (b1 ++ (t.bytes ++ rest)) :=
    ⟨[], by simp [data, ISegd.init, List.append_assoc]⟩
  have hdata : (ISegd.init data m).file.data = data := rfl
  generalize hs0 : ISegd.init data m = s0 at ha hdata
  have hz : s0.gh2 = .zero ∧ s0.blks = [] ∧ s0.chSets = [] ∧ s0.chansIn = 0 ∧ s0.chansRead = 0 ∧ s0.extMap = m := by
    subst hs0; exact ⟨rfl, rfl, rfl, rfl, rfl, rfl⟩
  obtain ⟨z1, z2, z3, z4, z5, z6⟩ := hz
  obtain ⟨f1, a1⟩ := fill_ahead ha h1
  let s1 : ISegd := { s0.at (s0.file.pos + 32) with gh1 := g1 }
  have hg : readGeneral s0 = .ok s1 := by
    unfold readGeneral
    rw [f1, ok_bind]
    simp only [d1, ok_bind]
    rw [if_neg (by omega)]
  have hr : s1.rev3 = false := by
    unfold ISegd.rev3
    exact decide_eq_false fun h => h.1 hn
  obtain ⟨s, e, e1, e2, e3, e4, e5, e6, e7, e8⟩ := tail_parts (s := s1) (rev3 := false) hg hf hr
    (by change t.Announced g1 s0.gh2 32; rw [z1]; exact ht) z3 z4 z5 (ahead_with a1 rfl)
  refine ⟨s, by unfold openSegd; rw [hs0]; exact e, e1, e4.trans z2, e5.trans z6, e6, at_end e8 (e7.trans hdata)⟩

/-! ## Examples: records with one scan type of two channel sets and one extended header block. -/

/-- General header 1 with the given byte for the number of additional blocks. -/
def partsB1 (n : Byte) : Bytes :=
  [0x01, 0x23, 0x80, 0x58] ++ List.replicate 7 0 ++ [n] ++ List.replicate 10 0 ++ [0x04] ++ List.replicate 4 0 ++
    [0x01, 0x02, 0x00, 0x01, 0x00]

def partsGh1 (n : Int) : GenHdr1 :=
  { GenHdr1.zero with fileNumber := 123, formatCode := 8058, addGenHdrBlocks := n, baseScanInt := dyadic 1 2
                      scanTypesPerRecord := 1, channelSetsPerScanType := 2, extendedHdrBlocks := 1 }

/-- General header 2 with the given revision. -/
def partsB2 (rev : Byte) : Bytes := [0, 0, 123] ++ List.replicate 7 0 ++ [rev] ++ List.replicate 21 0

/-- A client block of revision 3. -/
def partsBlk : Bytes := [0x41, 0x42] ++ List.replicate 29 0x20 ++ [0x13]

/-- Channel sets of the given size. -/
def partsTail (w : Nat) : RecordTail :=
  ⟨[⟨[[1, 0, 1] ++ List.replicate (w - 3) 0, [1, 0, 2] ++ List.replicate (w - 3) 0], []⟩], [List.replicate 32 7], []⟩

private theorem partsTail_ok (w : Nat) (n : Int) (g2 : GenHdr2) (h : 3 ≤ w) : (partsTail w).Announced (partsGh1 n) g2 w := by
  refine ⟨rfl, ?_, ?_, ?_, rfl, ?_, rfl, ?_⟩
  · intro q hq
    cases List.mem_singleton.1 hq
    rfl
  · intro q hq b hb
    cases List.mem_singleton.1 hq
    simp only [List.mem_cons, List.not_mem_nil, or_false] at hb
    rcases hb with rfl | rfl <;> simp <;> omega
  · intro q hq
    cases List.mem_singleton.1 hq
    rfl
  · intro b hb
    cases List.mem_singleton.1 hb
    rfl
  · intro b hb
    cases hb

example := C115_rev3_partial [] (partsB1 0x30) (partsB2 3) (List.replicate 32 0) [partsBlk] (partsTail 96) [1, 2, 3]
  rfl rfl rfl (by decide) (partsGh1 3) { GenHdr2.zero with segdRevMajor := 3 }
  { GenHdr2.zero with segdRevMajor := 3, expandedFileNum := 123 } .zero
  [(19, .r3 19 19 [("abbr_job_id", .text [0x41, 0x42, 0x20, 0x20, 0x20]), ("job_id", .text (List.replicate 26 0x20))])]
  ⟨[], by decide +kernel⟩ ⟨List.replicate 20 0, by decide +kernel⟩ ⟨List.replicate 5 0, by decide +kernel⟩
  ⟨[], by decide +kernel⟩ (by decide +kernel) (by decide) (by decide) rfl (by decide) (by decide) (partsTail_ok 96 3 _ (by decide))

example := C115_rev2_partial [] (partsB1 0x20) (partsB2 2) [[7] ++ List.replicate 31 0] (partsTail 32) [1, 2, 3]
  rfl rfl (by decide) (partsGh1 2) { GenHdr2.zero with segdRevMajor := 2 }
  { GenHdr2.zero with segdRevMajor := 2, expandedFileNum := 123 }
  [(0, .n { expandedFileNumber := 458752, souLineNum := 0, souPointNum := 0, souPointIndex := 0, phaseControl := 0,
            typeVibrator := 0, phaseAngle := 0, genHdrBlockNum := 0, souSetNum := 0 })]
  ⟨[], by decide +kernel⟩ ⟨List.replicate 20 0, by decide +kernel⟩ ⟨List.replicate 10 0, by decide +kernel⟩
  (by decide +kernel) (by decide) rfl (by decide) (partsTail_ok 32 2 _ (by decide))

example := C115_rev0_partial [] (partsB1 0x00) (partsTail 32) [1, 2, 3] rfl (partsGh1 0) ⟨[], by decide +kernel⟩ rfl
  (by decide) (partsTail_ok 32 0 _ (by decide))

end Sedaman.Props
