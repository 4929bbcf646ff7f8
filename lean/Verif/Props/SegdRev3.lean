import Verif.Lemmas.SegdRev3

/-!
# C60: revision 3 general header blocks
-/

namespace Sedaman.Props

open Spec

/-- The types the theorem below is about: every type of `stdOther` but the sensor block. -/
theorem other_layout : ∀ c < 256, ∀ fields, stdOther c = some fields → c ≠ 0x41 →
    ∃ items, blkItems c = some items ∧ fieldsOf items 0 = fields ∧ sizeOfItems items = 31 := by
  have key : ∀ c < 256, (c ≠ 0x41 ∧ (stdOther c).isSome = true) →
      (blkItems c).map (fun i => (fieldsOf i 0, sizeOfItems i))
        = (stdOther c).map (fun f => (f, 31)) := by decide +kernel
  intro c hc fields hf hne
  have k := key c hc ⟨hne, by rw [hf]; rfl⟩
  rw [hf] at k
  obtain ⟨i, hi, e⟩ := Option.map_eq_some_iff.1 k
  exact ⟨i, hi, congrArg Prod.fst e, congrArg Prod.snd e⟩

/-- **C60.** A block of any known type other than the source blocks and the sensor block is decoded
within its 32 bytes: every member has the value stored at its place, the reported type is the last
byte, and the block is filed under its type without touching the others.
Missing: the source blocks (`C60_source_partial`, `C60_source_type_wrong`) and the sensor block
(`C60_sensor_overread`). -/
theorem C60_block_partial (buf : Bytes) (m : BlkMap) (b : Byte) (fields : List BlkField)
    (hb : buf[31]? = some b) (hf : stdOther b.toNat = some fields)
    (hne : b ≠ 0x41) :
    ∃ m', readRev3Blk buf m = .ok m' ∧
      m'.find b.toNat = some (.r3 b.toNat b.toNat (fields.map (fieldVal buf))) ∧
      ∀ k, k ≠ b.toNat → m'.find k = m.find k := by
  have hne' : b.toNat ≠ 0x41 := fun e => hne (BitVec.eq_of_toNat_eq e)
  obtain ⟨items, hi, rfl, hs⟩ := other_layout b.toNat b.isLt fields hf hne'
  have h := readRev3Blk_ok (m := m) hb hi (t := b) (by rw [hs]; exact hb)
  exact ⟨_, h, find_put_same m _ _, fun k hk => find_put_other m _ hk⟩

/-- A position block with its coordinates. -/
def positionBlk : Bytes :=
  [1, 2, 3, 4, 5, 6, 7, 8, 9, 10, 11, 12, 13, 14, 15, 16, 17, 18, 19, 20, 21, 22, 23, 24, 25, 26,
   27, 28, 0, 0, 0, 0x51]

example : positionBlk.length = 32 ∧ positionBlk[31]? = some 0x51 ∧ (stdOther 0x51).isSome ∧
    (readRev3Blk positionBlk []).map (fun m => m.find 0x51)
      = .ok (some (.r3 0x51 0x51
        [("crs_a_coord1", .num 0x0102030405060708), ("crs_a_coord2", .num 0x090a0b0c0d0e0f10),
         ("crs_a_coord3", .num 0x1112131415161718), ("crs_a_crsref", .num 0x191a),
         ("pos1_valid", .num 0x1b), ("pos1_quality", .num 0x1c)])) := by decide +kernel

/-- An auxiliary channel block: two decimal digits, a set number and a trace number. -/
example : (readRev3Blk ([7, 0x12, 0, 5, 0, 1, 2] ++ List.replicate 24 0 ++ [0x21]) []).map
      (fun m => (m.find 0x21).map fun
        | .r3 _ t l => (t, l.take 4)
        | .n _ => (0, []))
    = .ok (some (0x21, [("source_id", .num 7), ("scan_type_num_1", .num 12),
        ("ch_set_num_1", .num 5), ("trace_num_1", .num 258)])) := by decide +kernel

/-- The source blocks read all fields but the last four as in the standard; those are read as one
byte each. -/
theorem source_layout : ∀ c < 256, ∀ own, stdSourceOwn c = some own →
    ∃ items, blkItems c = some items ∧ sizeOfItems items = 27 ∧
      fieldsOf items 0 = stdSourceHead ++ own ++ stdSourceMid ++
        [⟨"offset_crossline", 23, .uns 1⟩, ⟨"offset_inline", 24, .uns 1⟩, ⟨"size", 25, .uns 1⟩,
         ⟨"offset_depth", 26, .uns 1⟩] := by
  have key : ∀ c < 256, (stdSourceOwn c).isSome = true →
      (blkItems c).map (fun i => (sizeOfItems i, fieldsOf i 0))
        = (stdSourceOwn c).map (fun o => (27, stdSourceHead ++ o ++ stdSourceMid ++
        [⟨"offset_crossline", 23, .uns 1⟩, ⟨"offset_inline", 24, .uns 1⟩, ⟨"size", 25, .uns 1⟩,
         ⟨"offset_depth", 26, .uns 1⟩])) := by decide +kernel
  intro c hc own ho
  have k := key c hc (by rw [ho]; rfl)
  rw [ho] at k
  obtain ⟨i, hi, e⟩ := Option.map_eq_some_iff.1 k
  exact ⟨i, hi, congrArg Prod.fst e, congrArg Prod.snd e⟩

/-- **C60.** A source block is decoded within its 32 bytes, and all its members but the last four
(offsets and size) have the values stored at their places.
Missing: those four members are read from one byte each, and the reported type is byte 27 of the
block, not byte 31. -/
theorem C60_source_partial (buf : Bytes) (m : BlkMap) (b t : Byte) (own : List BlkField)
    (hb : buf[31]? = some b) (ht : buf[27]? = some t)
    (hf : stdSourceOwn b.toNat = some own) :
    ∃ m' last, readRev3Blk buf m = .ok m' ∧ last.map Prod.fst = stdSourceEnd.map BlkField.name ∧
      m'.find b.toNat = some (.r3 b.toNat t.toNat
        ((stdSourceHead ++ own ++ stdSourceMid).map (fieldVal buf) ++ last)) ∧
      ∀ k, k ≠ b.toNat → m'.find k = m.find k := by
  obtain ⟨items, hi, hs, he⟩ := source_layout b.toNat b.isLt own hf
  have h := readRev3Blk_ok (m := m) hb hi (t := t) (by rw [hs]; exact ht)
  rw [he, List.map_append] at h
  exact ⟨_, _, h, rfl, find_put_same m _ _, fun k hk => find_put_other m _ hk⟩

/-- An explosive source block with line 5.5, point 300.25, depth 10, charge length 2, crossline
offset 1, inline offset 2, size 768 and depth offset 4. -/
def explosiveBlk : Bytes :=
  [0, 0, 9, 0, 0, 5, 0x80, 0, 0, 1, 44, 0x40, 0, 1, 0, 10, 2, 3, 1, 1, 0, 0, 0, 0, 1, 0, 2, 3, 0, 0,
   4, 0x16]

/-- **C60, counterexample.** The type the block reports is 3, a byte of the size field, not `0x16`;
the sizes and offsets are wrong too. -/
theorem C60_source_type_wrong :
    (readRev3Blk explosiveBlk []).map (fun m => m.find 0x16)
      = .ok (some (.r3 0x16 3
        [("expanded_file_number", .num 9), ("sou_line_num", .dbl (dyadic 11 1)),
         ("sou_point_num", .dbl (dyadic 1201 2)), ("sou_point_index", .num 1), ("depth", .num 10),
         ("charge_length", .num 2), ("soil_type", .num 3), ("source_id", .num 1),
         ("source_set_num", .num 1), ("reshoot_idx", .num 0), ("group_idx", .num 0),
         ("depth_idx", .num 0), ("offset_crossline", .num 0), ("offset_inline", .num 1),
         ("size", .num 0), ("offset_depth", .num 2)])) ∧
    (stdSourceEnd.map (fieldVal explosiveBlk)
      = [("offset_crossline", .num 1), ("offset_inline", .num 2), ("size", .num 768),
         ("offset_depth", .num 4)]) := by decide +kernel

/-- **C60, counterexample.** Every sensor block makes the reader copy bytes from behind the
block. -/
theorem C60_sensor_overread (buf : Bytes) (m : BlkMap) (hlen : buf.length = 32)
    (hb : buf[31]? = some 0x41) : readRev3Blk buf m = isUb .outOfBounds := by
  unfold readRev3Blk
  rw [hb]
  have h := rdItems_ok (buf := buf) [.u64 "instrument_test_time", .u32 "sensor_sensitivity",
    .u8 "instr_test_result"] (off := 0) (by rw [hlen]; decide)
  have e : rdBytes 28 (buf.drop 13) = isUb .outOfBounds := by
    unfold rdBytes
    rw [if_neg (by simp [hlen])]
  have split : ∀ (a : List BlkItem) (i : BlkItem) (s s' : Bytes) (v : List (String × BlkVal)),
      rdItems a s = .ok (v, s') → rdItem i s' = isUb .outOfBounds →
      rdItems (a ++ [i]) s = isUb .outOfBounds := by
    intro a
    induction a with
    | nil =>
      intro i s s' v h1 h2
      have e : s = s' := congrArg Prod.snd (Except.ok.inj h1)
      subst e
      simp only [List.nil_append, rdItems]
      rw [rd_bind, h2]
      rfl
    | cons x t ih =>
      intro i s s' v h1 h2
      simp only [rdItems] at h1
      rw [rd_bind] at h1
      obtain ⟨⟨w, s1⟩, e1, k⟩ := bind_eq_ok.1 h1
      rw [rd_bind] at k
      obtain ⟨⟨w2, s2⟩, e2, k2⟩ := bind_eq_ok.1 k
      have e : s2 = s' := congrArg Prod.snd (Except.ok.inj k2)
      subst e
      simp only [List.cons_append, rdItems]
      rw [rd_bind, e1, ok_bind, rd_bind, ih i s1 s2 w2 e2 h2]
      rfl
  have hi : rdItem (.text "serial_number" 28) (buf.drop 13) = isUb .outOfBounds := by
    simp only [rdItem]
    rw [rd_bind, e]
    rfl
  have := split _ _ _ _ _ h hi
  change (do
    let (blk, _) ← readBlk 0x41 _ buf
    pure (m.put 0x41 blk)) = isUb .outOfBounds
  unfold readBlk
  rw [rd_bind]
  rw [List.drop_zero] at this
  erw [this]
  rfl

example : (List.replicate 31 0 ++ [(0x41 : Byte)]).length = 32 ∧
    (List.replicate 31 0 ++ [(0x41 : Byte)])[31]? = some 0x41 := by decide

/-- **C60.** Blocks of other types are ignored. -/
theorem C60_unknown_ignored (buf : Bytes) (m : BlkMap) (b : Byte) (hb : buf[31]? = some b)
    (h1 : stdOther b.toNat = none) (h2 : stdSourceOwn b.toNat = none) :
    readRev3Blk buf m = .ok m := by
  have key : ∀ c < 256, stdOther c = none → stdSourceOwn c = none → blkItems c = none := by
    decide +kernel
  unfold readRev3Blk
  rw [hb]
  simp only [key b.toNat b.isLt h1 h2]

example : readRev3Blk (List.replicate 31 0 ++ [0x99]) [] = .ok [] := by decide

end Sedaman.Props
