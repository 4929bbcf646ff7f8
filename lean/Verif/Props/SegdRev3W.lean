import Verif.Lemmas.SegdRev3W
import Verif.Lemmas.SegdE2E

/-!
# C64: revision 3 blocks from the writer to the reader
-/

namespace Sedaman.Props

open Spec

theorem kept_layout : ∀ c ∈ keptTypes, ∀ fields, stdFields c = some fields →
    ∃ items, blkItems c = some items ∧ blkWItems c = some items ∧ fieldsOf items 0 = fields ∧
      sizeOfItems items = 31 ∧ (fields.map BlkField.name).Nodup ∧ c < 256 ∧ blkWType c c = BitVec.ofNat 8 c := by
  have key : ∀ c ∈ keptTypes, (blkItems c).map (fun i => (fieldsOf i 0, sizeOfItems i))
        = (stdFields c).map (fun f => (f, 31)) ∧ blkWItems c = blkItems c ∧
        (((stdFields c).getD []).map BlkField.name).Nodup ∧ c < 256 ∧ blkWType c c = BitVec.ofNat 8 c := by
    decide +kernel
  intro c hc fields hf
  obtain ⟨k1, k2, k3, k4, k5⟩ := key c hc
  rw [hf] at k1 k3
  obtain ⟨i, hi, e⟩ := Option.map_eq_some_iff.1 k1
  exact ⟨i, hi, k2.trans hi, congrArg Prod.fst e, congrArg Prod.snd e, k3, k4, k5⟩

/-- **C64.** Every block object of one of the twelve types in `keptTypes` whose members fit is
written as a block of 32 bytes with the members at the places of the standard and the type in the
last byte, and the reader makes the same object of it.
Missing: the other twelve types (`C64_lost`, `C64_sensor_overflow`). -/
theorem C64_block_partial (code : Nat) (fields : List BlkField) (ms : List (String × BlkVal))
    (m : BlkMap) (hc : code ∈ keptTypes) (hf : stdFields code = some fields)
    (hfit : BlkFits fields ms) :
    ∃ b, writeRev3Blk code (.r3 code code ms) = .ok b ∧ b.length = 32 ∧
      b[31]? = some (BitVec.ofNat 8 code) ∧ fields.map (fieldVal b) = ms ∧
      readRev3Blk b m = .ok (m.put code (.r3 code code ms)) := by
  obtain ⟨items, h1, h2, rfl, h4, h5, h6, h7⟩ := kept_layout code hc fields hf
  obtain ⟨bs, e1, e2⟩ := encItems_exists hfit
  have hl := encItems_length e1
  have hm := memberOf_nodup (ms := ms) (by rw [blkFits_names hfit]; exact h5)
  have hw := writeRev3Blk_ok (ty := code) h2 e1 hm (by omega)
  rw [h4, h7] at hw
  have h31 : (bs ++ [BitVec.ofNat 8 code])[31]? = some (BitVec.ofNat 8 code) := by
    rw [List.getElem?_append_right (by omega)]; simp [hl, h4]
  have hn : (BitVec.ofNat 8 code).toNat = code := by
    rw [BitVec.toNat_ofNat]; exact Nat.mod_eq_of_lt h6
  have hr := rdItems_ok items (buf := bs ++ [BitVec.ofNat 8 code]) (off := 0) (by simp; omega)
  have hv : (fieldsOf items 0).map (fieldVal (bs ++ [BitVec.ofNat 8 code])) = ms := by
    rw [List.drop_zero, e2] at hr
    exact (congrArg Prod.fst (Except.ok.inj hr)).symm
  refine ⟨_, hw, by simp; omega, h31, hv, ?_⟩
  have hrd := readRev3Blk_ok (m := m) h31 (items := items) (by rw [hn]; exact h1)
    (t := BitVec.ofNat 8 code) (by rw [h4]; exact h31)
  rw [hv, hn] at hrd
  exact hrd

/-- The members of a time drift block. -/
def timeDriftExample : List (String × BlkVal) :=
  [("time_of_depl", .num 0x0123456789abcdef), ("time_of_retr", .num 77), ("timer_offset_depl", .num 5),
   ("time_offset_retr", .num 4000000000), ("timedrift_corr", .num 1), ("corr_method", .num 255)]

/-- The members of an auxiliary channel block. -/
def auxExample : List (String × BlkVal) :=
  [("source_id", .num 9)] ++ (["1", "2", "3", "4", "5"].map fun i =>
    [("scan_type_num_" ++ i, .num 42), ("ch_set_num_" ++ i, .num 65535), ("trace_num_" ++ i, .num 70000)]).flatten

theorem timeDrift_fits : BlkFits ((stdFields 0x44).getD []) timeDriftExample := by
  unfold BlkFits timeDriftExample
  simp only [stdFields, stdOther, Option.getD, List.forall₂_cons, List.forall₂_nil_left_iff]
  simp [KindFits]

theorem aux_fits : BlkFits ((stdFields 0x21).getD []) auxExample := by
  unfold BlkFits auxExample
  simp only [stdFields, stdOther, Option.getD, List.map, List.flatten, List.append_eq, List.cons_append,
    List.nil_append, List.forall₂_cons, List.forall₂_nil_left_iff]
  simp [KindFits]

example : 0x44 ∈ keptTypes ∧ (stdFields 0x44).isSome ∧
    (writeRev3Blk 0x44 (.r3 0x44 0x44 timeDriftExample)).map (fun b => (b.length, b.drop 24))
      = .ok (32, [1, 255, 0, 0, 0, 0, 0, 0x44]) := by decide +kernel

theorem put_after (l : BlkMap) (k : Nat) (b : AddBlk) (hs : ∀ x ∈ l, x.1 < k) :
    BlkMap.put l k b = l ++ [(k, b)] := by
  induction l with
  | nil => rfl
  | cons x t ih =>
    obtain ⟨k', b'⟩ := x
    have := hs (k', b') (List.mem_cons_self ..)
    simp only [BlkMap.put, List.cons_append]
    rw [if_neg (by simp only at this; omega), if_neg (by simp only at this; omega),
      ih (fun y hy => hs y (List.mem_cons_of_mem _ hy))]

theorem rev3Blks_rt (m : BlkMap)
    (hm : ∀ p ∈ m, ∃ fields ms, p.1 ∈ keptTypes ∧ stdFields p.1 = some fields ∧ BlkFits fields ms ∧
      p.2 = .r3 p.1 p.1 ms) :
    ∃ out, writeRev3Blks m = .ok out ∧ out.length = 32 * m.length ∧
      ∀ (l0 : BlkMap) (s : ISegd) (rest : Bytes), (l0 ++ m).Pairwise (fun x y => x.1 < y.1) →
        s.blks = l0 → Ahead s (out ++ rest) →
        ∃ s', readBlks readRev3Blk m.length s = .ok s' ∧ s'.blks = l0 ++ m ∧ Ahead s' rest := by
  induction m with
  | nil => exact ⟨[], rfl, rfl, fun l0 s rest _ hb ha => ⟨s, rfl, by simpa using hb, ha⟩⟩
  | cons p t ih =>
    obtain ⟨k, b⟩ := p
    obtain ⟨fields, ms, h1, h2, h3, h4⟩ := hm (k, b) (List.mem_cons_self ..)
    simp only at h1 h2 h4
    subst h4
    obtain ⟨out, e1, e2, e3⟩ := ih (fun p hp => hm p (List.mem_cons_of_mem _ hp))
    obtain ⟨blk, w1, w2, -, -, -⟩ := C64_block_partial k fields ms [] h1 h2 h3
    refine ⟨blk ++ out, ?_, by simp [w2, e2]; omega, fun l0 s rest hs hb ha => ?_⟩
    · simp only [writeRev3Blks]
      rw [w1, ok_bind, e1]; rfl
    · rw [List.append_assoc] at ha
      obtain ⟨f1, f2⟩ := fill_ahead ha w2
      have hput := put_after l0 k (.r3 k k ms) (fun x hx => by
        rw [List.pairwise_append] at hs
        exact hs.2.2 x hx _ (List.mem_cons_self ..))
      obtain ⟨blk', w1', -, -, -, w5⟩ := C64_block_partial k fields ms l0 h1 h2 h3
      have : blk' = blk := Except.ok.inj (w1'.symm.trans w1)
      subst this
      obtain ⟨s', g1, g2, g3⟩ := e3 (l0 ++ [(k, .r3 k k ms)])
        { s.at (s.file.pos + 32) with blks := l0 ++ [(k, .r3 k k ms)] } rest
        (by rw [List.append_assoc]; exact hs) rfl (by obtain ⟨pre, hp⟩ := f2; exact ⟨pre, hp⟩)
      refine ⟨s', ?_, by rw [g2, List.append_assoc]; rfl, g3⟩
      simp only [List.length_cons, readBlks]
      rw [f1, ok_bind]
      change (readRev3Blk blk' s.blks >>= fun m =>
        readBlks readRev3Blk t.length { s.at (s.file.pos + 32) with blks := m }) = _
      rw [hb, w5, ok_bind, hput, g1]

/-- **C64.** Any map of such blocks is written as one block of 32 bytes each, and a reader without
blocks that stands at the first of them has the same map when it has read them all, and stands
behind the last. -/
theorem C64_blocks_partial (m : BlkMap) (hs : m.Pairwise fun x y => x.1 < y.1)
    (hm : ∀ p ∈ m, ∃ fields ms, p.1 ∈ keptTypes ∧ stdFields p.1 = some fields ∧ BlkFits fields ms ∧
      p.2 = .r3 p.1 p.1 ms) :
    ∃ out, writeRev3Blks m = .ok out ∧ out.length = 32 * m.length ∧
      ∀ (s : ISegd) (pre rest : Bytes), s.blks = [] →
        s.file = ⟨pre ++ (out ++ rest), pre.length⟩ →
        ∃ s', readBlks readRev3Blk m.length s = .ok s' ∧ s'.blks = m ∧
          s'.file.data.drop s'.file.pos = rest := by
  obtain ⟨out, h1, h2, h3⟩ := rev3Blks_rt m hm
  refine ⟨out, h1, h2, fun s pre rest hb hf => ?_⟩
  obtain ⟨s', g1, g2, pre', g3⟩ := h3 [] s rest (by simpa using hs) hb ⟨pre, hf⟩
  exact ⟨s', g1, by simpa using g2, by rw [g3]; simp⟩

/-- The hypotheses are met by a map with an auxiliary channel block and a time drift block. -/
example : ∃ m : BlkMap, m.length = 2 ∧ (m.Pairwise fun x y => x.1 < y.1) ∧
    ∀ p ∈ m, ∃ fields ms, p.1 ∈ keptTypes ∧ stdFields p.1 = some fields ∧ BlkFits fields ms ∧
      p.2 = .r3 p.1 p.1 ms := by
  refine ⟨[(0x21, .r3 0x21 0x21 auxExample), (0x44, .r3 0x44 0x44 timeDriftExample)], rfl,
    by simp, ?_⟩
  intro p hp
  simp only [List.mem_cons, List.not_mem_nil, or_false] at hp
  rcases hp with rfl | rfl
  · exact ⟨_, _, by decide, rfl, aux_fits, rfl⟩
  · exact ⟨_, _, by decide, rfl, timeDrift_fits, rfl⟩

/-- The kind without the number of bytes of a number. -/
def eraseKind : FieldKind → FieldKind
  | .uns _ => .uns 0
  | k => k

theorem enc_erase {k k' : FieldKind} {v : BlkVal} (e : eraseKind k = eraseKind k') :
    (∃ b, Enc k v b) → ∃ b, Enc k' v b := by
  rintro ⟨b, h⟩
  cases k <;> cases k' <;> simp only [eraseKind, reduceCtorEq,
    FieldKind.sgn.injEq, FieldKind.chars.injEq] at e <;> cases v <;> simp only [Enc] at h ⊢
  all_goals first
    | exact ⟨_, rfl⟩
    | (subst e; exact ⟨_, h⟩)
    | exact ⟨_, h⟩

theorem encItems_of {l : List BlkItem} : ∀ {off : Nat} {fields : List BlkField}
    {vs : List (String × BlkVal)},
    (fieldsOf l off).map (fun f => (f.name, eraseKind f.kind))
      = fields.map (fun f => (f.name, eraseKind f.kind)) →
    BlkFits fields vs → ∃ bs, EncItems l vs bs := by
  induction l with
  | nil =>
    intro off fields vs e h
    have : fields = [] := by simpa [fieldsOf] using e.symm
    subst this
    cases h
    exact ⟨[], .nil⟩
  | cons i t ih =>
    intro off fields vs e h
    unfold fieldsOf at e
    rw [itemField_off] at e
    cases hi : itemField 0 i with
    | nil =>
      obtain ⟨k, rfl⟩ : ∃ k, i = .skip k := by
        cases i <;> simp [itemField] at hi ⊢
      obtain ⟨bs, h1⟩ := ih (off := off + k) (by simpa [itemField, itemSize] using e) h
      exact ⟨_, .skip h1⟩
    | cons f fs =>
      have hfs : fs = [] := by
        cases i <;> simp [itemField] at hi <;> exact hi.2
      subst hfs
      rw [hi] at e
      cases h with
      | nil => simp at e
      | @cons g m _ vs' hm ht =>
        simp only [List.map_cons, List.map_nil, List.cons_append, List.nil_append,
          List.cons.injEq, Prod.mk.injEq] at e
        obtain ⟨⟨e1, e2⟩, e3⟩ := e
        obtain ⟨nm, v⟩ := m
        obtain ⟨hn, hk⟩ := hm
        simp only at hn hk
        subst hn
        obtain ⟨b, hb⟩ := enc_erase e2.symm (enc_exists hk)
        obtain ⟨bs, h1⟩ := ih e3 ht
        rw [← e1]
        exact ⟨_, .field hi hb h1⟩

/-- The types of the name blocks and the source blocks. -/
theorem lost_layout : ∀ c < 256, ∀ fields, stdFields c = some fields → c ∉ keptTypes → c ≠ 0x41 →
    ∃ items, blkWItems c = some items ∧
      (fieldsOf items 0).map (fun f => (f.name, eraseKind f.kind))
        = fields.map (fun f => (f.name, eraseKind f.kind)) ∧
      (fields.map BlkField.name).Nodup ∧
      (sizeOfItems items = 31 ∧ blkWType c c = 1 ∨ sizeOfItems items = 28) := by
  have key0 : ∀ c < 256, (stdFields c).isSome = true → c ∈ keptTypes ∨ c = 0x41 ∨
      c ∈ [0x10, 0x11, 0x12, 0x13, 0x14, 0x15, 0x16, 0x17, 0x18, 0x19, 0x1f] := by decide +kernel
  have key1 : ∀ c ∈ [0x10, 0x11, 0x12, 0x13, 0x14, 0x15, 0x16, 0x17, 0x18, 0x19, 0x1f],
      (blkWItems c).map (fun i => (fieldsOf i 0).map (fun f => (f.name, eraseKind f.kind)))
        = (stdFields c).map (fun l => l.map (fun f => (f.name, eraseKind f.kind))) := by
    decide +kernel
  have key2 : ∀ c < 256, (((stdFields c).getD []).map BlkField.name).Nodup := by decide +kernel
  have key3 : ∀ c ∈ [0x10, 0x11, 0x12, 0x13, 0x14, 0x15, 0x16, 0x17, 0x18, 0x19, 0x1f],
      ((blkWItems c).map sizeOfItems = some 31 ∧ blkWType c c = 1 ∨
        (blkWItems c).map sizeOfItems = some 28) := by decide +kernel
  intro c hc fields hf h1 h2
  have hs : (stdFields c).isSome = true := by rw [hf]; rfl
  have hm := ((key0 c hc hs).resolve_left h1).resolve_left h2
  have k1 := key1 c hm
  have k2 := key2 c hc
  have k3 := key3 c hm
  rw [hf] at k1 k2
  obtain ⟨i, hi, e⟩ := Option.map_eq_some_iff.1 k1
  rw [hi] at k3
  exact ⟨i, hi, e, k2, k3.imp (fun h => ⟨Option.some.inj h.1, h.2⟩) Option.some.inj⟩

/-- **C64, violation.** Every object of one of the five name blocks or six source blocks, whatever
its members, is written as a block that the reader ignores: byte 31 is 1 or 0, which is no type. -/
theorem C64_lost (code : Nat) (fields : List BlkField) (ms : List (String × BlkVal)) (m : BlkMap)
    (hlt : code < 256) (hf : stdFields code = some fields) (hfit : BlkFits fields ms)
    (hk : code ∉ keptTypes) (h41 : code ≠ 0x41) :
    ∃ b, writeRev3Blk code (.r3 code code ms) = .ok b ∧ b.length = 32 ∧
      readRev3Blk b m = .ok m := by
  obtain ⟨items, h1, h2, h3, h4⟩ := lost_layout code hlt fields hf hk h41
  obtain ⟨bs, e1⟩ := encItems_of h2 hfit
  have hl := encItems_length e1
  have hm := memberOf_nodup (ms := ms) (by rw [blkFits_names hfit]; exact h3)
  have hw := writeRev3Blk_ok (ty := code) h1 e1 hm (by omega)
  refine ⟨_, hw, by simp; omega, ?_⟩
  have hz : ∀ x : Byte, blkItems x.toNat = none →
      (bs ++ blkWType code code :: List.replicate (31 - sizeOfItems items) 0)[31]? = some x →
      readRev3Blk (bs ++ blkWType code code :: List.replicate (31 - sizeOfItems items) 0) m
        = .ok m := by
    intro x hx h31
    unfold readRev3Blk
    rw [h31]
    simp only [hx]
  rcases h4 with ⟨h4, h5⟩ | h4
  · refine hz 1 (by decide) ?_
    rw [List.getElem?_append_right (by omega), hl, h4, h5]; rfl
  · refine hz 0 (by decide) ?_
    rw [List.getElem?_append_right (by omega), hl, h4]; rfl

/-- A survey area name, and an electromagnetic source. -/
example : BlkFits ((stdFields 0x11).getD []) [("survey_area_name", .text (List.replicate 31 0x41))] ∧
    0x11 ∉ keptTypes ∧
    writeRev3Blk 0x11 (.r3 0x11 0x11 [("survey_area_name", .text (List.replicate 31 0x41))])
      = .ok (List.replicate 31 0x41 ++ [1]) := by
  refine ⟨?_, by decide, by decide⟩
  simp only [BlkFits, stdFields, stdOther, Option.getD, List.forall₂_cons, List.forall₂_nil_left_iff]
  simp [KindFits]

example : (stdFields 0x19).map (fun l => l.map BlkField.name) = some
    ["expanded_file_number", "sou_line_num", "sou_point_num", "sou_point_index", "source_type",
     "moment", "source_id", "source_set_num", "reshoot_idx", "group_idx", "depth_idx",
     "offset_crossline", "offset_inline", "size", "offset_depth"] := by decide

/-- **C64, violation.** Every sensor block makes the writer store bytes behind the end of its
32-byte buffer: the serial number in the object has 28 characters. -/
theorem C64_sensor_overflow (a b c : Int) (t : Bytes) (ht : t.length = 28) :
    writeRev3Blk 0x41 (.r3 0x41 0x41 [("instrument_test_time", .num a),
      ("sensor_sensitivity", .num b), ("instr_test_result", .num c), ("serial_number", .text t)])
      = isUb .outOfBounds := by
  have app : ∀ (ms : List (String × BlkVal)) (l : List BlkItem) (i : BlkItem) (c c' : Cur) (e : Err),
      wrItems ms l c = .ok ((), c') → wrItem ms i c' = .error e →
      wrItems ms (l ++ [i]) c = .error e := by
    intro ms l i
    induction l with
    | nil =>
      intro c c' e h1 h2
      have : c = c' := congrArg Prod.snd (Except.ok.inj h1)
      subst this
      simp only [List.nil_append, wrItems]
      rw [wr_bind, h2]; rfl
    | cons x t ih =>
      intro c c' e h1 h2
      simp only [wrItems] at h1
      rw [wr_bind] at h1
      obtain ⟨⟨u, s1⟩, e1, k⟩ := bind_eq_ok.1 h1
      simp only [List.cons_append, wrItems]
      rw [wr_bind, e1, ok_bind, ih s1 c' e k h2]
  let ms : List (String × BlkVal) := [("instrument_test_time", .num a),
    ("sensor_sensitivity", .num b), ("instr_test_result", .num c), ("serial_number", .text t)]
  have he : EncItems [.u64 "instrument_test_time", .u32 "sensor_sensitivity",
      .u8 "instr_test_result"] (ms.take 3)
      (encInt .be 8 a ++ (encInt .be 4 b ++ (encInt .be 1 c ++ []))) :=
    .field (f := ⟨"instrument_test_time", 0, .uns 8⟩) rfl (show Enc (.uns 8) (.num a) _ from rfl)
      (.field (f := ⟨"sensor_sensitivity", 0, .uns 4⟩) rfl (show Enc (.uns 4) (.num b) _ from rfl)
      (.field (f := ⟨"instr_test_result", 0, .uns 1⟩) rfl (show Enc (.uns 1) (.num c) _ from rfl) .nil))
  have h1 := wrItems_enc (ms := ms) he
    (fun m hm => memberOf_nodup (ms := ms) (by simp [ms]) m (List.mem_of_mem_take hm)) []
    (n := 32) (by simp)
  have h2 : wrItem ms (.text "serial_number" 28)
      ⟨[] ++ (encInt .be 8 a ++ (encInt .be 4 b ++ (encInt .be 1 c ++ []))),
        List.replicate (32 - (encInt .be 8 a ++ (encInt .be 4 b ++ (encInt .be 1 c ++ []))).length) 0⟩
      = .error (.ub .outOfBounds) := by
    have hm : memberOf ms "serial_number" = some (.text t) :=
      memberOf_nodup (ms := ms) (by simp [ms]) ("serial_number", .text t) (by simp [ms])
    simp only [wrItem, hm, if_pos ht, wrPut]
    rw [if_neg (by simp [ht])]
    rfl
  have h3 := app ms _ _ _ _ _ h1 h2
  change wrBlock 32 (do wrItems ms ([.u64 "instrument_test_time", .u32 "sensor_sensitivity",
      .u8 "instr_test_result"] ++ [.text "serial_number" 28]); wrPoke (blkWType 0x41 0x41)) = _
  unfold wrBlock
  rw [wr_bind, h3]
  rfl

example : (List.replicate 28 (0x41 : Byte)).length = 28 := by decide

/-- **C64.** A block whose type has no writer is replaced by 32 zero bytes. -/
theorem C64_unknown_zero (key : Nat) (b : AddBlk) (h : stdFields key = none) :
    writeRev3Blk key b = .ok (List.replicate 32 0) := by
  have hn : blkWItems key = none := by
    by_cases hk : key < 256
    · have : ∀ k < 256, stdFields k = none → blkWItems k = none := by decide +kernel
      exact this key hk h
    · unfold blkWItems
      split <;> first | rfl | omega
  unfold writeRev3Blk
  simp only [hn]

example : stdFields 0x30 = none := by decide

end Sedaman.Props
