import Verif.Lemmas.TraceHdr
import Verif.Lemmas.Samples
import Verif.Lemmas.Comes
import Verif.Props.Samples
import Verif.Spec.StdTraceHdr

/-!
# Properties C13 to C17 and C42: trace header maps, trace header blocks, trace headers
-/

namespace Sedaman.Props

open Spec

/-! ## C13: what an accepted map guarantees -/

private theorem checkBlocks_mem {m : HdrMap} (h : checkBlocks m = .ok ()) :
    ∀ b ∈ m, checkBlock b = .ok () := by
  induction m with
  | nil => simp
  | cons a t ih =>
    unfold checkBlocks at h
    cases e : checkBlock a with
    | error _ => rw [e] at h; cases h
    | ok u =>
      rw [e, ok_bind] at h
      intro b hb
      rw [List.mem_cons] at hb
      rcases hb with rfl | hb
      · exact e
      · exact ih h b hb

private theorem checkMap_blocks {bh : BinHeader} {m : HdrMap} (h : checkMap bh m = .ok ()) :
    ∀ b ∈ m, checkBlock b = .ok () := by
  unfold checkMap at h
  split at h
  · cases h
  · exact checkBlocks_mem h

private theorem checkFields_sound {p : HField} {fs : List HField}
    (hm : IsStdMap (p :: fs)) (h : checkFields p.off p.ty.size fs = .ok ()) :
    (∀ f ∈ fs, p.off + p.ty.size ≤ f.off) ∧
    fs.Pairwise (fun a b => a.off + a.ty.size ≤ b.off) ∧
    ∀ f ∈ fs, f.off + f.ty.size < 2 ^ 32 → f.off + f.ty.size ≤ 240 := by
  induction fs generalizing p with
  | nil => simp
  | cons f t ih =>
    obtain ⟨hm1, hm2⟩ := hm
    rw [List.pairwise_cons] at hm1
    have hpf := hm1.1 f List.mem_cons_self
    have hf32 := hm2 f (List.mem_cons_of_mem _ List.mem_cons_self)
    unfold checkFields at h
    split at h
    · cases h
    rename_i ho
    split at h
    · cases h
    rename_i hb
    have hstd : IsStdMap (f :: t) := ⟨hm1.2, fun g hg => hm2 g (List.mem_cons_of_mem _ hg)⟩
    obtain ⟨i1, i2, i3⟩ := ih hstd h
    have hpfs : p.off + p.ty.size ≤ f.off := by
      have e : (f.off + 2 ^ 32 - p.off) % 2 ^ 32 = f.off - p.off := by omega
      omega
    refine ⟨?_, ?_, ?_⟩
    · intro g hg
      rw [List.mem_cons] at hg
      rcases hg with rfl | hg
      · exact hpfs
      · have := i1 g hg; omega
    · exact List.pairwise_cons.2 ⟨i1, i2⟩
    · intro g hg h32
      rw [List.mem_cons] at hg
      rcases hg with rfl | hg
      · omega
      · exact i3 g hg h32

/-- **C13.** In every block of an accepted map no two fields share a byte, and the block name has
eight bytes. -/
theorem C13_no_overlap (bh : BinHeader) (m : HdrMap) (hacc : checkMap bh m = .ok ())
    (b : HBlock) (hb : b ∈ m) (hstd : IsStdMap b.fields) :
    b.id.utf8ByteSize = 8 ∧
    b.fields.Pairwise fun x y => x.off + x.ty.size ≤ y.off ∨ y.off + y.ty.size ≤ x.off := by
  have h := checkMap_blocks hacc b hb
  unfold checkBlock at h
  split at h
  · cases h
  rename_i hid
  refine ⟨not_not.1 hid, ?_⟩
  cases hf : b.fields with
  | nil => exact List.Pairwise.nil
  | cons f t =>
    rw [hf] at h hstd
    obtain ⟨h1, h2, _⟩ := checkFields_sound hstd h
    exact (List.pairwise_cons.2 ⟨h1, h2⟩).imp fun h => .inl h

/-- **C13, in-bounds part.** The fields of an accepted map lie inside the 240 byte block, provided
the first field of every block does (the check never looks at it) and no field ends at or beyond
byte 2^32 (there the check's 32 bit sum wraps around). Missing for the full property: exactly these
two cases, which the library accepts (see the next two theorems). -/
theorem C13_in_bounds_partial (bh : BinHeader) (m : HdrMap) (hacc : checkMap bh m = .ok ())
    (b : HBlock) (hb : b ∈ m) (hstd : IsStdMap b.fields)
    (hfirst : ∀ f, b.fields.head? = some f → f.off + f.ty.size ≤ 240)
    (hwrap : ∀ f ∈ b.fields, f.off + f.ty.size < 2 ^ 32) : SafeFields b.fields := by
  refine ⟨?_, (C13_no_overlap bh m hacc b hb hstd).2⟩
  have h := checkMap_blocks hacc b hb
  unfold checkBlock at h
  split at h
  · cases h
  cases hf : b.fields with
  | nil => simp
  | cons f t =>
    rw [hf] at h hstd hwrap hfirst
    obtain ⟨_, _, h3⟩ := checkFields_sound hstd h
    intro g hg
    rw [List.mem_cons] at hg
    rcases hg with rfl | hg
    · exact hfirst g rfl
    · exact h3 g hg (hwrap g (List.mem_cons_of_mem _ hg))

/-- The default map meets all hypotheses. -/
example : checkMap {} defaultMap = .ok () ∧ ∀ b ∈ defaultMap, IsStdMap b.fields ∧
    ∀ f ∈ b.fields, f.off + f.ty.size < 2 ^ 32 := by decide +kernel

/-- **C13 fails: first field.** A map whose only field lies at byte 1000 is accepted, and writing
any trace header with it stores outside the block buffer. -/
theorem C13_first_field_unchecked (bh : BinHeader) (est : LogEst) (bo : ByteOrder) (old : Bytes)
    (hold : old.length = 240) (hbh : bh.revMajor ≤ 1) :
    checkMap bh [⟨"SEG00000", [⟨1000, "FFID", .i32⟩]⟩] = .ok () ∧
    writeTraceHeader est bo [⟨"SEG00000", [⟨1000, "FFID", .i32⟩]⟩] [("FFID", .int 7)] old
      = isUb .outOfBounds := by
  constructor
  · unfold checkMap
    rw [if_neg (by omega)]
    decide +kernel
  · unfold writeTraceHeader
    rw [memsetHdr_eq hold, ok_bind]
    simp only [writeFields, fieldBytes, intOf, Header.get, if_true, ok_bind]
    unfold writeAt
    rw [if_neg (by rw [List.length_replicate]; omega)]
    rfl

/-- **C13 fails: 32 bit wrap-around.** A field four bytes below 2^32 is accepted as well. -/
theorem C13_wrap_unchecked (bh : BinHeader) (est : LogEst) (bo : ByteOrder) (old : Bytes)
    (hold : old.length = 240) (hbh : bh.revMajor ≤ 1) :
    checkMap bh [⟨"SEG00000", [⟨0, "A", .i32⟩, ⟨4294967292, "B", .i32⟩]⟩] = .ok () ∧
    writeTraceHeader est bo [⟨"SEG00000", [⟨0, "A", .i32⟩, ⟨4294967292, "B", .i32⟩]⟩] [] old
      = isUb .outOfBounds := by
  constructor
  · unfold checkMap
    rw [if_neg (by omega)]
    decide +kernel
  · unfold writeTraceHeader
    rw [memsetHdr_eq hold, ok_bind]
    simp only [writeFields, fieldBytes, intOf, Header.get, ok_bind]
    have hl : (writeI32 bo 0).length = 4 := by rw [writeI32_eq, encInt_length]
    rw [writeAt_of_le (by rw [List.length_replicate, hl]; omega), ok_bind]
    unfold writeAt
    rw [if_neg]
    · rfl
    · simp only [List.length_append, List.length_take, List.length_drop, List.length_replicate, hl]
      omega

/-- **C13 fails: empty map.** Before revision 2 a map without blocks is accepted; writing a trace
then indexes an empty vector. -/
theorem C13_empty_map_undefined (bh : BinHeader) (hbh : bh.revMajor ≤ 1) (est : LogEst)
    (bo : ByteOrder) (hdr : Header) (old : Bytes) (hold : old.length = 240) :
    checkMap bh [] = .ok () ∧ writeTraceHeader est bo [] hdr old = isUb .outOfBounds := by
  constructor
  · unfold checkMap
    rw [if_neg (by omega)]
    rfl
  · unfold writeTraceHeader
    rw [memsetHdr_eq hold, ok_bind]

/-- **C13.** No correct map is refused: a map with eight byte block names whose blocks are safe is
accepted (when a number of additional headers is announced it must be the number of blocks after
the first). -/
theorem C13_accepts_safe_maps (bh : BinHeader) (m : HdrMap)
    (hcount : 1 < bh.revMajor → bh.maxNumAddTrHeaders ≠ 0 →
      (m.length : Int) = bh.maxNumAddTrHeaders + 1 ∧ 0 ≤ bh.maxNumAddTrHeaders ∧
        bh.maxNumAddTrHeaders < 2 ^ 31)
    (hb : ∀ b ∈ m, b.id.utf8ByteSize = 8 ∧ IsStdMap b.fields ∧ SafeFields b.fields) :
    checkMap bh m = .ok () := by
  unfold checkMap
  rw [if_neg]
  · clear hcount
    induction m with
    | nil => rfl
    | cons b t ih =>
      unfold checkBlocks
      have key : ∀ (p : HField) (fs : List HField), IsStdMap (p :: fs) → SafeFields (p :: fs) →
          checkFields p.off p.ty.size fs = .ok () := by
        intro p fs
        induction fs generalizing p with
        | nil => intros; rfl
        | cons f t ih =>
          rintro ⟨m1, m2⟩ ⟨s1, s2⟩
          rw [List.pairwise_cons] at m1 s2
          have a := m1.1 f List.mem_cons_self
          have b' := s2.1 f List.mem_cons_self
          have c := s1 f (List.mem_cons_of_mem _ List.mem_cons_self)
          have c2 := s1 p List.mem_cons_self
          have pz : 0 < f.ty.size := by cases f.ty <;> decide
          unfold checkFields
          rw [if_neg (by omega), if_neg (by omega)]
          exact ih f ⟨m1.2, fun g hg => m2 g (List.mem_cons_of_mem _ hg)⟩
            ⟨fun g hg => s1 g (List.mem_cons_of_mem _ hg), s2.2⟩
      obtain ⟨h1, h2, h3⟩ := hb b List.mem_cons_self
      have hc : checkBlock b = .ok () := by
        unfold checkBlock
        rw [if_neg (not_not.2 h1)]
        cases hf : b.fields with
        | nil => rfl
        | cons f fs => rw [hf] at h2 h3; exact key f fs h2 h3
      rw [hc, ok_bind]
      exact ih fun b' hb' => hb b' (List.mem_cons_of_mem _ hb')
  · rintro ⟨h1, h2, h3⟩
    obtain ⟨c1, c2, c3⟩ := hcount h1 h2
    apply h3
    unfold toU
    omega

private theorem checkFields_walk (p : HField) (rest : List HField) :
    ∀ (pre : List HField) (q : HField), IsStdMap (q :: (pre ++ p :: rest)) →
      SafeFields (q :: (pre ++ [p])) →
      checkFields q.off q.ty.size (pre ++ p :: rest) = checkFields p.off p.ty.size rest := by
  have step : ∀ (q f : HField) (t : List HField), q.off < f.off → f.off < 2 ^ 32 →
      f.off + f.ty.size ≤ 240 → q.off + q.ty.size ≤ f.off ∨ f.off + f.ty.size ≤ q.off →
      checkFields q.off q.ty.size (f :: t) = checkFields f.off f.ty.size t := by
    intro q f t h1 h2 h3 h4
    have pz : 0 < f.ty.size := by cases f.ty <;> decide
    conv_lhs => unfold checkFields
    rw [if_neg (by omega), if_neg (by omega)]
  intro pre
  induction pre with
  | nil =>
    rintro q ⟨m1, m2⟩ ⟨s1, s2⟩
    exact step q p rest ((List.pairwise_cons.1 m1).1 p (by simp)) (m2 p (by simp))
      (s1 p (by simp)) ((List.pairwise_cons.1 s2).1 p (by simp))
  | cons f t ih =>
    rintro q ⟨m1, m2⟩ ⟨s1, s2⟩
    rw [List.cons_append, step q f _ ((List.pairwise_cons.1 m1).1 f (by simp)) (m2 f (by simp))
      (s1 f (by simp)) ((List.pairwise_cons.1 s2).1 f (by simp))]
    exact ih f ⟨(List.pairwise_cons.1 m1).2, fun g hg => m2 g (List.mem_cons_of_mem _ hg)⟩
      ⟨fun g hg => s1 g (List.mem_cons_of_mem _ hg), (List.pairwise_cons.1 s2).2⟩

private theorem checkBlock_walk (b : HBlock) (p : HField) (pre rest : List HField)
    (hid : b.id.utf8ByteSize = 8) (hf : b.fields = pre ++ p :: rest) (hm : IsStdMap b.fields)
    (hs : SafeFields (pre ++ [p])) : checkBlock b = checkFields p.off p.ty.size rest := by
  unfold checkBlock
  rw [if_neg (not_not.2 hid)]
  rw [hf] at hm ⊢
  cases pre with
  | nil => rfl
  | cons q t => exact checkFields_walk p rest t q hm hs

/-- **C13.** A block whose name does not have eight bytes is refused. -/
theorem C13_rejects_name (b : HBlock) (h : b.id.utf8ByteSize ≠ 8) :
    checkBlock b = throwExn .mapNameLen := if_pos h

/-- **C13.** The first field `f` that starts inside its predecessor `p` is reported as an
overlap. -/
theorem C13_rejects_overlap (b : HBlock) (pre post : List HField) (p f : HField)
    (hid : b.id.utf8ByteSize = 8) (hf : b.fields = pre ++ p :: f :: post) (hm : IsStdMap b.fields)
    (hs : SafeFields (pre ++ [p])) (ho : f.off < p.off + p.ty.size) :
    checkBlock b = throwExn .mapOverlap := by
  rw [checkBlock_walk b p pre (f :: post) hid hf hm hs]
  have h1 : p.off < f.off := by
    have := (List.pairwise_append.1 (hf ▸ hm.1)).2.1
    exact (List.pairwise_cons.1 this).1 f List.mem_cons_self
  have h2 : f.off < 2 ^ 32 := hm.2 f (by rw [hf]; simp)
  unfold checkFields
  rw [if_pos (by omega)]

/-- **C13.** The first field `f` after a safe prefix that ends beyond byte 240 is reported (unless
its end wraps around 2^32). -/
theorem C13_rejects_bounds (b : HBlock) (pre post : List HField) (p f : HField)
    (hid : b.id.utf8ByteSize = 8) (hf : b.fields = pre ++ p :: f :: post) (hm : IsStdMap b.fields)
    (hs : SafeFields (pre ++ [p])) (ho : p.off + p.ty.size ≤ f.off)
    (h240 : 240 < f.off + f.ty.size) (h32 : f.off + f.ty.size < 2 ^ 32) :
    checkBlock b = throwExn .mapBounds := by
  rw [checkBlock_walk b p pre (f :: post) hid hf hm hs]
  unfold checkFields
  rw [if_neg (by omega), if_pos (by omega)]

/-- Both hypotheses are met by small maps. -/
example : checkBlock ⟨"SEG00000", [⟨0, "A", .i32⟩, ⟨2, "B", .i16⟩]⟩ = throwExn .mapOverlap ∧
    checkBlock ⟨"SEG00000", [⟨0, "A", .i32⟩, ⟨238, "B", .i32⟩]⟩ = throwExn .mapBounds ∧
    SafeFields ([] ++ [⟨0, "A", .i32⟩]) ∧ IsStdMap [⟨0, "A", .i32⟩, ⟨238, "B", .i32⟩] := by
  decide +kernel

/-- **C13.** From revision 2 on, an announced number of additional trace headers that differs from
the number of blocks after the first is refused. -/
theorem C13_rejects_count (bh : BinHeader) (b : HBlock) (m : HdrMap) (hrev : 1 < bh.revMajor)
    (hpos : 0 < bh.maxNumAddTrHeaders) (hmax : bh.maxNumAddTrHeaders < 2 ^ 31)
    (hlen : m.length < 2 ^ 63) (hne : (m.length : Int) ≠ bh.maxNumAddTrHeaders) :
    checkMap bh (b :: m) = throwExn .addHdrCount := by
  unfold checkMap
  rw [if_pos]
  refine ⟨hrev, by omega, ?_⟩
  rw [List.length_cons]
  unfold toU
  omega

example : checkMap { revMajor := 2, maxNumAddTrHeaders := 2 } defaultMap = throwExn .addHdrCount ∧
    checkMap { revMajor := 2, maxNumAddTrHeaders := 1 } defaultMap = .ok () := by decide +kernel

/-! ## C14: the default map -/

/-- **C14.** The default map is accepted, with and without its extension block being announced. -/
theorem C14_accepted (bh : BinHeader)
    (h : bh.revMajor ≤ 1 ∨ bh.maxNumAddTrHeaders = 0 ∨ bh.maxNumAddTrHeaders = 1) :
    checkMap bh defaultMap = .ok () := by
  apply C13_accepts_safe_maps
  · intro h1 h2
    rcases h with h | h | h
    · omega
    · omega
    · rw [h]; decide
  · decide +kernel

/-- **C14.** All fields are inside the block and disjoint, and no name occurs twice in a block. -/
theorem C14_safe : ∀ b ∈ defaultMap,
    SafeFields b.fields ∧ (b.fields.map (·.name)).Nodup := by decide +kernel

/-- **C14.** The first block has exactly the items of the standard trace header, the second
exactly those of the first extension, each at the bytes given by the standard. -/
theorem C14_positions :
    defaultMap.map (fun b => b.fields.map fun f => (f.name, f.off + 1, f.off + f.ty.size)) =
      [stdTraceHeader, stdTraceExtension] := by decide +kernel

/-- **C14.** In the standard header every item is a signed integer of its width; in the extension
SAMP_NUM, NANOSECOND and CABLE_NUM are 4 byte integers and coordinates are doubles. -/
theorem C14_types : ∀ b ∈ defaultMap, ∀ f ∈ b.fields,
    (b.id = "SEG00000" → f.ty = .i16 ∨ f.ty = .i32) ∧
    (b.id = "SEG00001" → f.name ∈ ["SOU_X", "SOU_Y", "REC_X", "REC_Y", "CDP_X", "CDP_Y", "OFFSET",
      "R_ELEV", "R_DEPTH", "S_ELEV", "S_DEPTH", "R_DATUM", "S_DATUM", "S_WATER", "R_WATER", "SAMP_INT"] →
      f.ty = .ieeeDouble) := by decide +kernel

/-! ## C15, C16: one block -/

/-- **C16.** A header block is exactly 240 bytes and every byte that belongs to no field is zero,
whatever the shared buffer held before. -/
theorem C16_block (est : LogEst) (bo : ByteOrder) (fields : List HField) (hdr : Header)
    (old out : Bytes) (hold : old.length = 240) (hs : SafeFields fields)
    (hw : writeBlock est bo fields hdr old = .ok out) :
    out.length = 240 ∧ ∀ i, i < 240 → ¬ Covered fields i → out[i]? = some 0 := by
  unfold writeBlock at hw
  rw [memsetHdr_eq hold, ok_bind] at hw
  obtain ⟨h1, _, h3⟩ := writeFields_spec hs.2 hw
  refine ⟨by rw [h1, List.length_replicate], fun i hi hn => ?_⟩
  rw [h3 i hn, List.getElem?_replicate, if_pos hi]

/-- **C16.** What is written does not depend on earlier traces. -/
theorem C16_history_free (est : LogEst) (bo : ByteOrder) (fields : List HField) (hdr : Header)
    (old old' : Bytes) (h : old.length = 240) (h' : old'.length = 240) :
    writeBlock est bo fields hdr old = writeBlock est bo fields hdr old' := by
  unfold writeBlock
  rw [memsetHdr_eq h, memsetHdr_eq h']

/-- **C16.** The first block written for a trace is that of the first entry of the map. -/
theorem C16_first_block (est : LogEst) (bo : ByteOrder) (b : HBlock) (m : HdrMap) (hdr : Header)
    (old : Bytes) : writeTraceHeader est bo (b :: m) hdr old = writeBlock est bo b.fields hdr old := rfl

/-- A block with two fields, over a dirty buffer: 4 + 2 bytes are covered. -/
example : writeBlock (.strict fun _ => 0) .be [⟨8, "FFID", .i32⟩, ⟨114, "SAMP_NUM", .i16⟩]
      [("FFID", .int 258), ("SAMP_NUM", .int (-1))] (List.replicate 240 0xAA) =
    .ok (List.replicate 8 0 ++ [0, 0, 1, 2] ++ List.replicate 102 0 ++ [0xff, 0xff] ++
      List.replicate 124 0) ∧
    SafeFields [⟨8, "FFID", .i32⟩, ⟨114, "SAMP_NUM", .i16⟩] := by decide +kernel

/-- **C15.** Writing succeeds for every header whose mapped values are integers, when those of IBM
float fields can be encoded. -/
theorem C15_write_succeeds (est : LogEst) (bo : ByteOrder) (fields : List HField) (hdr : Header)
    (old : Bytes) (hold : old.length = 240) (hs : SafeFields fields)
    (hint : ∀ f ∈ fields, ∃ v, headerInt hdr f.name v ∧ FieldStorable est bo f.ty v) :
    ∃ out, writeBlock est bo fields hdr old = .ok out := by
  unfold writeBlock
  rw [memsetHdr_eq hold, ok_bind]
  apply writeFields_total
  intro f hf
  obtain ⟨v, hv, hst⟩ := hint f hf
  refine ⟨by rw [List.length_replicate]; exact hs.1 f hf, v, ?_⟩
  have e : intOf hdr f.name = .ok v := by
    unfold intOf
    rcases hv with h | ⟨h, rfl⟩ <;> rw [h]
  obtain ⟨bs, hb⟩ := fieldBytes_total hst
  exact ⟨bs, e, hb⟩

private theorem find_named {fs : List HField} (hn : (fs.map (·.name)).Nodup) {f : HField}
    (hf : f ∈ fs) : fs.reverse.find? (fun g => g.name = f.name) = some f := by
  have hn' : (fs.reverse.map (·.name)).Nodup := by rw [List.map_reverse]; exact List.pairwise_reverse.2 (hn.imp fun h => h.symm)
  have hf' : f ∈ fs.reverse := List.mem_reverse.2 hf
  generalize fs.reverse = gs at *
  induction gs with
  | nil => cases hf'
  | cons g t ih =>
    rw [List.map_cons, List.nodup_cons] at hn'
    rw [List.find?_cons]
    rw [List.mem_cons] at hf'
    rcases hf' with rfl | hf'
    · simp
    · have : g.name ≠ f.name := fun e => hn'.1 (e ▸ List.mem_map_of_mem hf')
      simp only [this, decide_false]
      exact ih hn'.2 hf'

/-- **C15.** A header block that was written and is read back gives exactly the mapped names, under
every name of an integer field the integer that was set, reduced to the width of the field (zero
when it was not set), and under every name of a floating point field that integer as it comes back
in the format of the field. Missing: blocks that name a field twice, and headers the writer fails on
(C17 and the next theorem). -/
theorem C15_roundtrip_partial (est : LogEst) (bo : ByteOrder) (fields : List HField) (hdr : Header)
    (old out : Bytes) (hold : old.length = 240) (hs : SafeFields fields)
    (hn : (fields.map (·.name)).Nodup)
    (hw : writeBlock est bo fields hdr old = .ok out) :
    ∃ back, readFields bo fields out [] = .ok back ∧ HeaderBack est bo fields hdr back := by
  unfold writeBlock at hw
  rw [memsetHdr_eq hold, ok_bind] at hw
  obtain ⟨h1, h2, _⟩ := writeFields_spec hs.2 hw
  rw [List.length_replicate] at h1
  have hval : ∀ f, ∃ v, f ∈ fields → readAt out f.off (readField bo f.ty) = .ok v := by
    intro f
    by_cases hf : f ∈ fields
    · obtain ⟨hb, v, bs, hv, hbs, hsl⟩ := h2 f hf
      have hl := fieldBytes_length hbs
      obtain ⟨w, hw⟩ := readField_ok bo f.ty bs hl
      exact ⟨w, fun _ => readAt_slice out f.off f.ty.size _ bs w (by have := hs.1 f hf; omega) hsl hw⟩
    · exact ⟨.int 0, fun h => absurd h hf⟩
  choose val hval using hval
  obtain ⟨back, hb1, hb2⟩ := readFields_spec bo fields out [] val hval
  refine ⟨back, hb1, ?_, ?_, ?_⟩
  · intro n
    rw [readFields_keys bo fields out [] back hb1 n]
    simp [Header.keys]
  · intro f hf k hk v hv
    obtain ⟨hb, v', bs, hv', hbs, hsl⟩ := h2 f hf
    have e : v' = v := by
      unfold intOf at hv'
      rcases hv with h | ⟨h, h0⟩ <;> rw [h] at hv' <;> simp only [Except.ok.injEq] at hv'
      · exact hv'.symm
      · rw [h0]; exact hv'.symm
    subst e
    obtain ⟨r, hr1, hr2, hr3⟩ := int_field_rt est bo f.ty k hk v'
    refine ⟨r, hr1, ?_⟩
    rw [hr2, Except.ok.injEq] at hbs
    have hl : bs.length = f.ty.size := by rw [← fieldBytes_length (est := est) (bo := bo) hr2, hbs]
    have := readAt_slice out f.off f.ty.size (readField bo f.ty) bs (.int r)
      (by have := hs.1 f hf; omega) hsl (by rw [← hbs]; exact hr3)
    rw [hval f hf, Except.ok.injEq] at this
    rw [hb2 f.name, find_named hn hf]
    simp only [this]
  · intro f hf fmt hk v hv
    obtain ⟨hb, v', bs, hv', hbs, hsl⟩ := h2 f hf
    have e : v' = v := by
      unfold intOf at hv'
      rcases hv with h | ⟨h, h0⟩ <;> rw [h] at hv' <;> simp only [Except.ok.injEq] at hv'
      · exact hv'.symm
      · rw [h0]; exact hv'.symm
    subst e
    obtain ⟨y, hy1, hy2⟩ := float_field_rt hk hbs
    refine ⟨y, hy1, ?_⟩
    have := readAt_slice out f.off f.ty.size (readField bo f.ty) bs (.dbl y)
      (by have := hs.1 f hf; omega) hsl hy2
    rw [hval f hf, Except.ok.injEq] at this
    rw [hb2 f.name, find_named hn hf]
    simp only [this]

/-- **C15 fails for IBM float fields that are not set.** They are not read back as zero: writing the
header is undefined behaviour, the logarithm of zero is converted to an unsigned integer. -/
theorem C15_ibm_unset_undefined (est : LogEst) (hst : est.Strict) (bo : ByteOrder) (name : String) (old : Bytes)
    (hold : old.length = 240) : writeBlock est bo [⟨8, name, .ibm⟩] [] old = isUb .floatToInt := by
  unfold writeBlock
  rw [memsetHdr_eq hold, ok_bind]
  unfold writeFields
  have h : fieldBytes est bo .ibm 0 = isUb .floatToInt := by
    obtain ⟨w, h1, h2⟩ := C12_zero_undefined est hst bo (dblOfInt 0) (dblRat_ofInt (by decide))
    have e := Except.ok.inj h1
    subst e
    exact h2
  have hi : intOf [] name = .ok 0 := rfl
  simp only [hi, ok_bind, h]
  rfl

/-- **C15 fails for single precision fields**, in the sense that an integer that fits in the four
bytes of the field is changed: 16777217 comes back as 16777216. -/
theorem C15_single_field_rounds : (do
      let out ← writeBlock (.strict fun _ => 0) .be [⟨8, "GAIN", .ieeeSingle⟩] [("GAIN", .int 16777217)] (List.replicate 240 0)
      readFields .be [⟨8, "GAIN", .ieeeSingle⟩] out []) = .ok [("GAIN", .dbl (dblOfInt 16777216))] := by
  decide +kernel

/-- The integer is rounded once: 2^60 + 2^36 + 1 comes back as 2^60 + 2^37 although the nearest `double` lies
half way between two singles. -/
example : (do
      let out ← writeBlock (.strict fun _ => 0) .be [⟨8, "GAIN", .ieeeSingle⟩] [("GAIN", .int (2 ^ 60 + 2 ^ 36 + 1))]
        (List.replicate 240 0)
      readFields .be [⟨8, "GAIN", .ieeeSingle⟩] out []) = .ok [("GAIN", .dbl (dblOfInt (2 ^ 60 + 2 ^ 37)))] ∧
    dblToSgl (dblOfInt (2 ^ 60 + 2 ^ 36 + 1)) ≠ sglOfInt (2 ^ 60 + 2 ^ 36 + 1) := by
  decide +kernel

/-- The default standard header meets the hypotheses on the map. -/
example : ∀ b ∈ defaultMap, SafeFields b.fields ∧ (b.fields.map (·.name)).Nodup :=
  C14_safe

/-- **C15.** In range values come back unchanged. -/
theorem C15_reduced_in_range (k : IntKind) (v r : Int) (hk : k ≠ .u64 ∧ k.InRange v ∨
    k = .u64 ∧ IntKind.i64.InRange v) (h : Reduced k v r) : r = v := by
  obtain ⟨h1, h2⟩ := h
  cases k <;> simp [IntKind.InRange, IntKind.signed, IntKind.size] at hk h1 h2 <;> omega

/-- A 16 bit field set to 65535 is read back as -1. -/
example : Reduced .i16 65535 (-1) := by unfold Reduced; decide +kernel

/-! ## C17: floating point header values -/

/-- **C17 fails.** A header value that is a double cannot be written at all: for every map that
contains its name in a block, whatever the type of the field, writing throws (or hits undefined
behaviour in an earlier field), it never succeeds. -/
theorem C17_double_value_refused (est : LogEst) (bo : ByteOrder) (fields : List HField)
    (hdr : Header) (old : Bytes) (f : HField) (hf : f ∈ fields) (d : Dbl)
    (hd : hdr.get f.name = some (.dbl d)) :
    ∀ out, writeBlock est bo fields hdr old ≠ .ok out := by
  intro out hw
  unfold writeBlock at hw
  cases hm : memsetHdr old with
  | error e => rw [hm] at hw; cases hw
  | ok buf =>
    rw [hm, ok_bind] at hw
    clear hm
    induction fields generalizing buf with
    | nil => cases hf
    | cons g t ih =>
      simp only [writeFields] at hw
      cases hv : intOf hdr g.name with
      | error e => rw [hv] at hw; cases hw
      | ok v =>
      rw [hv, ok_bind] at hw
      cases hb : fieldBytes est bo g.ty v with
      | error e => rw [hb] at hw; cases hw
      | ok bs =>
      rw [hb, ok_bind] at hw
      cases hwa : writeAt buf g.off bs with
      | error e => rw [hwa] at hw; cases hw
      | ok b1 =>
      rw [hwa, ok_bind] at hw
      rw [List.mem_cons] at hf
      rcases hf with rfl | hf
      · unfold intOf at hv
        rw [hd] at hv
        cases hv
      · exact ih hf b1 hw

/-- **C17 fails, concretely.** 1.5 in an `ieee_double` field throws `bad_variant_access`. -/
theorem C17_fails (est : LogEst) (bo : ByteOrder) (old : Bytes) (hold : old.length = 240) :
    writeBlock est bo [⟨96, "SOU_X", .ieeeDouble⟩] [("SOU_X", .dbl 0x3ff8000000000000)] old
      = throwExn .badVariantAccess := by
  unfold writeBlock
  rw [memsetHdr_eq hold, ok_bind]
  rfl

/-- **C17, what works.** An integer up to 2^53 in magnitude that is mapped to an `ieee_double`
field is stored and read back as the double of the same value. Missing for the full property:
values that are doubles. -/
theorem C17_integer_in_double_field_partial (est : LogEst) (bo : ByteOrder) (v : Int)
    (hv : -(2 ^ 53) ≤ v ∧ v ≤ 2 ^ 53) (rest : Bytes) :
    ∃ bs d, fieldBytes est bo .ieeeDouble v = .ok bs ∧
      readField bo .ieeeDouble (bs ++ rest) = .ok (.dbl d, rest) ∧ dblRat d = some (v : ℚ) := by
  refine ⟨writeIeeeDouble bo (dblOfInt v), dblOfInt v, rfl, ?_, ?_⟩
  · exact step_dbl bo (dblOfInt v) rest _
  · exact dblRat_ofInt (by omega)

/-! ## C42: `Trace::Header` -/

/-- **C42.** After any sequence of `set` calls, `get` gives the last value set for the key, or the
initial one if the key was not set. -/
theorem C42_get_after_sets (h : Header) (ops : List (String × Value)) (k : String) :
    (ops.foldl (fun h p => h.set p.1 p.2) h).get k =
      match ops.reverse.find? (fun p => p.1 = k) with
      | some p => some p.2
      | none => h.get k := by
  induction ops generalizing h with
  | nil => rfl
  | cons p t ih =>
    rw [List.foldl_cons, ih, List.reverse_cons, List.find?_append]
    cases e : t.reverse.find? (fun p => p.1 = k) with
    | some q => rfl
    | none =>
      simp only [Option.none_or, List.find?_cons, List.find?_nil, get_set]
      by_cases hk : p.1 = k <;> simp [hk]

/-- **C42.** `keys` lists each present key exactly once, after any sequence of `set` calls on a
header that has this property (in particular an empty one). -/
theorem C42_keys_once (h : Header) (ops : List (String × Value)) (h0 : h.keys.Nodup) :
    (ops.foldl (fun h p => h.set p.1 p.2) h).keys.Nodup ∧
    ∀ k, k ∈ (ops.foldl (fun h p => h.set p.1 p.2) h).keys ↔
      ((ops.foldl (fun h p => h.set p.1 p.2) h).get k).isSome := by
  refine ⟨?_, fun k => (get_isSome _ k).symm⟩
  induction ops generalizing h with
  | nil => exact h0
  | cons p t ih =>
    rw [List.foldl_cons]
    apply ih
    rw [keys_set]
    split
    · exact h0
    · rename_i hn
      exact List.nodup_append.2 ⟨h0, by simp, by
        intro a ha b hb
        rw [List.mem_singleton] at hb
        rintro rfl
        exact hn (hb ▸ ha)⟩

/-- **C42.** The keys present are the initial ones and those that were set. -/
theorem C42_key_set (h : Header) (ops : List (String × Value)) (k : String) :
    k ∈ (ops.foldl (fun h p => h.set p.1 p.2) h).keys ↔ k ∈ h.keys ∨ k ∈ ops.map (·.1) := by
  induction ops generalizing h with
  | nil => simp
  | cons p t ih =>
    rw [List.foldl_cons, ih, keys_set, List.map_cons, List.mem_cons]
    split
    · rename_i hm
      constructor
      · rintro (a | a)
        · exact .inl a
        · exact .inr (.inr a)
      · rintro (a | rfl | a)
        · exact .inl a
        · exact .inl hm
        · exact .inr a
    · simp only [List.mem_append, List.mem_singleton]
      tauto

/-- Setting a key twice. -/
example :
    let h : Header := ([("FFID", .int 1), ("CHAN", .int 2), ("FFID", .dbl 0)] :
      List (String × Value)).foldl (fun h p => Header.set h p.1 p.2) []
    Header.get h "FFID" = some (.dbl 0) ∧ Header.keys h = ["FFID", "CHAN"] ∧
    Header.get h "SAMP_NUM" = none := by decide +kernel

end Sedaman.Props
