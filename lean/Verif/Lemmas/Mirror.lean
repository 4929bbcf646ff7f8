import Verif.Spec.Mirror
import Verif.Lemmas.MapView
import Verif.Lemmas.Visits
import Verif.Lemmas.SegyCut

/-!
# Reading in the other byte order
-/

namespace Sedaman

open Spec

theorem decNat_reverse {bo bo' : ByteOrder} (h : bo ≠ bo') (p : Bytes) : decNat bo' p.reverse = decNat bo p := by
  cases bo <;> cases bo' <;> first | exact absurd rfl h | rfl | exact congrArg beNat (List.reverse_reverse p)

/-- A reader of `n` bytes whose result is a function of the number in the byte order. -/
def NumRd {α : Type} (n : Nat) (g : Nat → α) (r : ByteOrder → Rd α) : Prop :=
  ∀ bo bs, r bo bs = if n ≤ bs.length then .ok (g (decNat bo (bs.take n)), bs.drop n) else isUb .outOfBounds

theorem numRd_nat (n : Nat) : NumRd n id fun bo => rdNat bo n := fun _ _ => rfl

theorem numRd_int (n : Nat) : NumRd n (toS n) fun bo => rdInt bo n := fun bo bs => by
  show rdInt bo n bs = _
  unfold rdInt
  by_cases h : n ≤ bs.length
  · rw [if_pos h, if_pos h, decInt_eq, List.length_take, Nat.min_eq_left h]
  · rw [if_neg h, if_neg h]

theorem numRd_map {α β : Type} {n : Nat} {g : Nat → α} {r : ByteOrder → Rd α} (h : NumRd n g r) (k : α → β) :
    NumRd n (fun x => k (g x)) (fun bo => do pure (k (← r bo))) := fun bo bs => by
  show ((r bo >>= fun a => pure (k a)) : Rd β) bs = _
  rw [rd_bind, h]
  by_cases hn : n ≤ bs.length
  · rw [if_pos hn, if_pos hn]; rfl
  · rw [if_neg hn, if_neg hn]; rfl

theorem numRd_ibm : NumRd 4 (fun x => ibmDecode x) readIbm := fun bo bs => by
  simp only [readIbm, readU32_eq]
  exact rd_map_nat bo 4 _ bs

theorem numRd_float : ∃ g, NumRd 4 g readIeeeFloat := ⟨fun x => sglToDbl (BitVec.ofNat 32 x), fun bo bs => by
  simp only [readIeeeFloat, readU32_eq]
  exact rd_map_nat bo 4 _ bs⟩

theorem numRd_double : ∃ g, NumRd 8 g readIeeeDouble := ⟨fun x => BitVec.ofNat 64 x, fun bo bs => by
  simp only [readIeeeDouble, readU64_eq]
  exact rd_map_nat bo 8 _ bs⟩

theorem numRd_i8 : NumRd 1 (toS 1) fun _ => readI8 := fun bo bs => by
  rw [readI8_eq bo]; exact numRd_int 1 bo bs
theorem numRd_u8 : NumRd 1 id fun _ => readU8 := fun bo bs => by
  rw [readU8_eq bo]; exact numRd_nat 1 bo bs
theorem numRd_i16 : NumRd 2 (toS 2) readI16 := fun bo bs => by rw [readI16_eq bo]; exact numRd_int 2 bo bs
theorem numRd_u16 : NumRd 2 id readU16 := fun bo bs => by rw [readU16_eq bo]; exact numRd_nat 2 bo bs
theorem numRd_i24 : NumRd 3 (toS 3) readI24 := fun bo bs => by rw [readI24_eq bo]; exact numRd_int 3 bo bs
theorem numRd_u24 : NumRd 3 id readU24 := fun bo bs => by rw [readU24_eq bo]; exact numRd_nat 3 bo bs
theorem numRd_i32 : NumRd 4 (toS 4) readI32 := fun bo bs => by rw [readI32_eq bo]; exact numRd_int 4 bo bs
theorem numRd_u32 : NumRd 4 id readU32 := fun bo bs => by rw [readU32_eq bo]; exact numRd_nat 4 bo bs
theorem numRd_i64 : NumRd 8 (toS 8) readI64 := fun bo bs => by rw [readI64_eq bo]; exact numRd_int 8 bo bs
theorem numRd_u64 : NumRd 8 id readU64 := fun bo bs => by rw [readU64_eq bo]; exact numRd_nat 8 bo bs

theorem num_reader {fmt : Int} (h : fmt ∈ supportedFormats) : ∃ n r g, bytesPerSample fmt = some n ∧ 0 < n ∧
    sampleReader fmt = .ok r ∧ NumRd n g r := by
  obtain ⟨gf, hf⟩ := numRd_float
  obtain ⟨gd, hd⟩ := numRd_double
  simp only [supportedFormats, List.mem_cons, List.not_mem_nil, or_false] at h
  rcases h with rfl | rfl | rfl | rfl | rfl | rfl | rfl | rfl | rfl | rfl | rfl | rfl | rfl
  · exact ⟨_, _, _, rfl, by decide, rfl, numRd_ibm⟩
  · exact ⟨_, _, _, rfl, by decide, rfl, numRd_map numRd_i32 _⟩
  · exact ⟨_, _, _, rfl, by decide, rfl, numRd_map numRd_i16 _⟩
  · exact ⟨_, _, _, rfl, by decide, rfl, hf⟩
  · exact ⟨_, _, _, rfl, by decide, rfl, hd⟩
  · exact ⟨_, _, _, rfl, by decide, rfl, numRd_map numRd_i24 _⟩
  · exact ⟨_, _, _, rfl, by decide, rfl, numRd_map numRd_i8 _⟩
  · exact ⟨_, _, _, rfl, by decide, rfl, numRd_map numRd_i64 _⟩
  · exact ⟨_, _, _, rfl, by decide, rfl, numRd_map numRd_u32 fun x => dblOfInt (x : Nat)⟩
  · exact ⟨_, _, _, rfl, by decide, rfl, numRd_map numRd_u16 fun x => dblOfInt (x : Nat)⟩
  · exact ⟨_, _, _, rfl, by decide, rfl, numRd_map numRd_u64 fun x => dblOfInt (x : Nat)⟩
  · exact ⟨_, _, _, rfl, by decide, rfl, numRd_map numRd_u24 fun x => dblOfInt (x : Nat)⟩
  · exact ⟨_, _, _, rfl, by decide, rfl, numRd_map numRd_u8 fun x => dblOfInt (x : Nat)⟩

theorem num_field (ty : VType) : ∃ g, NumRd ty.size g fun bo => readField bo ty := by
  obtain ⟨gf, hf⟩ := numRd_float
  obtain ⟨gd, hd⟩ := numRd_double
  cases ty
  · exact ⟨_, numRd_map numRd_i8 Value.int⟩
  · exact ⟨_, numRd_map numRd_u8 fun x => Value.int (x : Nat)⟩
  · exact ⟨_, numRd_map numRd_i16 Value.int⟩
  · exact ⟨_, numRd_map numRd_u16 fun x => Value.int (x : Nat)⟩
  · exact ⟨_, numRd_map numRd_i24 Value.int⟩
  · exact ⟨_, numRd_map numRd_u24 fun x => Value.int (x : Nat)⟩
  · exact ⟨_, numRd_map numRd_i32 Value.int⟩
  · exact ⟨_, numRd_map numRd_u32 fun x => Value.int (x : Nat)⟩
  · exact ⟨_, numRd_map numRd_i64 Value.int⟩
  · exact ⟨_, numRd_map numRd_u64 fun x => Value.int (toS 8 x)⟩
  · exact ⟨_, numRd_map numRd_ibm Value.dbl⟩
  · exact ⟨_, numRd_map hf Value.dbl⟩
  · exact ⟨_, numRd_map hd Value.dbl⟩

theorem mirrored_symm {o w : Nat} {b b' : Bytes} (h : Mirrored o w b b') : Mirrored o w b' b := by
  unfold Mirrored at h ⊢
  rw [h, List.reverse_reverse]

/-- What is read at a place and its mirror image. -/
theorem num_at {α : Type} {n : Nat} {g : Nat → α} {r : ByteOrder → Rd α} (h : NumRd n g r) {bo bo' : ByteOrder}
    (hbo : bo ≠ bo') {i : Nat} {b b' : Bytes} (hl : b'.length = b.length) (hm : i + n ≤ b.length → Mirrored i n b b') {a : α} {rest : Bytes}
    (hr : r bo (b.drop i) = .ok (a, rest)) :
    rest = b.drop (i + n) ∧ r bo' (b'.drop i) = .ok (a, b'.drop (i + n)) ∧ n ≤ b.length - i := by
  rw [h] at hr
  split at hr
  · rename_i hn
    rw [List.length_drop] at hn
    obtain ⟨rfl, rfl⟩ := Prod.mk.inj (Except.ok.inj hr)
    refine ⟨List.drop_drop, ?_, hn⟩
    rw [h, if_pos (by rw [List.length_drop, hl]; exact hn), List.drop_drop]
    by_cases h0 : n = 0
    · subst h0
      rw [List.take_zero, List.take_zero]
      cases bo <;> cases bo' <;> rfl
    · rw [hm (by omega), decNat_reverse hbo]
  · cases hr

theorem readFields_mirror {bo bo' : ByteOrder} (hbo : bo ≠ bo') {fs : List HField} {b b' : Bytes}
    (hl : b'.length = b.length) (hm : ∀ f ∈ fs, f.off + f.ty.size ≤ b.length → Mirrored f.off f.ty.size b b')
    {acc h : Header} (hr : readFields bo fs b acc = .ok h) : readFields bo' fs b' acc = .ok h := by
  induction fs generalizing acc with
  | nil => exact hr
  | cons f t ih =>
    unfold readFields at hr ⊢
    obtain ⟨v, h1, h2⟩ := bind_ok hr
    obtain ⟨g, hg⟩ := num_field f.ty
    have h1' : readAt b' f.off (readField bo' f.ty) = .ok v := by
      unfold readAt at h1 ⊢
      split at h1
      · rename_i hle
        rw [if_pos (by rw [hl]; exact hle)]
        obtain ⟨⟨v', rest⟩, k1, k2⟩ := bind_ok h1
        obtain ⟨-, k3, -⟩ := num_at hg hbo hl (hm f List.mem_cons_self) k1
        rw [k3, ok_bind]
        exact k2
      · cases h1
    rw [h1', ok_bind]
    exact ih (fun x hx => hm x (List.mem_cons_of_mem _ hx)) h2

theorem mirrored_slice {p o w n : Nat} {b b' : Bytes} (h : Mirrored (p + o) w b b') (hw : o + w ≤ n) :
    Mirrored o w ((b.drop p).take n) ((b'.drop p).take n) := by
  unfold Mirrored at h ⊢
  rw [List.drop_take, List.drop_take, List.take_take, List.take_take, Nat.min_eq_left (by omega), List.drop_drop,
    List.drop_drop]
  exact h

theorem readBlocks_mirror {bo bo' : ByteOrder} (hbo : bo ≠ bo') {m : HdrMap} {c c' : Bytes} {n i : Nat}
    (hl : c'.length = c.length)
    (hm : ∀ j, i ≤ j → j < i + n → ∀ b, m[j]? = some b → ∀ f ∈ b.fields, f.off + f.ty.size ≤ 240 → Mirrored (240 * j + f.off) f.ty.size c c')
    {acc h : Header} {f : File} (hr : readBlocks bo m n i ⟨c, 240 * i⟩ acc = .ok (h, f)) :
    readBlocks bo' m n i ⟨c', 240 * i⟩ acc = .ok (h, ⟨c', 240 * (i + n)⟩) := by
  induction n generalizing i acc with
  | zero =>
    simp only [readBlocks, Except.ok.injEq, Prod.mk.injEq] at hr ⊢
    exact ⟨hr.1, rfl⟩
  | succ n ih =>
    unfold readBlocks at hr ⊢
    cases hmi : m[i]? with
    | some blk =>
      rw [hmi] at hr
      simp only at hr ⊢
      obtain ⟨⟨buf, f1⟩, h1, k⟩ := bind_ok hr
      obtain ⟨acc', h2, k2⟩ := bind_ok k
      obtain ⟨hb, hbl, rfl⟩ := read_ok h1
      simp only at hb k2
      have hle : 240 ≤ c.length - 240 * i := by
        have := hbl
        rw [hb, List.length_take, List.length_drop] at this
        unfold trHeaderSize at this
        omega
      have hl' : ((c'.drop (240 * i)).take trHeaderSize).length = trHeaderSize := by
        rw [List.length_take, List.length_drop, hl]
        unfold trHeaderSize
        omega
      rw [read_eq (f := ⟨c', 240 * i⟩) (n := trHeaderSize) hl', ok_bind]
      simp only
      rw [readFields_mirror hbo (b := buf) (hl'.trans hbl.symm) (fun f hf hfb => by
        rw [hb]
        have hfb' : f.off + f.ty.size ≤ 240 := by rw [hbl] at hfb; exact hfb
        exact mirrored_slice (hm i (Nat.le_refl i) (by omega) blk hmi f hf hfb') hfb') h2, ok_bind]
      have := ih (i := i + 1) (fun j h1 h2 => hm j (by omega) (by omega)) (acc := acc') (by
        rw [show 240 * (i + 1) = 240 * i + trHeaderSize from by unfold trHeaderSize; omega]; exact k2)
      rw [show 240 * i + trHeaderSize = 240 * (i + 1) from by unfold trHeaderSize; omega, this]
      congr 3
      omega
    | none =>
      rw [hmi] at hr
      simp only at hr ⊢
      have e (f : File) : f.seekCur (trHeaderSize : Nat) = .ok ⟨f.data, f.pos + 240⟩ := seekCur_nat f 240
      rw [e, ok_bind] at hr
      rw [e, ok_bind]
      have := ih (i := i + 1) (fun j h1 h2 => hm j (by omega) (by omega)) (acc := acc) hr
      rw [show ({ data := c', pos := 240 * i } : File).pos + 240 = 240 * (i + 1) from rfl, this]
      congr 3
      omega

theorem decode_mirror {bo bo' : ByteOrder} (hbo : bo ≠ bo') {w : Nat} {g : Nat → Dbl} {rd : ByteOrder → Rd Dbl}
    (hg : NumRd w g rd) (ps : List Bytes) (hp : ∀ p ∈ ps, p.length = w) {xs : List Dbl} {rest : Bytes}
    (h : decodeSamples (rd bo) ps.length ps.flatten = .ok (xs, rest)) :
    decodeSamples (rd bo') ps.length (ps.map List.reverse).flatten = .ok (xs, []) := by
  have key : ∀ (b : ByteOrder) (qs : List Bytes), (∀ p ∈ qs, p.length = w) →
      decodeSamples (rd b) qs.length qs.flatten = .ok (qs.map fun p => g (decNat b p), []) := by
    intro b qs hq
    induction qs with
    | nil => rfl
    | cons q qs ih =>
      have hq1 := hq q List.mem_cons_self
      rw [List.length_cons, List.flatten_cons]
      unfold decodeSamples
      rw [rd_bind, hg, if_pos (by rw [List.length_append]; omega), List.take_left' hq1, List.drop_left' hq1, ok_bind]
      simp only
      rw [ rd_bind, ih fun p hp => hq p (List.mem_cons_of_mem _ hp)]
      rfl
  rw [key bo ps hp] at h
  have h' := key bo' (ps.map List.reverse) (by
    intro p hp'
    obtain ⟨q, hq, rfl⟩ := List.mem_map.1 hp'
    rw [List.length_reverse]
    exact hp q hq)
  rw [List.length_map] at h'
  rw [h', ← (Prod.mk.inj (Except.ok.inj h)).1, List.map_map]
  congr 3
  funext p
  exact congrArg g (decNat_reverse hbo p)

/-! ## The binary header -/

/-- Two parses agree but for the marker. -/
def SameBut (e : Int) (x y : Out (BinHeader × Bytes)) : Prop :=
  ∀ h rest, x = .ok (h, rest) → ∃ rest', y = .ok ({ h with endianness := e }, rest')

theorem bin_pure {e : Int} {h h' : BinHeader} {s s' : Bytes} (hh : h' = { h with endianness := e }) :
    SameBut e ((pure h : Rd BinHeader) s) ((pure h' : Rd BinHeader) s') := by
  intro x rest hx
  obtain ⟨rfl, -⟩ := Prod.mk.inj (Except.ok.inj hx)
  exact ⟨s', by rw [hh]; rfl⟩

theorem bin_step {α : Type} {n : Nat} {g : Nat → α} {r : ByteOrder → Rd α} (h : NumRd n g r) {bo bo' : ByteOrder}
    (hbo : bo ≠ bo') {i : Nat} {b b' : Bytes} {e : Int} (hl : b.length = 400) (hl' : b'.length = 400) (hi : i + n ≤ 400)
    (hm : Mirrored i n b b') {F F' : α → Rd BinHeader}
    (hF : ∀ a, SameBut e (F a (b.drop (i + n))) (F' a (b'.drop (i + n)))) :
    SameBut e ((r bo >>= F) (b.drop i)) ((r bo' >>= F') (b'.drop i)) := by
  intro x rest hx
  rw [rd_bind] at hx
  obtain ⟨⟨a, s⟩, h1, h2⟩ := bind_ok hx
  obtain ⟨rfl, h3, -⟩ := num_at h hbo (hl'.trans hl.symm) (fun _ => hm) h1
  obtain ⟨rest', h4⟩ := hF a x rest h2
  exact ⟨rest', by rw [rd_bind, h3, ok_bind]; exact h4⟩

theorem bin_skip {i n : Nat} {b b' : Bytes} {e : Int} (hl : b.length = 400) (hl' : b'.length = 400) (hi : i + n ≤ 400)
    {F F' : Bytes → Rd BinHeader}
    (hF : ∀ a a', SameBut e (F a (b.drop (i + n))) (F' a' (b'.drop (i + n)))) :
    SameBut e ((rdBytes n >>= F) (b.drop i)) ((rdBytes n >>= F') (b'.drop i)) := by
  have key (c : Bytes) (hc : c.length = 400) (G : Bytes → Rd BinHeader) :
      (rdBytes n >>= G) (c.drop i) = G ((c.drop i).take n) (c.drop (i + n)) := by
    rw [rd_bind]
    unfold rdBytes
    rw [if_pos (by rw [List.length_drop]; omega), ok_bind, List.drop_drop]
  rw [key b hl, key b' hl']
  exact hF _ _

theorem parse_mirror {bo bo' : ByteOrder} (hbo : bo ≠ bo') {b b' : Bytes} {e : Int} {init : BinHeader}
    (hl : b.length = 400) (hl' : b'.length = 400)
    (hm : ∀ o w, (o, w) ∈ (binLayout.filter fun f => f.byte ≠ 3297).map (fun f => (f.byte - 3201, f.width)) → Mirrored o w b b') :
    SameBut e (parseBinHeader bo init (b.drop 0)) (parseBinHeader bo' { init with endianness := e } (b'.drop 0)) := by
  obtain ⟨_, hd⟩ := numRd_double
  unfold parseBinHeader
  refine bin_step numRd_i32 hbo hl hl' (i := 0) (by decide) (hm 0 4 (by decide)) fun _ => ?_
  refine bin_step numRd_i32 hbo hl hl' (i := 4) (by decide) (hm 4 4 (by decide)) fun _ => ?_
  refine bin_step numRd_i32 hbo hl hl' (i := 8) (by decide) (hm 8 4 (by decide)) fun _ => ?_
  refine bin_step numRd_i16 hbo hl hl' (i := 12) (by decide) (hm 12 2 (by decide)) fun _ => ?_
  refine bin_step numRd_i16 hbo hl hl' (i := 14) (by decide) (hm 14 2 (by decide)) fun _ => ?_
  refine bin_step numRd_i16 hbo hl hl' (i := 16) (by decide) (hm 16 2 (by decide)) fun _ => ?_
  refine bin_step numRd_i16 hbo hl hl' (i := 18) (by decide) (hm 18 2 (by decide)) fun _ => ?_
  refine bin_step numRd_i16 hbo hl hl' (i := 20) (by decide) (hm 20 2 (by decide)) fun _ => ?_
  refine bin_step numRd_i16 hbo hl hl' (i := 22) (by decide) (hm 22 2 (by decide)) fun _ => ?_
  refine bin_step numRd_i16 hbo hl hl' (i := 24) (by decide) (hm 24 2 (by decide)) fun _ => ?_
  refine bin_step numRd_i16 hbo hl hl' (i := 26) (by decide) (hm 26 2 (by decide)) fun _ => ?_
  refine bin_step numRd_i16 hbo hl hl' (i := 28) (by decide) (hm 28 2 (by decide)) fun _ => ?_
  refine bin_step numRd_i16 hbo hl hl' (i := 30) (by decide) (hm 30 2 (by decide)) fun _ => ?_
  refine bin_step numRd_i16 hbo hl hl' (i := 32) (by decide) (hm 32 2 (by decide)) fun _ => ?_
  refine bin_step numRd_i16 hbo hl hl' (i := 34) (by decide) (hm 34 2 (by decide)) fun _ => ?_
  refine bin_step numRd_i16 hbo hl hl' (i := 36) (by decide) (hm 36 2 (by decide)) fun _ => ?_
  refine bin_step numRd_i16 hbo hl hl' (i := 38) (by decide) (hm 38 2 (by decide)) fun _ => ?_
  refine bin_step numRd_i16 hbo hl hl' (i := 40) (by decide) (hm 40 2 (by decide)) fun _ => ?_
  refine bin_step numRd_i16 hbo hl hl' (i := 42) (by decide) (hm 42 2 (by decide)) fun _ => ?_
  refine bin_step numRd_i16 hbo hl hl' (i := 44) (by decide) (hm 44 2 (by decide)) fun _ => ?_
  refine bin_step numRd_i16 hbo hl hl' (i := 46) (by decide) (hm 46 2 (by decide)) fun _ => ?_
  refine bin_step numRd_i16 hbo hl hl' (i := 48) (by decide) (hm 48 2 (by decide)) fun _ => ?_
  refine bin_step numRd_i16 hbo hl hl' (i := 50) (by decide) (hm 50 2 (by decide)) fun _ => ?_
  refine bin_step numRd_i16 hbo hl hl' (i := 52) (by decide) (hm 52 2 (by decide)) fun _ => ?_
  refine bin_step numRd_i16 hbo hl hl' (i := 54) (by decide) (hm 54 2 (by decide)) fun _ => ?_
  refine bin_step numRd_i16 hbo hl hl' (i := 56) (by decide) (hm 56 2 (by decide)) fun _ => ?_
  refine bin_step numRd_i16 hbo hl hl' (i := 58) (by decide) (hm 58 2 (by decide)) fun _ => ?_
  refine bin_step numRd_i32 hbo hl hl' (i := 60) (by decide) (hm 60 4 (by decide)) fun _ => ?_
  refine bin_step numRd_i32 hbo hl hl' (i := 64) (by decide) (hm 64 4 (by decide)) fun _ => ?_
  refine bin_step numRd_i32 hbo hl hl' (i := 68) (by decide) (hm 68 4 (by decide)) fun _ => ?_
  refine bin_step hd hbo hl hl' (i := 72) (by decide) (hm 72 8 (by decide)) fun _ => ?_
  refine bin_step hd hbo hl hl' (i := 80) (by decide) (hm 80 8 (by decide)) fun _ => ?_
  refine bin_step numRd_i32 hbo hl hl' (i := 88) (by decide) (hm 88 4 (by decide)) fun _ => ?_
  refine bin_step numRd_i32 hbo hl hl' (i := 92) (by decide) (hm 92 4 (by decide)) fun _ => ?_
  refine bin_skip hl hl' (i := 96) (n := 204) (by decide) fun _ _ => ?_
  refine bin_step numRd_u8 hbo hl hl' (i := 300) (by decide) (hm 300 1 (by decide)) fun _ => ?_
  refine bin_step numRd_u8 hbo hl hl' (i := 301) (by decide) (hm 301 1 (by decide)) fun _ => ?_
  refine bin_step numRd_i16 hbo hl hl' (i := 302) (by decide) (hm 302 2 (by decide)) fun _ => ?_
  refine bin_step numRd_i16 hbo hl hl' (i := 304) (by decide) (hm 304 2 (by decide)) fun _ => ?_
  split
  · skip
    refine bin_step numRd_i32 hbo hl hl' (i := 306) (by decide) (hm 306 4 (by decide)) fun _ => ?_
    refine bin_step numRd_i16 hbo hl hl' (i := 310) (by decide) (hm 310 2 (by decide)) fun _ => ?_
    refine bin_step numRd_i64 hbo hl hl' (i := 312) (by decide) (hm 312 8 (by decide)) fun _ => ?_
    refine bin_step numRd_u64 hbo hl hl' (i := 320) (by decide) (hm 320 8 (by decide)) fun _ => ?_
    refine bin_step numRd_i32 hbo hl hl' (i := 328) (by decide) (hm 328 4 (by decide)) fun _ => ?_
    exact bin_pure rfl
  · exact bin_pure rfl

theorem fill_mirror {bo bo' : ByteOrder} (hbo : bo ≠ bo') {b b' : Bytes} {init bh : BinHeader} {ov : Bool}
    (hl : b.length = 400) (hl' : b'.length = 400)
    (hm : ∀ f ∈ binLayout, f.byte ≠ 3297 → Mirrored (f.byte - 3201) f.width b b')
    (hmark : byteOrderOf (toS 4 (leVal ((b'.drop 96).take 4))) = .ok bo')
    (h : fillBinHeader init ov b = .ok (bo, bh)) :
    fillBinHeader init ov b' = .ok (bo', { bh with endianness := toS 4 (leVal ((b'.drop 96).take 4)) }) := by
  unfold fillBinHeader at h ⊢
  obtain ⟨bo1, h1, h2⟩ := bind_ok h
  simp only
  rw [hmark, ok_bind]
  cases ov with
  | true =>
    rw [if_pos rfl] at h2 ⊢
    obtain ⟨rfl, rfl⟩ := Prod.mk.inj (Except.ok.inj h2)
    rfl
  | false =>
    rw [if_neg (by decide)] at h2 ⊢
    obtain ⟨⟨bh1, rest⟩, h3, h4⟩ := bind_ok h2
    obtain ⟨rfl, rfl⟩ := Prod.mk.inj (Except.ok.inj h4)
    have := parse_mirror hbo (e := toS 4 (leVal ((b'.drop 96).take 4))) (init := { init with endianness := toS 4 (leVal ((b.drop 96).take 4)) }) hl hl' (by
      intro o w how
      obtain ⟨f, hf, he⟩ := List.mem_map.1 how
      obtain ⟨rfl, rfl⟩ := Prod.mk.inj he
      rw [List.mem_filter] at hf
      exact hm f hf.1 (by simpa using hf.2))
    rw [List.drop_zero, List.drop_zero] at this
    obtain ⟨rest', h5⟩ := this bh1 rest h3
    rw [h5, ok_bind]
    rfl

/-! ## Traces -/

theorem placed_mem {m : HdrMap} {n j : Nat} (hj : j < n) {b : HBlock} (hb : m[j]? = some b) {f : HField} (hf : f ∈ b.fields) :
    (240 * j + f.off, f) ∈ placed m n := by
  unfold placed
  rw [List.mem_flatMap]
  exact ⟨j, List.mem_range.2 hj, by rw [hb]; exact List.mem_map.2 ⟨f, hf, rfl⟩⟩

theorem isTrace_mirror {data : Bytes} {m : HdrMap} {r : Reader} (hi : Inv data m r) {bo' : ByteOrder} (hbo : r.bo ≠ bo')
    {c c' : Bytes} {t : Trace} (hm : MirrorTrace m (headerBlocks r.bh) r.bps c c') (ht : IsTrace r c t) {e : Int} {f : File} {tx : List Bytes} {cu ed : Nat} :
    IsTrace { r with bo := bo', bh := { r.bh with endianness := e }, file := f, texts := tx, curr := cu, endData := ed } c' t := by
  obtain ⟨hd, hd', ps, rfl, rfl, hh, hh', hp, hmir⟩ := hm
  obtain ⟨hne, r1, hr, hpos⟩ := ht
  have hpl : (ps.map List.reverse).flatten.length = ps.flatten.length := by
    rw [flatten_length_const r.bps hp, flatten_length_const r.bps (recs := ps.map List.reverse) (by
      intro p hp'
      obtain ⟨q, hq, rfl⟩ := List.mem_map.1 hp'
      rw [List.length_reverse]
      exact hp q hq), List.length_map]
  have hl : (hd' ++ (ps.map List.reverse).flatten).length = (hd ++ ps.flatten).length := by
    rw [List.length_append, List.length_append, hh, hh', hpl]
  obtain ⟨h0, n, buf, rd, rest, h1, h2, h3, h4, h5, rfl⟩ := readTrace_ok hr
  simp only at h1 h3 h4 h5 hpos
  have hblocks : hdrBlocks r.bh = headerBlocks r.bh := rfl
  rw [hblocks] at h1 h3 hpos
  rw [Nat.zero_add] at h1 h3 hpos
  have hn : n = ps.flatten.length := by
    rw [List.length_append, hh] at hpos
    omega
  obtain ⟨w, rd1, g, hw, hw0, hrd, hg⟩ := num_reader hi.fmt
  obtain rfl : w = r.bps := Option.some.inj (hw.symm.trans hi.bps)
  obtain rfl : rd1 = rd := Except.ok.inj (hrd.symm.trans h4)
  have hn2 : n / r.bps = ps.length := by
    rw [hn, flatten_length_const r.bps hp, Nat.mul_div_cancel_left _ hw0]
  obtain ⟨hb, hbl, _⟩ := read_ok h3
  simp only at hb
  rw [← hh, List.drop_left, hn, List.take_length] at hb
  have h1' : readTrcHeader { r with bo := bo', bh := { r.bh with endianness := e }, file := ⟨hd' ++ (ps.map List.reverse).flatten, 0⟩, texts := tx, curr := cu, endData := ed } =
      .ok (h0, ⟨hd' ++ (ps.map List.reverse).flatten, 0 + 240 * hdrBlocks { r.bh with endianness := e }⟩) := by
    unfold readTrcHeader at h1 ⊢
    split at h1
    · cases h1
    · rename_i hx
      simp only at hx ⊢
      rw [if_neg hx, Nat.zero_add]
      have := readBlocks_mirror hbo (i := 0) hl (m := m) (n := headerBlocks r.bh) (by
        intro j _ hj b hb f hf hle
        rw [Nat.zero_add] at hj
        have := hmir _ (placed_mem hj hb hf)
        unfold Mirrored at this ⊢
        simp only at this
        have hle2 : 240 * j + f.off + f.ty.size ≤ 240 * headerBlocks r.bh := by
          have : 240 * (j + 1) ≤ 240 * headerBlocks r.bh := Nat.mul_le_mul_left _ hj
          omega
        have sl (x y : Bytes) (hx : x.length = 240 * headerBlocks r.bh) :
            ((x ++ y).drop (240 * j + f.off)).take f.ty.size = (x.drop (240 * j + f.off)).take f.ty.size := by
          rw [List.drop_append_of_le_length (by omega), List.take_append_of_le_length (by rw [List.length_drop]; omega)]
        rw [sl hd' _ hh', sl hd _ hh]
        exact this) (acc := []) (h := h0) (by rw [hi.map] at h1; exact h1)
      rw [hi.map]
      rw [Nat.zero_add] at this
      exact this
  have h3' : File.read ⟨hd' ++ (ps.map List.reverse).flatten, 0 + 240 * hdrBlocks { r.bh with endianness := e }⟩ n =
      .ok ((ps.map List.reverse).flatten, ⟨hd' ++ (ps.map List.reverse).flatten, 0 + 240 * hdrBlocks { r.bh with endianness := e } + n⟩) := by
    have := read_chunk hd' (ps.map List.reverse).flatten [] (n := n) (hpl.trans hn.symm)
    rw [List.append_nil, hh'] at this
    rw [Nat.zero_add]
    exact this
  rw [hb, hn2] at h5
  have h5' := decode_mirror hbo hg ps hp h5
  rw [← hn2] at h5'
  have := readTrace_of h1' (show sampleBytes _ h0 = .ok (n, t.header) from h2) h3' h4 h5'
  refine ⟨fun h => hne (List.length_eq_zero_iff.1 (by rw [← hl, h]; rfl)), _, this, ?_⟩
  simp only
  rw [hl, ← hpos, Nat.zero_add]
  rfl

/-! ## Opening -/

theorem readExtText_tail {n : Int} {A B x a b : Bytes} (ha : A.length = 3600) (hb : B.length = 3600) {recs : List Bytes} {f : File}
    (hr : readExtText n ⟨A ++ (x ++ a), 3600⟩ = .ok (recs, f)) (hp : 3200 * recs.length ≤ x.length) :
    readExtText n ⟨B ++ (x ++ b), 3600⟩ = .ok (recs, ⟨B ++ (x ++ b), 3600 + 3200 * recs.length⟩) := by
  have split3 : ∀ (ys : List Bytes), (∀ t ∈ ys, t.length = 3200) →
      ys.flatten = ((A ++ (x ++ a)).drop 3600).take (3200 * ys.length) → 3200 * ys.length ≤ x.length →
      B ++ (x ++ b) = B ++ (ys.flatten ++ (x.drop (3200 * ys.length) ++ b)) := by
    intro ys _ hy hle
    rw [hy, List.drop_left' ha, List.take_append_of_le_length hle, ← List.append_assoc (x.take _), List.take_append_drop]
  by_cases h0 : n = 0
  · subst h0
    rw [readExtText_none] at hr
    obtain ⟨rfl, -⟩ := Prod.mk.inj (Except.ok.inj hr)
    rfl
  · by_cases h1 : n = -1
    · subst h1
      have hr' := hr
      unfold readExtText at hr'
      rw [if_neg (by decide), if_pos rfl] at hr'
      obtain ⟨-, hl, hf, init, last, rfl, he, hi⟩ := readUntilEnd_ok hr'
      have := readExtText_end B (x.drop (3200 * (init ++ [last]).length) ++ b) init last
        (fun t ht => hl t (List.mem_append_left _ ht)) hi (hl last (by simp)) he
      rw [← split3 _ hl hf hp, hb] at this
      rw [this]
      simp
    · have hr' := hr
      unfold readExtText at hr'
      rw [if_neg h0, if_neg h1] at hr'
      by_cases hneg : n < 0
      · exfalso
        refine readRecords_all _ _ ?_ hr'
        unfold loopCount
        rw [if_pos hneg]
      · unfold loopCount at hr'
        rw [if_neg hneg] at hr'
        obtain ⟨-, hl, ha', hf⟩ := readRecords_ok hr'
        have hn : n = (recs.length : Int) := by omega
        have hne : recs ≠ [] := fun h => h0 (by rw [hn, h]; rfl)
        rw [← hl] at hf
        have := readExtText_count B (x.drop (3200 * recs.length) ++ b) recs ha' hne
        rw [← split3 _ ha' hf hp, hb] at this
        rw [hn, this]

theorem open_mirror_of {text bin bin' ext tail tail' : Bytes} {ub : Option BinHeader} {m : HdrMap} {r : Reader} {bo' : ByteOrder}
    (ht : text.length = 3200) (hl : bin.length = 400) (hl' : bin'.length = 400)
    (hm : ∀ f ∈ binLayout, f.byte ≠ 3297 → Mirrored (f.byte - 3201) f.width bin bin')
    (hmark : byteOrderOf (toS 4 (leVal ((bin'.drop 96).take 4))) = .ok bo') (hbo : r.bo ≠ bo')
    (ho : openReader (text ++ (bin ++ (ext ++ tail))) ub m = .ok r) {ed : Nat}
    (htr : readTrailers bo' { r.bh with endianness := toS 4 (leVal ((bin'.drop 96).take 4)) } r.spt r.bps
      ⟨text ++ (bin' ++ (ext ++ tail')), r.file.pos⟩ = .ok (r.trailers, ed))
    (hx : 3200 * (r.texts.length - 1) ≤ ext.length) :
    openReader (text ++ (bin' ++ (ext ++ tail'))) ub m = .ok { r with
      bo := bo', bh := { r.bh with endianness := toS 4 (leVal ((bin'.drop 96).take 4)) },
      file := ⟨text ++ (bin' ++ (ext ++ tail')), r.file.pos⟩
      endData := ed } := by
  obtain ⟨exts, f2, rd, size, h0, h1, h3, h4, h5, h6, h7, h8, h9, h10, h11, h12, h13, h14, h15, h16⟩ := openReader_ok ho
  rw [h7, List.length_cons, Nat.add_sub_cancel] at hx
  have hA : (text ++ bin).length = 3600 := by rw [List.length_append, ht, hl]
  have hB : (text ++ bin').length = 3600 := by rw [List.length_append, ht, hl']
  have hf2 := readExtText_file h6
  have h6' : readExtText r.bh.extTextHeadersNum ⟨text ++ (bin' ++ (ext ++ tail')), 3600⟩ =
      .ok (exts, ⟨text ++ (bin' ++ (ext ++ tail')), 3600 + 3200 * exts.length⟩) := by
    rw [← List.append_assoc text] at h6 ⊢
    exact readExtText_tail hA hB h6 hx
  rw [List.drop_left' ht, List.take_left' hl] at h3
  rw [List.take_left' ht] at h7
  have h3' := fill_mirror hbo hl hl' hm hmark h3
  have r1 : File.read ⟨text ++ (bin' ++ (ext ++ tail')), 0⟩ textHeaderSize = .ok (text, ⟨text ++ (bin' ++ (ext ++ tail')), 3200⟩) :=
    read_chunk [] text (bin' ++ (ext ++ tail')) ht
  have r2 : File.read ⟨text ++ (bin' ++ (ext ++ tail')), 3200⟩ binHeaderSize = .ok (bin', ⟨text ++ (bin' ++ (ext ++ tail')), 3600⟩) := by
    have := read_chunk text bin' (ext ++ tail') hl'
    rw [ht] at this
    exact this
  have hsf : seekFirst { r.bh with endianness := toS 4 (leVal ((bin'.drop 96).take 4)) } ⟨text ++ (bin' ++ (ext ++ tail')), 3600 + 3200 * exts.length⟩ =
      .ok ⟨text ++ (bin' ++ (ext ++ tail')), r.file.pos⟩ := by
    unfold seekFirst
    simp only
    split at h8
    · rename_i hz
      rw [if_pos hz, ← h8, seek_nat]
    · rename_i hz
      rw [if_neg hz, h8, hf2]
  have h10' : samplesPerTrace { r.bh with endianness := toS 4 (leVal ((bin'.drop 96).take 4)) } = r.spt := h10.symm
  unfold openReader
  rw [h0, ok_bind]
  simp only
  rw [r1, ok_bind]; simp only
  rw [r2, ok_bind]; simp only
  rw [h3', ok_bind]; simp only
  rw [h4, ok_bind, h5]; simp only
  rw [h6', ok_bind]; simp only
  rw [hsf, ok_bind]; simp only
  rw [h10']
  rw [htr, ok_bind]; simp only
  rw [seek_nat, ok_bind, h14, ok_bind, resizeVec_of_lt h15, ok_bind]
  simp only [pure_eq_ok, List.take_nil, List.nil_append, List.length_replicate, List.length_nil, Nat.sub_zero]
  rw [← h16, ← h7, ← h13, ← h11]

theorem open_mirror {text bin bin' ext tail tail' : Bytes} {ub : Option BinHeader} {m : HdrMap} {r : Reader} {bo' : ByteOrder}
    (ht : text.length = 3200) (hl : bin.length = 400) (hl' : bin'.length = 400)
    (hm : ∀ f ∈ binLayout, f.byte ≠ 3297 → Mirrored (f.byte - 3201) f.width bin bin')
    (hmark : byteOrderOf (toS 4 (leVal ((bin'.drop 96).take 4))) = .ok bo') (hbo : r.bo ≠ bo')
    (ho : openReader (text ++ (bin ++ (ext ++ tail))) ub m = .ok r) (htr : r.bh.numOfTrailerStanza = 0)
    (hx : 3200 * (r.texts.length - 1) ≤ ext.length) :
    openReader (text ++ (bin' ++ (ext ++ tail'))) ub m = .ok { r with
      bo := bo', bh := { r.bh with endianness := toS 4 (leVal ((bin'.drop 96).take 4)) },
      file := ⟨text ++ (bin' ++ (ext ++ tail')), r.file.pos⟩
      endData := (text ++ (bin' ++ (ext ++ tail'))).length } := by
  refine open_mirror_of ht hl hl' hm hmark hbo ho ?_ hx
  obtain ⟨exts, f2, rd, size, -, -, -, -, -, -, -, -, h9, -⟩ := openReader_ok ho
  have h9' : r.trailers = [] := by
    rw [readTrailers_none htr] at h9
    exact ((Prod.mk.inj (Except.ok.inj h9)).1).symm
  rw [readTrailers_none (bh := { r.bh with endianness := toS 4 (leVal ((bin'.drop 96).take 4)) }) htr, h9']

end Sedaman
