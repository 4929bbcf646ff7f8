import Verif.Spec.SegdRev3W
import Verif.Lemmas.SegdRev3

/-! # Writing the revision 3 blocks field by field -/

namespace Sedaman

open Spec

/-- The bytes of a value in a field. -/
def Enc : FieldKind → BlkVal → Bytes → Prop
  | .uns n, .num v, bs => bs = encInt .be n v
  | .sgn n, .num v, bs => bs = encInt .be n v
  | .packed, .num v, bs => ∃ k : Nat, v = k ∧ k < 256 ∧ bs = bcdBytes 1 k
  | .fixed, .dbl d, bs => ∃ k < 2 ^ 48, d = dyadic k 16 ∧
      bs = encInt .be 3 (k / 2 ^ 16 : Nat) ++ encInt .be 2 (k % 2 ^ 16 : Nat)
  | .chars n, .text b, bs => b.length = n ∧ bs = b
  | _, _, _ => False

/-- Bytes of a kind of field. -/
def kindSize : FieldKind → Nat
  | .uns n => n | .sgn n => n | .packed => 1 | .fixed => 5 | .chars n => n

theorem enc_exists {k : FieldKind} {v : BlkVal} (h : KindFits k v) : ∃ bs, Enc k v bs := by
  cases k <;> cases v <;> simp only [KindFits] at h
  case uns.num => exact ⟨_, rfl⟩
  case sgn.num => exact ⟨_, rfl⟩
  case packed.num v => exact ⟨_, v.toNat, by omega, by omega, rfl⟩
  case fixed.dbl d =>
    obtain ⟨k, hk, rfl⟩ := h
    exact ⟨_, k, by omega, rfl, rfl⟩
  case chars.text b => exact ⟨b, h, rfl⟩

theorem enc_length {k : FieldKind} {v : BlkVal} {bs : Bytes} (h : Enc k v bs) :
    bs.length = kindSize k := by
  cases k <;> cases v <;> simp only [Enc] at h
  case uns.num => simp [h, kindSize]
  case sgn.num => simp [h, kindSize]
  case packed.num v => obtain ⟨k, _, _, rfl⟩ := h; simp [kindSize]
  case fixed.dbl d => obtain ⟨k, _, _, rfl⟩ := h; simp [kindSize]
  case chars.text b => obtain ⟨h, rfl⟩ := h; simp [kindSize, h]

/-- The bytes of the values of an item list; skipped bytes are zero. -/
inductive EncItems : List BlkItem → List (String × BlkVal) → Bytes → Prop
  | nil : EncItems [] [] []
  | skip {k l vs bs} : EncItems l vs bs → EncItems (.skip k :: l) vs (List.replicate k 0 ++ bs)
  | field {i l f v vs b bs} : itemField 0 i = [f] → Enc f.kind v b → EncItems l vs bs →
      EncItems (i :: l) ((f.name, v) :: vs) (b ++ bs)

theorem item_kind {i : BlkItem} {f : BlkField} (h : itemField 0 i = [f]) :
    kindSize f.kind = itemSize i := by
  cases i <;> simp only [itemField, List.cons.injEq, and_true] at h <;> first
    | (subst h; rfl)
    | simp at h

theorem encItems_length {l : List BlkItem} {vs : List (String × BlkVal)} {bs : Bytes}
    (h : EncItems l vs bs) : bs.length = sizeOfItems l := by
  induction h with
  | nil => rfl
  | skip _ ih => simp [sizeOfItems, itemSize] at ih ⊢; omega
  | field h1 h2 _ ih =>
    have e1 := enc_length h2
    have e2 := item_kind h1
    simp [sizeOfItems] at ih ⊢; omega

theorem wrItem_enc {ms : List (String × BlkVal)} {i : BlkItem} {f : BlkField} {v : BlkVal}
    {b : Bytes} (hf : itemField 0 i = [f]) (hm : memberOf ms f.name = some v)
    (he : Enc f.kind v b) (d : Bytes) {n : Nat} (hn : b.length ≤ n) :
    wrItem ms i ⟨d, List.replicate n 0⟩
      = .ok ((), ⟨d ++ b, List.replicate (n - b.length) 0⟩) := by
  cases i <;> simp only [itemField, List.cons.injEq, and_true] at hf <;> try (subst hf)
  case skip => simp at hf
  case bcd nm =>
    cases v <;> simp only [Enc] at he
    obtain ⟨k, rfl, hk, rfl⟩ := he
    simp only [wrItem, hm, wrNumber]
    simp only [bcdBytes_length] at hn ⊢
    exact wrBcd_even d (by decide) (by simpa using hk) rfl (by decide) hn
  case fix nm =>
    cases v <;> simp only [Enc] at he
    obtain ⟨k, hk, rfl, rfl⟩ := he
    simp only [wrItem, hm]
    have e : (encInt .be 3 ((k / 2 ^ 16 : Nat) : Int)
        ++ encInt .be 2 ((k % 2 ^ 16 : Nat) : Int)).length = 5 := by simp
    rw [e] at hn ⊢
    exact wrSource_ok d hk hn
  case text nm k =>
    cases v <;> simp only [Enc] at he
    obtain ⟨h1, rfl⟩ := he
    simp only [wrItem, hm, if_pos h1]
    exact wrPut_ok d hn
  all_goals
    cases v <;> simp only [Enc] at he
    subst he
    simp only [wrItem, hm, wrNumber, chr_eq, writeU16_eq, writeI16_eq, writeU24_eq, writeU32_eq,
      writeU64_eq]
    exact wrPut_ok d hn

theorem wrItems_enc {ms vs : List (String × BlkVal)} {l : List BlkItem} {bs : Bytes}
    (h : EncItems l vs bs) (hm : ∀ m ∈ vs, memberOf ms m.1 = some m.2) :
    ∀ (d : Bytes) {n : Nat}, bs.length ≤ n →
    wrItems ms l ⟨d, List.replicate n 0⟩
      = .ok ((), ⟨d ++ bs, List.replicate (n - bs.length) 0⟩) := by
  induction h with
  | nil => intro d n _; simp [wrItems, wr_pure]
  | @skip k l vs bs _ ih =>
    intro d n hn
    simp only [List.length_append, List.length_replicate] at hn
    simp only [wrItems, wrItem]
    rw [wr_bind, wrSkip_ok d (by omega), ok_bind, ih hm _ (by omega)]
    simp [Nat.sub_sub]
  | @field i l f v vs b bs h1 h2 _ ih =>
    intro d n hn
    simp only [List.length_append] at hn
    simp only [wrItems]
    rw [wr_bind, wrItem_enc h1 (hm (f.name, v) (by simp)) h2 d (by omega), ok_bind,
      ih (fun m hm' => hm m (by simp [hm'])) _ (by omega)]
    simp [Nat.sub_sub]

theorem toU_val {n : Nat} {v : Int} (h0 : 0 ≤ v) (h : v < 256 ^ n) : ((toU n v : Nat) : Int) = v := by
  obtain ⟨k, rfl⟩ := Int.eq_ofNat_of_zero_le h0
  have : k < 256 ^ n := by exact_mod_cast h
  rw [toU_of_nat_lt this]

theorem rdItem_enc {i : BlkItem} {f : BlkField} {v : BlkVal} {b : Bytes}
    (hf : itemField 0 i = [f]) (hk : KindFits f.kind v) (he : Enc f.kind v b) (r : Bytes) :
    rdItem i (b ++ r) = .ok ([(f.name, v)], r) := by
  cases i <;> simp only [itemField, List.cons.injEq, and_true] at hf <;> try (subst hf)
  case skip => simp at hf
  case bcd nm =>
    cases v <;> simp only [Enc, KindFits] at he hk
    obtain ⟨k, rfl, _, rfl⟩ := he
    have := rdBcd_even (m := 1) (v := k) (num := 2) r (by decide) rfl
    unfold rdBcd at this
    rw [rd_bind] at this
    obtain ⟨⟨w, s⟩, e1, e2⟩ := bind_eq_ok.1 this
    have e3 : ((w : Int), s) = (((k % 10 ^ 2 : Nat) : Int), r) := Except.ok.inj e2
    have e4 : s = r := congrArg Prod.snd e3
    have e5 : (w : Int) = ((k % 10 ^ 2 : Nat) : Int) := congrArg Prod.fst e3
    simp only [rdItem]
    rw [rd_bind, e1, ok_bind, rd_pure, e4, e5]
    have : k % 10 ^ 2 = k := Nat.mod_eq_of_lt (by omega)
    rw [this]
  case fix nm =>
    cases v <;> simp only [Enc, KindFits] at he hk
    obtain ⟨k, _, rfl, rfl⟩ := he
    obtain ⟨k', hk', e⟩ := hk
    have hlt : k < 2 ^ 40 := by
      by_contra hc
      have a1 := dyadic_int (k := k) (by assumption)
      have a2 := dyadic_int (k := k') (by omega)
      rw [e, a2] at a1
      have a3 : ((k' / 2 ^ 16 : Nat) : Int) = ((k / 2 ^ 16 : Nat) : Int) := Except.ok.inj a1
      omega
    simp only [rdItem, rdFix]
    rw [List.append_assoc, rd_bind, rd_bind, rdU24_enc, ok_bind, rd_bind, rdU16_enc, ok_bind,
      rd_pure, ok_bind, rd_pure, toU_of_nat_lt (n := 3) (by omega), toU_of_nat_lt (n := 2) (by omega),
      dyadic_back (by omega)]
  case text nm k =>
    cases v <;> simp only [Enc] at he
    obtain ⟨h1, rfl⟩ := he
    simp only [rdItem]
    rw [rd_bind]
    unfold rdBytes
    rw [if_pos (by simp; omega), ok_bind, rd_pure, List.take_left' h1, List.drop_left' h1]
  case s16 nm =>
    cases v <;> simp only [Enc, KindFits] at he hk
    subst he
    simp only [rdItem]
    rw [rd_bind, rdU16_enc, ok_bind, rd_pure, toS_toU]
    unfold FitsS
    omega
  case u8 nm =>
    cases v <;> simp only [Enc, KindFits] at he hk
    subst he
    simp only [rdItem]
    rw [rd_bind, rdU8_enc, ok_bind, rd_pure, toU_val hk.1 hk.2]
  case u16 nm =>
    cases v <;> simp only [Enc, KindFits] at he hk
    subst he
    simp only [rdItem]
    rw [rd_bind, rdU16_enc, ok_bind, rd_pure, toU_val hk.1 hk.2]
  case u24 nm =>
    cases v <;> simp only [Enc, KindFits] at he hk
    subst he
    simp only [rdItem]
    rw [rd_bind, rdU24_enc, ok_bind, rd_pure, toU_val hk.1 hk.2]
  case u32 nm =>
    cases v <;> simp only [Enc, KindFits] at he hk
    subst he
    simp only [rdItem]
    rw [rd_bind, readU32_eq, rdNat_encInt, ok_bind, rd_pure, toU_val hk.1 hk.2]
  case u64 nm =>
    cases v <;> simp only [Enc, KindFits] at he hk
    subst he
    simp only [rdItem]
    rw [rd_bind, readU64_eq, rdNat_encInt, ok_bind, rd_pure, toU_val hk.1 hk.2]

theorem itemField_off (i : BlkItem) (off : Nat) :
    itemField off i = (itemField 0 i).map fun f => { f with off := off } := by
  cases i <;> rfl

/-- Fitting values can be written, and reading them gives them back. -/
theorem encItems_exists {l : List BlkItem} : ∀ {off : Nat} {vs : List (String × BlkVal)},
    BlkFits (fieldsOf l off) vs →
    ∃ bs, EncItems l vs bs ∧ ∀ r, rdItems l (bs ++ r) = .ok (vs, r) := by
  induction l with
  | nil =>
    intro off vs h
    cases h
    exact ⟨[], .nil, fun r => rfl⟩
  | cons i t ih =>
    intro off vs h
    cases hi : itemField 0 i with
    | nil =>
      obtain ⟨k, rfl⟩ : ∃ k, i = .skip k := by
        cases i <;> simp [itemField] at hi ⊢
      obtain ⟨bs, h1, h2⟩ := ih (off := off + k) h
      refine ⟨_, .skip h1, fun r => ?_⟩
      simp only [rdItems, rdItem]
      rw [rd_bind, rd_bind, List.append_assoc, rdSkip_ok _ _ k (by simp), ok_bind, rd_pure, ok_bind,
        rd_bind, h2, ok_bind, rd_pure]
      rfl
    | cons f fs =>
      have hfs : fs = [] := by
        cases i <;> simp [itemField] at hi <;> exact hi.2
      subst hfs
      unfold fieldsOf at h
      rw [itemField_off, hi] at h
      cases h with
      | @cons _ m _ vs' hm ht =>
        obtain ⟨nm, v⟩ := m
        obtain ⟨hn, hk⟩ := hm
        simp only at hn hk
        subst hn
        obtain ⟨b, hb⟩ := enc_exists hk
        obtain ⟨bs, h1, h2⟩ := ih ht
        refine ⟨_, .field hi hb h1, fun r => ?_⟩
        simp only [rdItems]
        rw [List.append_assoc, rd_bind, rdItem_enc hi hk hb, ok_bind, rd_bind, h2, ok_bind, rd_pure]
        rfl

theorem memberOf_nodup {ms : List (String × BlkVal)} (h : (ms.map Prod.fst).Nodup) :
    ∀ m ∈ ms, memberOf ms m.1 = some m.2 := by
  induction ms with
  | nil => intro m hm; cases hm
  | cons x t ih =>
    intro m hm
    obtain ⟨k, v⟩ := x
    simp only [List.map_cons, List.nodup_cons] at h
    rcases List.mem_cons.1 hm with rfl | hm
    · simp [memberOf]
    · have : m.1 ≠ k := fun e => h.1 (e ▸ List.mem_map_of_mem hm)
      rw [memberOf, if_neg this]
      exact ih h.2 m hm

theorem blkFits_names {fields : List BlkField} {ms : List (String × BlkVal)} (h : BlkFits fields ms) :
    ms.map Prod.fst = fields.map BlkField.name := by
  induction h with
  | nil => rfl
  | cons h _ ih => simp [h.1, ih]

/-- Writing a block. -/
theorem writeRev3Blk_ok {code ty : Nat} {items : List BlkItem} {ms vs : List (String × BlkVal)}
    {bs : Bytes} (hi : blkWItems code = some items) (he : EncItems items vs bs)
    (hm : ∀ m ∈ vs, memberOf ms m.1 = some m.2) (hs : sizeOfItems items < 32) :
    writeRev3Blk code (.r3 code ty ms)
      = .ok (bs ++ blkWType code ty :: List.replicate (31 - sizeOfItems items) 0) := by
  have hl := encItems_length he
  unfold writeRev3Blk
  simp only [hi, if_true]
  unfold wrBlock
  rw [wr_bind, wrItems_enc he hm _ (by omega), ok_bind, hl]
  have : List.replicate (32 - sizeOfItems items) (0 : Byte)
      = 0 :: List.replicate (31 - sizeOfItems items) 0 := by
    rw [← List.replicate_succ]; congr 1; omega
  simp only [this, wrPoke, ok_bind, List.nil_append]
  rfl

end Sedaman
