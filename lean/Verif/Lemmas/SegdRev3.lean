import Verif.Spec.SegdRev3
import Verif.Lemmas.RawIO
import Verif.Lemmas.SegdGen2
import Verif.Lemmas.SegdCur

/-! # Reading the revision 3 blocks field by field -/

namespace Sedaman

open Spec

/-- Bytes one statement consumes. -/
def itemSize : BlkItem → Nat
  | .u8 _ => 1 | .u16 _ => 2 | .s16 _ => 2 | .u24 _ => 3 | .u32 _ => 4 | .u64 _ => 8
  | .bcd _ => 1 | .fix _ => 5 | .text _ n => n | .skip n => n

/-- The field one statement at an offset reads. -/
def itemField (off : Nat) : BlkItem → List BlkField
  | .u8 n => [⟨n, off, .uns 1⟩] | .u16 n => [⟨n, off, .uns 2⟩] | .s16 n => [⟨n, off, .sgn 2⟩]
  | .u24 n => [⟨n, off, .uns 3⟩] | .u32 n => [⟨n, off, .uns 4⟩] | .u64 n => [⟨n, off, .uns 8⟩]
  | .bcd n => [⟨n, off, .packed⟩] | .fix n => [⟨n, off, .fixed⟩] | .text n k => [⟨n, off, .chars k⟩]
  | .skip _ => []

/-- The fields a list of statements reads. -/
def fieldsOf : List BlkItem → Nat → List BlkField
  | [], _ => []
  | i :: t, off => itemField off i ++ fieldsOf t (off + itemSize i)

/-- Bytes a list of statements consumes. -/
def sizeOfItems (l : List BlkItem) : Nat := (l.map itemSize).sum

theorem rdBytes_drop {buf : Bytes} {off n : Nat} (h : off + n ≤ buf.length) :
    rdBytes n (buf.drop off) = .ok (slice buf off n, buf.drop (off + n)) := by
  unfold rdBytes slice
  rw [if_pos (by simp; omega), List.drop_drop]

theorem rdNat_drop {buf : Bytes} {off n : Nat} (h : off + n ≤ buf.length) :
    rdNat .be n (buf.drop off) = .ok (decNat .be (slice buf off n), buf.drop (off + n)) := by
  unfold rdNat slice
  rw [if_pos (by simp; omega), List.drop_drop]

theorem slice_length {buf : Bytes} {off n : Nat} (h : off + n ≤ buf.length) :
    (slice buf off n).length = n := by
  unfold slice; simp; omega

theorem fix_split {buf : Bytes} {off : Nat} (h : off + 5 ≤ buf.length) :
    decNat .be (slice buf off 5) / 2 ^ 16 = decNat .be (slice buf off 3) ∧
      decNat .be (slice buf off 5) % 2 ^ 16 = decNat .be (slice buf (off + 3) 2) := by
  have e : slice buf off 5 = slice buf off 3 ++ slice buf (off + 3) 2 := by
    unfold slice
    rw [← List.drop_drop, List.take_add (i := 3) (j := 2)]
  have e2 : decNat .be (slice buf off 5)
      = decNat .be (slice buf off 3) * 256 ^ 2 + decNat .be (slice buf (off + 3) 2) := by
    rw [e]
    have := beNat_append (slice buf off 3) (slice buf (off + 3) 2)
    rw [slice_length (off := off + 3) (by omega)] at this
    exact this
  have := decNat_lt .be (slice buf (off + 3) 2)
  rw [slice_length (by omega)] at this
  omega

theorem rdItem_ok {buf : Bytes} {off : Nat} (i : BlkItem) (h : off + itemSize i ≤ buf.length) :
    rdItem i (buf.drop off)
      = .ok ((itemField off i).map (fieldVal buf), buf.drop (off + itemSize i)) := by
  cases i <;> simp only [itemSize] at h ⊢
  case u8 n =>
    simp only [rdItem]
    rw [rd_bind, readU8_eq .be, rdNat_drop h, ok_bind, rd_pure]; rfl
  case u16 n =>
    simp only [rdItem]
    rw [rd_bind, readU16_eq .be, rdNat_drop h, ok_bind, rd_pure]; rfl
  case s16 n =>
    simp only [rdItem]
    rw [rd_bind, readU16_eq .be, rdNat_drop h, ok_bind, rd_pure]
    simp only [itemField, List.map, fieldVal]
    rw [decInt_eq, slice_length h]
  case u24 n =>
    simp only [rdItem]
    rw [rd_bind, readU24_eq .be, rdNat_drop h, ok_bind, rd_pure]; rfl
  case u32 n =>
    simp only [rdItem]
    rw [rd_bind, readU32_eq .be, rdNat_drop h, ok_bind, rd_pure]; rfl
  case u64 n =>
    simp only [rdItem]
    rw [rd_bind, readU64_eq .be, rdNat_drop h, ok_bind, rd_pure]; rfl
  case bcd n =>
    obtain ⟨b, r, e⟩ : ∃ b r, buf.drop off = b :: r := by
      cases hd : buf.drop off with
      | nil => simp at hd h; omega
      | cons b r => exact ⟨b, r, rfl⟩
    have e2 : buf.drop (off + 1) = r := by rw [← List.drop_drop, e]; rfl
    have e3 : slice buf off 1 = [b] := by unfold slice; rw [e]; rfl
    unfold rdItem
    simp only [itemField, List.map, fieldVal, e2, e3]
    rw [rd_bind, e]
    simp [fromBcd, fromBcdLoop, nibbles, decVal, hiNib, loNib, rd_pure]
  case fix n =>
    have h5 : off + 5 ≤ buf.length := h
    obtain ⟨e1, e2⟩ := fix_split h5
    have hlt : decNat .be (slice buf off 5) < 2 ^ 48 := by
      have := decNat_lt .be (slice buf off 5)
      rw [slice_length h5] at this
      exact Nat.lt_trans this (by decide)
    have hb := dyadic_back hlt
    rw [e1, e2] at hb
    simp only [rdItem, rdFix]
    rw [rd_bind, rd_bind, readU24_eq .be, rdNat_drop (by omega), ok_bind, rd_bind, readU16_eq .be,
      rdNat_drop (by omega), ok_bind, rd_pure, ok_bind, rd_pure, hb]
    rfl
  case text n k =>
    simp only [rdItem]
    rw [rd_bind, rdBytes_drop h, ok_bind, rd_pure]; rfl
  case skip k =>
    simp only [rdItem, rdSkip]
    rw [rd_bind, rd_bind, rdBytes_drop h, ok_bind, rd_pure, ok_bind, rd_pure]
    rfl

theorem rdItems_ok {buf : Bytes} (l : List BlkItem) : ∀ {off : Nat},
    off + sizeOfItems l ≤ buf.length →
    rdItems l (buf.drop off)
      = .ok ((fieldsOf l off).map (fieldVal buf), buf.drop (off + sizeOfItems l)) := by
  induction l with
  | nil => intro off h; rfl
  | cons i t ih =>
    intro off h
    simp only [sizeOfItems, List.map_cons, List.sum_cons] at h ih
    unfold rdItems
    rw [rd_bind, rdItem_ok i (by omega), ok_bind, rd_bind, ih (by omega), ok_bind, rd_pure]
    simp only [fieldsOf, List.map_append, sizeOfItems, List.map_cons, List.sum_cons, Nat.add_assoc]

theorem find_put_same (m : BlkMap) (k : Nat) (b : AddBlk) : (m.put k b).find k = some b := by
  induction m with
  | nil => simp [BlkMap.put, BlkMap.find]
  | cons x t ih =>
    obtain ⟨k', b'⟩ := x
    unfold BlkMap.put
    by_cases h1 : k < k'
    · rw [if_pos h1]; simp [BlkMap.find]
    · rw [if_neg h1]
      by_cases h2 : k = k'
      · rw [if_pos h2]; simp [BlkMap.find]
      · rw [if_neg h2]
        simp only [BlkMap.find, if_neg h2]
        exact ih

theorem find_put_other (m : BlkMap) {k j : Nat} (b : AddBlk) (h : j ≠ k) :
    (m.put k b).find j = m.find j := by
  induction m with
  | nil => simp [BlkMap.put, BlkMap.find, h]
  | cons x t ih =>
    obtain ⟨k', b'⟩ := x
    unfold BlkMap.put
    by_cases h1 : k < k'
    · rw [if_pos h1]; simp [BlkMap.find, h]
    · rw [if_neg h1]
      by_cases h2 : k = k'
      · rw [if_pos h2]; simp [BlkMap.find, h, ← h2]
      · rw [if_neg h2]
        simp only [BlkMap.find, ih]

/-- Reading a block whose statements stay within it. -/
theorem readRev3Blk_ok {buf : Bytes} {m : BlkMap} {b : Byte} {items : List BlkItem}
    (hb : buf[31]? = some b) (hi : blkItems b.toNat = some items)
    {t : Byte} (hs : buf[sizeOfItems items]? = some t) :
    readRev3Blk buf m = .ok (m.put b.toNat (.r3 b.toNat t.toNat
      ((fieldsOf items 0).map (fieldVal buf)))) := by
  have hlen : sizeOfItems items < buf.length := by
    rw [List.getElem?_eq_some_iff] at hs
    exact hs.1
  have h := rdItems_ok items (buf := buf) (off := 0) (by omega)
  rw [Nat.zero_add, List.drop_zero] at h
  have e : buf.drop (sizeOfItems items) = t :: buf.drop (sizeOfItems items + 1) := by
    rw [List.drop_eq_getElem_cons hlen]
    congr 1
    rw [List.getElem?_eq_getElem hlen] at hs
    exact Option.some.inj hs
  unfold readRev3Blk
  rw [hb]
  simp only [hi]
  unfold readBlk
  rw [rd_bind, h, ok_bind, rd_bind, e, readU8_cons, ok_bind, rd_pure]
  rfl

end Sedaman
