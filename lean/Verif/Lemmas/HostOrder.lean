import Verif.Spec.HostOrder
import Verif.Lemmas.RawIO

/-!
# Lemmas about computers of either byte order
-/

namespace Sedaman

open Spec

theorem hostVal_eq (h : ByteOrder) (b : Bytes) : hostVal h b = decNat h b := by
  cases h
  · rw [decNat_le]; rfl
  · rw [decNat_be]; rfl

theorem hostBytes_eq (h : ByteOrder) (n : Nat) (v : Int) : hostBytes h n (toU n v) = encInt h n v := by
  cases h
  · rw [encInt_le]; rfl
  · rw [encInt_be]; rfl

theorem swapUH_eq (h : ByteOrder) (n u : Nat) : swapUH h n u = swapU n u := by
  cases h <;> simp [swapUH, swapU, hostVal, hostBytes]

theorem swapSH_eq (h : ByteOrder) (n : Nat) (v : Int) : swapSH h n v = swapS n v := by
  simp [swapSH, swapS, swapUH_eq]

theorem readUH_eq (h : ByteOrder) (n : Nat) : readUH h n = rdNat h n := by
  funext bs
  simp only [readUH, rdNat, rd_bind, rdBytes, rd_pure, hostVal_eq]
  split <;> rfl

theorem readSH_eq (h : ByteOrder) (n : Nat) : readSH h n = rdInt h n := by
  funext bs
  simp only [readSH, rdInt, rd_bind, rdBytes, rd_pure]
  split
  · rename_i hl
    simp only [ok_bind, decInt_eq, hostVal_eq, List.length_take, Nat.min_eq_left hl]
  · rfl

theorem swapU_decNat {n : Nat} {bs : Bytes} (h : ByteOrder) (hl : bs.length = n) :
    swapU n (decNat h bs) = decNat (other h) bs := by
  cases h
  · rw [decNat_le, swapU_leVal hl]; exact (decNat_be bs).symm
  · rw [decNat_be, swapU_leVal (by simpa using hl), List.reverse_reverse]; exact (decNat_le bs).symm

theorem readUH_swap (h : ByteOrder) (n : Nat) :
    (do pure (swapUH h n (← readUH h n)) : Rd Nat) = rdNat (other h) n := by
  funext bs
  rw [readUH_eq]
  simp only [rd_bind, rdNat, rd_pure]
  split
  · rename_i hl
    simp only [ok_bind, swapUH_eq]
    rw [swapU_decNat h (by rw [List.length_take]; omega)]
  · rfl

theorem readSH_swap (h : ByteOrder) (n : Nat) :
    (do pure (swapSH h n (← readSH h n)) : Rd Int) = rdInt (other h) n := by
  funext bs
  rw [readSH_eq]
  simp only [rd_bind, rdInt, rd_pure]
  split
  · rename_i hl
    have e : (bs.take n).length = n := by rw [List.length_take]; omega
    simp only [ok_bind, swapSH_eq, decInt_eq, e]
    rw [swapS_toS, swapU_decNat h e]
  · rfl

theorem rdNat_one (a b : ByteOrder) : rdNat a 1 = rdNat b 1 := by
  rw [← readU8_eq a, ← readU8_eq b]

theorem rdInt_one (a b : ByteOrder) : rdInt a 1 = rdInt b 1 := by
  rw [← readI8_eq a, ← readI8_eq b]

theorem readU8H_eq (h o : ByteOrder) : readU8H h = rdNat o 1 := by
  rw [readU8H, readUH_eq, rdNat_one]
theorem readI8H_eq (h o : ByteOrder) : readI8H h = rdInt o 1 := by
  rw [readI8H, readSH_eq, rdInt_one]
theorem readU16H_eq (h : ByteOrder) (s : RawSet) : readU16H h s = readU16 (fileOrder h s) := by
  rw [readU16_eq]
  cases s
  · exact readUH_eq h 2
  · exact readUH_swap h 2
theorem readI16H_eq (h : ByteOrder) (s : RawSet) : readI16H h s = readI16 (fileOrder h s) := by
  rw [readI16_eq]
  cases s
  · exact readSH_eq h 2
  · exact readSH_swap h 2
theorem readU32H_eq (h : ByteOrder) (s : RawSet) : readU32H h s = readU32 (fileOrder h s) := by
  rw [readU32_eq]
  cases s
  · exact readUH_eq h 4
  · exact readUH_swap h 4
theorem readI32H_eq (h : ByteOrder) (s : RawSet) : readI32H h s = readI32 (fileOrder h s) := by
  rw [readI32_eq]
  cases s
  · exact readSH_eq h 4
  · exact readSH_swap h 4
theorem readU64H_eq (h : ByteOrder) (s : RawSet) : readU64H h s = readU64 (fileOrder h s) := by
  rw [readU64_eq]
  cases s
  · exact readUH_eq h 8
  · exact readUH_swap h 8
theorem readI64H_eq (h : ByteOrder) (s : RawSet) : readI64H h s = readI64 (fileOrder h s) := by
  rw [readI64_eq]
  cases s
  · exact readSH_eq h 8
  · exact readSH_swap h 8

theorem kind_readOn_eq (h : ByteOrder) (s : RawSet) (k : IntKind) (hk : k.size ≠ 3) :
    k.readOn h s = k.read (fileOrder h s) := by
  cases k <;> first
    | exact absurd rfl hk
    | simp only [IntKind.readOn, IntKind.read, readU16H_eq, readI16H_eq, readU32H_eq, readI32H_eq,
        readU64H_eq, readI64H_eq, readU8H_eq h .le, readI8H_eq h .le, readU8_eq .le, readI8_eq .le]

theorem hostBytes_swap (h : ByteOrder) (n : Nat) (v : Int) :
    hostBytes h n (toU n ((swapU n (toU n v) : Nat) : Int)) = encInt (other h) n v := by
  rw [hostBytes_eq]
  cases h
  · rw [← writeI_eq, writeI_swapU]; rfl
  · rw [encInt_be, ← writeI, writeI_swapU, encInt_be, List.reverse_reverse]; exact (encInt_le n v).symm

theorem writeIH_eq (h : ByteOrder) (n : Nat) (v : Int) : writeIH h n v = encInt h n v :=
  hostBytes_eq h n v

theorem writeIH_swapU (h : ByteOrder) (n : Nat) (v : Int) :
    writeIH h n (swapUH h n (toU n v) : Nat) = encInt (other h) n v := by
  rw [swapUH_eq]; exact hostBytes_swap h n v

theorem writeIH_swapS (h : ByteOrder) (n : Nat) (v : Int) :
    writeIH h n (swapSH h n (toS n (toU n v))) = encInt (other h) n v := by
  rw [swapSH_eq, swapS_toS, writeIH_eq, encInt_toS, ← writeIH_eq]
  exact hostBytes_swap h n v

theorem writeIH_toU (h : ByteOrder) (n : Nat) (v : Int) : writeIH h n (toU n v) = encInt h n v := by
  rw [writeIH_eq, encInt_toU]

theorem writeIH_toS (h : ByteOrder) (n : Nat) (v : Int) :
    writeIH h n (toS n (toU n v)) = encInt h n v := by
  rw [writeIH_eq, encInt_toS, encInt_toU]

theorem encInt_one' (a b : ByteOrder) (v : Int) : encInt a 1 v = encInt b 1 v := by
  cases a <;> cases b <;> simp [encInt_one]

theorem writeU8H_eq (h o : ByteOrder) (v : Int) : writeU8H h v = encInt o 1 v := by
  rw [writeU8H, writeIH_toU, encInt_one' h o]
theorem writeI8H_eq (h o : ByteOrder) (v : Int) : writeI8H h v = encInt o 1 v := by
  rw [writeI8H, writeIH_toS, encInt_one' h o]
theorem writeU16H_eq (h : ByteOrder) (s : RawSet) (v : Int) :
    writeU16H h s v = writeU16 (fileOrder h s) v := by
  rw [writeU16_eq]
  cases s
  · exact writeIH_toU h 2 v
  · exact writeIH_swapU h 2 v
theorem writeI16H_eq (h : ByteOrder) (s : RawSet) (v : Int) :
    writeI16H h s v = writeI16 (fileOrder h s) v := by
  rw [writeI16_eq]
  cases s
  · exact writeIH_toS h 2 v
  · exact writeIH_swapS h 2 v
theorem writeU32H_eq (h : ByteOrder) (s : RawSet) (v : Int) :
    writeU32H h s v = writeU32 (fileOrder h s) v := by
  rw [writeU32_eq]
  cases s
  · exact writeIH_toU h 4 v
  · exact writeIH_swapU h 4 v
theorem writeI32H_eq (h : ByteOrder) (s : RawSet) (v : Int) :
    writeI32H h s v = writeI32 (fileOrder h s) v := by
  rw [writeI32_eq]
  cases s
  · exact writeIH_toS h 4 v
  · exact writeIH_swapS h 4 v
theorem writeU64H_eq (h : ByteOrder) (s : RawSet) (v : Int) :
    writeU64H h s v = writeU64 (fileOrder h s) v := by
  rw [writeU64_eq]
  cases s
  · exact writeIH_toU h 8 v
  · exact writeIH_swapU h 8 v
theorem writeI64H_eq (h : ByteOrder) (s : RawSet) (v : Int) :
    writeI64H h s v = writeI64 (fileOrder h s) v := by
  rw [writeI64_eq]
  cases s
  · exact writeIH_toS h 8 v
  · exact writeIH_swapS h 8 v

theorem kind_writeOn_eq (h : ByteOrder) (s : RawSet) (k : IntKind) (hk : k.size ≠ 3) (v : Int) :
    k.writeOn h s v = k.write (fileOrder h s) v := by
  cases k <;> first
    | exact absurd rfl hk
    | simp only [IntKind.writeOn, IntKind.write, writeU16H_eq, writeI16H_eq, writeU32H_eq,
        writeI32H_eq, writeU64H_eq, writeI64H_eq, writeU8H_eq h .le, writeI8H_eq h .le,
        writeU8_eq .le, writeI8_eq .le]

/-! ## Three bytes: a big-endian host exchanges the first two -/

/-- The first two bytes exchanged on a big-endian host. -/
def flip2 : ByteOrder → Bytes → Bytes
  | .be, a :: b :: t => b :: a :: t
  | _, bs => bs

/-- The byte order of the little-endian host's set. -/
def setOrder : RawSet → ByteOrder
  | .native => .le
  | .swapped => .be

theorem readU24H_flip (h : ByteOrder) (s : RawSet) (a b c : Byte) (rest : Bytes) :
    readU24H h s (a :: b :: c :: rest) = readU24 (setOrder s) (flip2 h (a :: b :: c :: rest)) := by
  cases h <;> cases s <;>
    simp only [readU24H, readU24, setOrder, flip2, rd_bind, rd_pure, readUH, readU, rdBytes, hostVal,
      swapUH_eq] <;> simp

theorem readI24H_flip (h : ByteOrder) (s : RawSet) (a b c : Byte) (rest : Bytes) :
    readI24H h s (a :: b :: c :: rest) = readI24 (setOrder s) (flip2 h (a :: b :: c :: rest)) := by
  simp only [readI24H, readI24, rd_bind, readU24H_flip]

theorem hostBytes_two (h : ByteOrder) (u : Nat) (t : Bytes) :
    hostBytes h 2 u ++ t = flip2 h (leBytes 2 u ++ t) := by
  cases h <;> simp [hostBytes, leBytes, flip2]

theorem hostBytes_one (h : ByteOrder) (u : Nat) : hostBytes h 1 u = leBytes 1 u := by
  cases h <;> simp [hostBytes, leBytes]

theorem writeU24H_flip (h : ByteOrder) (s : RawSet) (v : Int) :
    writeU24H h s v = flip2 h (writeU24 (setOrder s) v) := by
  cases s <;>
    simp only [writeU24H, writeU24, setOrder, writeIH, writeI, swapUH_eq, hostBytes_two,
      hostBytes_one]

theorem writeI24H_flip (h : ByteOrder) (s : RawSet) (v : Int) :
    writeI24H h s v = flip2 h (writeI24 (setOrder s) v) := by
  cases s <;>
    simp only [writeI24H, writeI24, setOrder, writeIH, writeI, swapUH_eq, hostBytes_two,
      hostBytes_one]

theorem flip2_flip2 (h : ByteOrder) (bs : Bytes) : flip2 h (flip2 h bs) = bs := by
  cases h
  · rfl
  · match bs with
    | [] => rfl
    | [_] => rfl
    | _ :: _ :: _ => rfl

theorem flip2_append {h : ByteOrder} {bs : Bytes} (hl : 2 ≤ bs.length) (t : Bytes) :
    flip2 h bs ++ t = flip2 h (bs ++ t) := by
  cases h
  · rfl
  · match bs, hl with
    | _ :: _ :: _, _ => rfl

theorem flip2_length (h : ByteOrder) (bs : Bytes) : (flip2 h bs).length = bs.length := by
  cases h
  · rfl
  · match bs with
    | [] => rfl
    | [_] => rfl
    | _ :: _ :: _ => rfl

theorem three_cases {bs : Bytes} (hl : 3 ≤ bs.length) : ∃ a b c t, bs = a :: b :: c :: t := by
  match bs, hl with
  | a :: b :: c :: t, _ => exact ⟨a, b, c, t, rfl⟩

theorem readU24H_flip' (h : ByteOrder) (s : RawSet) {bs : Bytes} (hl : 3 ≤ bs.length) :
    readU24H h s bs = readU24 (setOrder s) (flip2 h bs) := by
  obtain ⟨a, b, c, t, rfl⟩ := three_cases hl
  exact readU24H_flip h s a b c t

theorem readI24H_flip' (h : ByteOrder) (s : RawSet) {bs : Bytes} (hl : 3 ≤ bs.length) :
    readI24H h s bs = readI24 (setOrder s) (flip2 h bs) := by
  obtain ⟨a, b, c, t, rfl⟩ := three_cases hl
  exact readI24H_flip h s a b c t

/-- Two conversions after one another. -/
theorem rd_map_map {α β γ : Type} (f : Rd α) (g : α → β) (k : β → γ) :
    (do pure (k (g (← f))) : Rd γ) = (do pure (k (← (do pure (g (← f)) : Rd β)))) := by
  funext bs
  simp only [rd_bind, rd_pure]
  cases f bs <;> rfl

/-! ## The marker -/

theorem hostMarker_bytes (h o : ByteOrder) :
    hostMarker h (markerBytes o) = if h = o then 0x01020304 else 0x04030201 := by
  cases h <;> cases o <;> decide +kernel

theorem segySet_marker (h o : ByteOrder) :
    ∃ s, segySet (hostMarker h (markerBytes o)) = .ok s ∧ fileOrder h s = o := by
  rw [hostMarker_bytes]
  cases h <;> cases o <;> first
    | exact ⟨.native, by decide, rfl⟩
    | exact ⟨.swapped, by decide, rfl⟩

end Sedaman
