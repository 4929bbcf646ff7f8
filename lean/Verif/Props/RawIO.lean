import Verif.Lemmas.RawIO

/-!
# Properties C04 and C05: integers on disk

`k.write bo` / `k.read bo` are the library's writer and reader for integer kind `k` once the
byte order `bo` has been selected from the marker by `byteOrderOf`.
-/

namespace Sedaman.Props

open Spec

/-- **C04.** Every integer in range is read back, with every byte order, and the reader's
cursor stands right after it. -/
theorem C04_roundtrip (bo : ByteOrder) (k : IntKind) (v : Int) (h : k.InRange v) (rest : Bytes) :
    k.read bo (k.write bo v ++ rest) = .ok (v, rest) := by
  rw [kind_write_eq, kind_read_eq]
  unfold IntKind.InRange at h
  by_cases hs : k.signed = true
  · rw [if_pos hs] at h ⊢
    rw [rdInt_encInt, toS_toU]
    have e : ((256 ^ k.size : Nat) : Int) = 2 * 2 ^ (8 * k.size - 1) := by cases k <;> rfl
    unfold FitsS
    rw [e]
    generalize (2 : Int) ^ (8 * k.size - 1) = m at *
    omega
  · rw [if_neg hs] at h ⊢
    unfold asInt
    rw [rdNat_encInt, ok_bind]
    have e : ((256 ^ k.size : Nat) : Int) = 2 ^ (8 * k.size) := by cases k <;> rfl
    have : ((toU k.size v : Nat) : Int) = v := toU_fits (by unfold FitsU; rw [e]; exact h)
    simp [this]

/-- A negative 24-bit number in big-endian order. -/
example : IntKind.i24.InRange (-3) ∧ IntKind.i24.write .be (-3) = [0xff, 0xff, 0xfd] ∧
    IntKind.i24.read .be [0xff, 0xff, 0xfd, 0x07] = .ok (-3, [0x07]) := by decide +kernel

/-- **C04.** An integer out of range is stored modulo the width of the kind and never spills
over: exactly `size` bytes are produced. -/
theorem C04_width (bo : ByteOrder) (k : IntKind) (v : Int) :
    (k.write bo v).length = k.size := by
  rw [kind_write_eq, encInt_length]

/-- **C04.** Conversely every `size` bytes on disk are reproduced by writing the value that was
read from them. -/
theorem C04_rewrite (bo : ByteOrder) (k : IntKind) (bs rest : Bytes) (v : Int)
    (hlen : bs.length = k.size) (h : k.read bo (bs ++ rest) = .ok (v, rest)) :
    k.write bo v = bs := by
  rw [kind_write_eq]
  rw [kind_read_eq] at h
  by_cases hs : k.signed = true
  · rw [if_pos hs] at h
    unfold rdInt at h
    rw [if_pos (by simp; omega), List.take_left' hlen] at h
    simp only [Except.ok.injEq, Prod.mk.injEq] at h
    rw [← h.1, ← hlen, encInt_decInt]
  · rw [if_neg hs] at h
    unfold asInt rdNat at h
    rw [if_pos (by simp; omega), List.take_left' hlen] at h
    simp only [ok_bind, pure_eq_ok, Except.ok.injEq, Prod.mk.injEq] at h
    rw [← h.1, ← hlen, encInt_decNat]

example : IntKind.u24.read .le ([1, 2, 3] ++ [9]) = .ok (0x030201, [9]) := by decide

/-- **C04.** Reading past the end of the buffer is the only way a raw read can fail. -/
theorem C04_short (bo : ByteOrder) (k : IntKind) (bs : Bytes) (h : bs.length < k.size) :
    k.read bo bs = isUb .outOfBounds := by
  rw [kind_read_eq]
  split
  · unfold rdInt; rw [if_neg (by omega)]
  · unfold asInt rdNat; rw [if_neg (by omega)]; rfl

/-- **C04.** The result for 24-bit integers relies on the compiler evaluating
`read<uint16_t>(buf) | read<uint8_t>(buf) << 16` from left to right, which C++ does not
promise: with the other order the round trip fails. -/
theorem C04_u24_needs_left_to_right :
    readU24 .le (writeU24 .le 0x030201) = .ok (0x030201, []) ∧
    readU24RL .le (writeU24 .le 0x030201) = .ok (0x010302, []) := by decide +kernel

/-- **C05.** Which markers are accepted and what they mean. -/
theorem C05_marker (m : Int) :
    (m = 0x01020304 → byteOrderOf m = .ok .le) ∧
    (m = 0 ∨ m = 0x04030201 → byteOrderOf m = .ok .be) ∧
    (m ≠ 0x01020304 → m ≠ 0 → m ≠ 0x04030201 →
      byteOrderOf m = throwExn .unsupportedEndianness) := by
  unfold byteOrderOf
  refine ⟨?_, ?_, ?_⟩
  · intro h; rw [if_pos h]
  · intro h
    rw [if_neg (by omega), if_pos h]
  · intro h1 h2 h3
    rw [if_neg h1, if_neg (by omega)]

example : byteOrderOf 0x01020305 = throwExn .unsupportedEndianness := by decide

/-- **C05.** With the big-endian order byte `i` on disk is digit `size-1-i` of the number in
base 256, with the little-endian order digit `i`; for writer... -/
theorem C05_bytes_on_disk (k : IntKind) (v : Int) (i : Nat) (hi : i < k.size) :
    (k.write .be v)[i]? = some (BitVec.ofInt 8 (v / (256 ^ (k.size - 1 - i) : Nat))) ∧
    (k.write .le v)[i]? = some (BitVec.ofInt 8 (v / (256 ^ i : Nat))) := by
  have be : ∀ (n i : Nat) (v : Int), i < n →
      (beBytes n v)[i]? = some (BitVec.ofInt 8 (v / (256 ^ (n - 1 - i) : Nat))) := by
    intro n
    induction n with
    | zero => intro i v h; omega
    | succ n ih =>
      intro i v h
      have hl : (beBytes n (v / 256)).length = n := by rw [beBytes_eq]; simp
      rw [beBytes]
      by_cases hi : i < n
      · rw [List.getElem?_append_left (by omega), ih i _ hi]
        congr 2
        rw [Int.ediv_ediv_of_nonneg (by decide)]
        congr 1
        have : n + 1 - 1 - i = n - 1 - i + 1 := by omega
        rw [this, Nat.pow_succ]
        omega
      · have : i = n := by omega
        subst this
        rw [List.getElem?_append_right (by omega), hl]
        simp
  rw [kind_write_eq, kind_write_eq]
  refine ⟨be _ _ _ hi, ?_⟩
  have hl : (beBytes k.size v).length = k.size := by rw [beBytes_eq]; simp
  rw [encInt, List.getElem?_reverse (by omega), hl, be _ _ _ (by omega)]
  congr 5
  omega

example : IntKind.i32.write .be 0x01020304 = [1, 2, 3, 4] ∧
    IntKind.i32.write .le 0x01020304 = [4, 3, 2, 1] := by decide +kernel

/-- **C05.** ... and reader alike: the reader evaluates the bytes positionally. -/
theorem C05_value_read (bo : ByteOrder) (k : IntKind) (bs rest : Bytes)
    (hlen : bs.length = k.size) :
    k.read bo (bs ++ rest) =
      .ok (if k.signed then decInt bo bs else (decNat bo bs : Int), rest) := by
  rw [kind_read_eq]
  split
  · unfold rdInt
    rw [if_pos (by simp; omega), List.take_left' hlen, List.drop_left' hlen]
  · unfold asInt rdNat
    rw [if_pos (by simp; omega), List.take_left' hlen, List.drop_left' hlen]
    simp

example : IntKind.i16.read .be [0xff, 0xfe] = .ok (-2, []) ∧
    IntKind.u16.read .le [0xff, 0xfe] = .ok (0xfeff, []) := by decide

end Sedaman.Props
