import Verif.Lemmas.Bcd

/-!
# Properties C01–C03: packed decimals (util.hpp)

Vocabulary: `Spec.nibbles` (half-bytes of a buffer), `Spec.decVal` (base-10 value of a digit
list), `Spec.decDigits num v` (the `num` low decimal digits of `v`). `toBcd w v skip num buf`
is the library call on a value whose C++ type has `w` bytes; `fromBcd skip num` the inverse.
-/

namespace Sedaman.Props

open Spec

/-- **C02.** `to_bcd` stores the `num` low decimal digits of `v`, most significant first,
starting at the first nibble (second with `skip`); if the last byte is only half used its
low nibble becomes zero; everything else keeps its contents; the cursor advances by
`(num + skip)/2`. With `skip`, the low nibble of the first byte must be zero beforehand. -/
theorem C02_toBcd_layout (w v num : Nat) (skip : Bool) (buf : Bytes)
    (hw : w ≤ 8) (hv : v < 256 ^ w) (hnum : 1 ≤ num)
    (hlen : num + skip.toNat ≤ 2 * buf.length)
    (hskip : skip = true → ∀ b ∈ buf.head?, b.toNat % 16 = 0) :
    ∃ buf', toBcd w (v : Int) skip num buf = .ok (buf', (num + skip.toNat) / 2) ∧
      nibbles buf' = (nibbles buf).take skip.toNat ++ decDigits num v ++
        (if (num + skip.toNat) % 2 = 1 then [0] else []) ++
        (nibbles buf).drop ((num + skip.toNat + 1) / 2 * 2) := by
  obtain ⟨k, rfl⟩ : ∃ k, num = k + 1 := ⟨num - 1, by omega⟩
  have hdig : ∀ i, i < k + 1 → bcdOut w (v : Int) (k + 1) i = dig10 v i :=
    fun i hi => bcdOut_eq hw hv hi
  have hd16 : ∀ i, i < k + 1 → bcdOut w (v : Int) (k + 1) i < 16 := by
    intro i hi; rw [hdig i hi]; have := dig10_lt v i; omega
  rw [decDigits_eq_msf, ← msf_congr hdig]
  cases skip with
  | false =>
    have h := bcdEmit_eq (k + 1) buf hd16
    rw [if_pos (by simpa using hlen)] at h
    obtain ⟨buf', e, _, hn⟩ := h
    refine ⟨buf', ?_, ?_⟩
    · simpa [toBcd] using e
    · simpa using hn
  | true =>
    cases buf with
    | nil => simp at hlen
    | cons b bs =>
      have hlow : b.toNat % 16 = 0 := hskip rfl b (by simp)
      have h := bcdEmit_eq k bs (fun i hi => hd16 i (by omega))
      rw [if_pos (by simp at hlen; omega)] at h
      obtain ⟨buf', e, _, hn⟩ := h
      have hk := hd16 k (by omega)
      have hb : (b ||| BitVec.ofNat 8 (bcdOut w (v : Int) (k + 1) k)).toNat
          = b.toNat / 16 * 16 + bcdOut w (v : Int) (k + 1) k := by
        rw [BitVec.toNat_or, BitVec.toNat_ofNat, Nat.mod_eq_of_lt (by omega)]
        conv => lhs; rw [show b.toNat = b.toNat / 16 * 16 by omega]
        exact or_nibs hk
      refine ⟨(b ||| BitVec.ofNat 8 (bcdOut w (v : Int) (k + 1) k)) :: buf', ?_, ?_⟩
      · simp only [toBcd, e]
        simp
        omega
      · simp only [nibbles, hb, hn, msf]
        have e1 : (b.toNat / 16 * 16 + bcdOut w (v : Int) (k + 1) k) / 16 = b.toNat / 16 := by omega
        have e2 : (b.toNat / 16 * 16 + bcdOut w (v : Int) (k + 1) k) % 16
            = bcdOut w (v : Int) (k + 1) k := by omega
        have e3 : (k + 1 + true.toNat + 1) / 2 * 2 = (k + 1) / 2 * 2 + 2 := by simp; omega
        have e4 : (k + 1 + true.toNat) % 2 = k % 2 := by simp; omega
        rw [e1, e2, e3, e4]
        simp

/-- The hypotheses of C02 are met by a concrete case: 243 in 3 digits at the second nibble
of `50 FF EE` gives `52 43 EE`. -/
example : toBcd 4 243 true 3 [0x50, 0xff, 0xee] = .ok ([0x52, 0x43, 0xee], 2) ∧
    (∃ buf', toBcd 4 ((243 : Nat) : Int) true 3 [0x50, 0xff, 0xee] = .ok (buf', 2) ∧
      nibbles buf' = [5, 2, 4, 3, 14, 14]) := by
  refine ⟨by decide +kernel, ?_⟩
  exact C02_toBcd_layout 4 243 3 true [0x50, 0xff, 0xee] (by decide) (by decide) (by decide)
    (by decide) (by decide)

/-- **C02.** The stored digits denote `v mod 10^num`. -/
theorem C02_digits_value (num v : Nat) : decVal (decDigits num v) = v % 10 ^ num :=
  decVal_decDigits num v

example : decDigits 3 98765 = [7, 6, 5] := by decide

/-- **C02.** Too short a buffer is an out-of-bounds access. -/
theorem C02_toBcd_short (w v num : Nat) (skip : Bool) (buf : Bytes)
    (hw : w ≤ 8) (hv : v < 256 ^ w) (hlen : 2 * buf.length < num + skip.toNat) :
    toBcd w (v : Int) skip num buf = isUb .outOfBounds := by
  cases num with
  | zero => rfl
  | succ k =>
    have hd16 : ∀ i, i < k + 1 → bcdOut w (v : Int) (k + 1) i < 16 := by
      intro i hi; rw [bcdOut_eq hw hv hi]; have := dig10_lt v i; omega
    cases skip with
    | false =>
      have h := bcdEmit_eq (k + 1) buf hd16
      rw [if_neg (by simp at hlen; omega)] at h
      simpa [toBcd] using h
    | true =>
      cases buf with
      | nil => rfl
      | cons b bs =>
        have h := bcdEmit_eq k bs (fun i hi => hd16 i (by omega))
        rw [if_neg (by simp at hlen; omega)] at h
        simp only [toBcd, h]
        rfl

/-- **C03.** `from_bcd` returns the base-10 value of the `num` nibbles that start at the first
(with `skip` second) nibble, whatever their values, and moves the cursor by
`(num + skip)/2`. -/
theorem C03_fromBcd_value (skip : Bool) (num : Nat) (bs : Bytes) (hnum : 1 ≤ num)
    (hlen : num + skip.toNat ≤ 2 * bs.length) :
    fromBcd skip num bs = .ok (decVal (((nibbles bs).drop skip.toNat).take num),
      bs.drop ((num + skip.toNat) / 2)) := by
  cases bs with
  | nil => simp at hlen; omega
  | cons b rest =>
    unfold fromBcd
    cases skip with
    | true =>
      obtain ⟨k, rfl⟩ : ∃ k, num = k + 1 := ⟨num - 1, by omega⟩
      simp only [Bool.toNat_true, List.length_cons] at hlen
      simp [fromBcdLoop_eq, nibbles, decVal, loNib, show k ≤ 2 * rest.length by omega]
    | false =>
      by_cases h1 : num = 1
      · subst h1
        simp [fromBcdLoop_eq, nibbles, decVal, hiNib]
      · obtain ⟨k, rfl⟩ : ∃ k, num = k + 2 := ⟨num - 2, by omega⟩
        simp only [Bool.toNat_false, List.length_cons] at hlen
        simp [fromBcdLoop_eq, nibbles, decVal, hiNib, loNib, show k ≤ 2 * rest.length by omega]

/-- Nibbles above 9 are not rejected: `1F` reads as 25. -/
example : fromBcd false 2 [0x1f, 0x77] = .ok (25, [0x77]) := by decide

/-- **C03.** Too short a buffer is an out-of-bounds access. -/
theorem C03_fromBcd_short (skip : Bool) (num : Nat) (bs : Bytes) (hnum : 1 ≤ num)
    (hlen : 2 * bs.length < num + skip.toNat) :
    fromBcd skip num bs = isUb .outOfBounds := by
  cases bs with
  | nil => rfl
  | cons b rest =>
    unfold fromBcd
    cases skip with
    | true =>
      obtain ⟨k, rfl⟩ : ∃ k, num = k + 1 := ⟨num - 1, by omega⟩
      simp only [Bool.toNat_true, List.length_cons] at hlen
      simp [fromBcdLoop_eq, show ¬ k ≤ 2 * rest.length by omega]
    | false =>
      simp only [Bool.toNat_false, List.length_cons] at hlen
      obtain ⟨k, rfl⟩ : ∃ k, num = k + 2 := ⟨num - 2, by omega⟩
      simp [fromBcdLoop_eq, show ¬ k ≤ 2 * rest.length by omega]

/-- **C01.** Round trip: a number with at most `num` decimal digits that fits a `w`-byte type
is written and read back, and both calls leave the cursor at the same place. -/
theorem C01_bcd_roundtrip (w v num : Nat) (skip : Bool) (buf : Bytes)
    (hw : w ≤ 8) (hv : v < 256 ^ w) (hdigits : v < 10 ^ num) (hnum : 1 ≤ num)
    (hlen : num + skip.toNat ≤ 2 * buf.length)
    (hskip : skip = true → ∀ b ∈ buf.head?, b.toNat % 16 = 0) :
    ∃ buf' adv, toBcd w (v : Int) skip num buf = .ok (buf', adv) ∧
      adv = (num + skip.toNat) / 2 ∧
      fromBcd skip num buf' = .ok (v, buf'.drop adv) := by
  obtain ⟨buf', e, hn⟩ := C02_toBcd_layout w v num skip buf hw hv hnum hlen hskip
  refine ⟨buf', _, e, rfl, ?_⟩
  have hl : buf'.length = buf.length := by
    have h := congrArg List.length hn
    rw [nibbles_length] at h
    simp only [List.length_append, List.length_take, List.length_drop, nibbles_length,
      decDigits_length] at h
    have : (if (num + skip.toNat) % 2 = 1 then [0] else ([] : List Nat)).length
        = (num + skip.toNat) % 2 := by split <;> simp <;> omega
    rw [this] at h
    have := Bool.toNat_le skip
    omega
  rw [C03_fromBcd_value skip num buf' hnum (by omega), hn]
  congr 2
  have h1 : ((nibbles buf).take skip.toNat).length = skip.toNat := by
    rw [List.length_take, nibbles_length]; have := Bool.toNat_le skip; omega
  rw [List.append_assoc, List.append_assoc, List.drop_left' h1,
    List.take_left' (decDigits_length num v), decVal_decDigits, Nat.mod_eq_of_lt hdigits]

/-- C01 applies to a 12-digit number in a 64-bit variable. -/
example : ∃ buf' adv, toBcd 8 ((123456789012 : Nat) : Int) false 12 [1, 2, 3, 4, 5, 6, 7]
    = .ok (buf', adv) ∧ adv = 6 ∧ fromBcd false 12 buf' = .ok (123456789012, buf'.drop adv) :=
  C01_bcd_roundtrip 8 123456789012 12 false _ (by decide) (by decide) (by decide) (by decide)
    (by decide) (by decide)

/-- **C03.** Decimal nibbles are reproduced: reading `num` nibbles that are all decimal digits
and writing the number back (from the first nibble on) gives the same digits. -/
theorem C03_decimal_nibbles_reproduced (ds : List Nat) (h : ∀ d ∈ ds, d < 10) :
    decDigits ds.length (decVal ds) = ds := decDigits_decVal ds h

/-- **C03.** A byte string made of decimal nibbles only survives read + write unchanged. -/
theorem C03_read_write_identity (w : Nat) (bs : Bytes) (hw : w ≤ 8) (hne : bs ≠ [])
    (hdec : ∀ d ∈ nibbles bs, d < 10) (hfit : decVal (nibbles bs) < 256 ^ w) :
    ∃ v, fromBcd false (2 * bs.length) bs = .ok (v, []) ∧
      toBcd w (v : Int) false (2 * bs.length) bs = .ok (bs, bs.length) := by
  have hpos : 1 ≤ 2 * bs.length := by
    cases bs with
    | nil => exact absurd rfl hne
    | cons => simp; omega
  refine ⟨decVal (nibbles bs), ?_, ?_⟩
  · rw [C03_fromBcd_value false _ bs hpos (by simp)]
    simp only [Bool.toNat_false, List.drop_zero, Nat.add_zero]
    rw [← nibbles_length, List.take_length, nibbles_length]
    simp
  · obtain ⟨buf', e, hn⟩ := C02_toBcd_layout w (decVal (nibbles bs)) (2 * bs.length) false bs hw
      hfit hpos (by simp) (by simp)
    rw [e]
    have : nibbles buf' = nibbles bs := by
      rw [hn]
      have e1 : decDigits (2 * bs.length) (decVal (nibbles bs)) = nibbles bs := by
        rw [← nibbles_length]; exact decDigits_decVal _ hdec
      have e2 : (2 * bs.length + false.toNat + 1) / 2 * 2 = (nibbles bs).length := by
        rw [nibbles_length]; simp; omega
      rw [e1, e2]
      simp
    rw [nibbles_inj this]
    simp

example : fromBcd false 4 [0x12, 0x34] = .ok (1234, []) ∧
    toBcd 4 1234 false 4 [0x12, 0x34] = .ok ([0x12, 0x34], 2) := by decide +kernel

/-- A negative number is not encoded as its digits: `to_bcd(-1)` stores `00 70`, so callers
must not pass negative values. -/
theorem C01_negative_not_encoded :
    toBcd 4 (-1) false 3 [0, 0] = .ok ([0x00, 0x70], 1) := by decide +kernel

/-- A count of zero nibbles is undefined behaviour. -/
theorem C01_zero_count_undefined (w : Nat) (v : Int) (skip : Bool) (buf : Bytes) :
    toBcd w v skip 0 buf = isUb .outOfBounds := rfl

end Sedaman.Props
