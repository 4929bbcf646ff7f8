import Verif.Lemmas.FloatAny
import Mathlib.Data.Int.Log

/-!
# C85: IEEE numbers on hosts whose `double` is not the IEEE one
-/

namespace Sedaman.Props

open Spec

private theorem dec_lt {bo : ByteOrder} {bs : Bytes} {n k : Nat} (hl : bs.length = n) (hk : 256 ^ n = 2 ^ k) :
    (BitVec.ofNat k (decNat bo bs)).toNat = decNat bo bs := by
  rw [BitVec.toNat_ofNat, Nat.mod_eq_of_lt]
  have := decNat_lt bo bs
  rw [hl] at this
  omega

private theorem rdNat_front {bo : ByteOrder} {bs : Bytes} {n : Nat} (hl : bs.length = n) (rest : Bytes) :
    rdNat bo n (bs ++ rest) = .ok (decNat bo bs, rest) := by
  unfold rdNat
  rw [if_pos (by simp [hl]), List.take_left' hl, List.drop_left' hl]

/-- **C85 (reading).** Four bytes that stand for a number are read as that number exactly if it is not zero and
not below the normal range of single precision.
Missing: zero and the small numbers (`C85_zero_misread`), infinities (`C85_infinity_misread`). -/
theorem C85_read_single_partial (bo : ByteOrder) (bs : Bytes) (hl : bs.length = 4) :
    ∃ x, (∀ rest, readSingleAny bo (bs ++ rest) = .ok (x, rest)) ∧
      ∀ v, ieeeSingle bo bs = some v → (x = v ↔ (2 : ℚ) ^ (-126 : Int) ≤ |v|) := by
  refine ⟨decAny 23 8 (decNat bo bs), fun rest => ?_, fun v hv => ?_⟩
  · unfold readSingleAny
    rw [rd_bind, readU32_eq, rdNat_front hl]
    rfl
  · have hv : ratOf (decF f32 (decNat bo bs)) = some v := by
      unfold ieeeSingle sglRat Sgl.val at hv
      rwa [dec_lt hl (by decide)] at hv
    by_cases hE : decNat bo bs % 2 ^ (23 + 8) / 2 ^ 23 = 0
    · obtain ⟨h1, h2⟩ := decAny_low any32 hv hE
      exact ⟨fun h => absurd h h2, fun h => absurd h1 (not_lt.2 h)⟩
    · obtain ⟨h1, h2⟩ := decAny_normal any32 hv hE
      exact ⟨fun _ => h2, fun _ => h1⟩

/-- **C85 (reading).** The same for double precision. -/
theorem C85_read_double_partial (bo : ByteOrder) (bs : Bytes) (hl : bs.length = 8) :
    ∃ x, (∀ rest, readDoubleAny bo (bs ++ rest) = .ok (x, rest)) ∧
      ∀ v, ieeeDouble bo bs = some v → (x = v ↔ (2 : ℚ) ^ (-1022 : Int) ≤ |v|) := by
  refine ⟨decAny 52 11 (decNat bo bs), fun rest => ?_, fun v hv => ?_⟩
  · unfold readDoubleAny
    rw [rd_bind, readU64_eq, rdNat_front hl]
    rfl
  · have hv : ratOf (decF f64 (decNat bo bs)) = some v := by
      unfold ieeeDouble dblRat Dbl.val at hv
      rwa [dec_lt hl (by decide)] at hv
    by_cases hE : decNat bo bs % 2 ^ (52 + 11) / 2 ^ 52 = 0
    · obtain ⟨h1, h2⟩ := decAny_low any64 hv hE
      exact ⟨fun h => absurd h h2, fun h => absurd h1 (not_lt.2 h)⟩
    · obtain ⟨h1, h2⟩ := decAny_normal any64 hv hE
      exact ⟨fun _ => h2, fun _ => h1⟩

/-- The bytes of -6.25 in both sizes. -/
example : ieeeSingle .be [0xc0, 0xc8, 0, 0] = some (-(25 / 4)) ∧
    ieeeDouble .be [0xc0, 0x19, 0, 0, 0, 0, 0, 0] = some (-(25 / 4)) := by decide +kernel

example : readSingleAny .be [0xc0, 0xc8, 0, 0] = .ok (-(25 / 4), []) := by
  obtain ⟨x, h1, h2⟩ := C85_read_single_partial .be [0xc0, 0xc8, 0, 0] rfl
  have := (h2 (-(25 / 4)) (by decide +kernel)).2 (by norm_num)
  rw [this] at h1
  exact h1 []

/-- **C85, counterexample.** The bytes of zero are read as a number that is not zero. -/
theorem C85_zero_misread :
    ieeeSingle .be [0, 0, 0, 0] = some 0 ∧ readSingleAny .be [0, 0, 0, 0] = .ok (2 ^ (-127 : Int), []) := by
  decide +kernel

/-- **C85, counterexample.** The bytes of infinity are read as a number. -/
theorem C85_infinity_misread :
    ieeeSingle .be [0x7f, 0x80, 0, 0] = none ∧ readSingleAny .be [0x7f, 0x80, 0, 0] = .ok (2 ^ 128, []) := by
  decide +kernel

/-- **C85 fails for writing.** No number of the normal range is stored: the bytes always stand for another
number, with the right sign, but greater and up to three times as large. -/
theorem C85_write_single_wrong (lg : ℚ → ℚ) (hlg : LogFloorOk lg) (bo : ByteOrder) (x : ℚ)
    (h1 : (2 : ℚ) ^ (-126 : Int) ≤ |x|) (h2 : |x| < 2 ^ 127) :
    ∃ bs v, writeSingleAny lg bo x = .ok bs ∧ bs.length = 4 ∧ ieeeSingle bo bs = some v ∧
      |x| < |v| ∧ |v| < 3 * |x| ∧ (v < 0 ↔ x < 0) := by
  obtain ⟨n, v, e1, e2, e3, e4⟩ := encAny_wrong any32 hlg (by decide) (by decide) (val := x) h1 (by exact_mod_cast h2)
  refine ⟨_, v, by unfold writeSingleAny; rw [e1, ok_bind]; rfl, by rw [writeU32_eq]; simp, ?_, e4⟩
  unfold ieeeSingle sglRat Sgl.val
  rw [writeU32_eq, dec_lt (n := 4) (by simp) (by decide), decNat_encInt, toU_of_nat_lt (n := 4) (by omega)]
  exact e3

/-- **C85 fails for writing.** The same for double precision. -/
theorem C85_write_double_wrong (lg : ℚ → ℚ) (hlg : LogFloorOk lg) (bo : ByteOrder) (x : ℚ)
    (h1 : (2 : ℚ) ^ (-1022 : Int) ≤ |x|) (h2 : |x| < (2 : ℚ) ^ (1023 : Int)) :
    ∃ bs v, writeDoubleAny lg bo x = .ok bs ∧ bs.length = 8 ∧ ieeeDouble bo bs = some v ∧
      |x| < |v| ∧ |v| < 3 * |x| ∧ (v < 0 ↔ x < 0) := by
  obtain ⟨n, v, e1, e2, e3, e4⟩ := encAny_wrong any64 hlg (by decide) (by decide) (val := x) h1 h2
  refine ⟨_, v, by unfold writeDoubleAny; rw [e1, ok_bind]; rfl, by rw [writeU64_eq]; simp, ?_, e4⟩
  unfold ieeeDouble dblRat Dbl.val
  rw [writeU64_eq, dec_lt (n := 8) (by simp) (by decide), decNat_encInt, toU_of_nat_lt (n := 8) (by omega)]
  exact e3

/-- **C85 fails for writing.** Zero: the logarithm is negative infinity, its conversion to an integer is
undefined behaviour. -/
theorem C85_write_zero_undefined (lg : ℚ → ℚ) (bo : ByteOrder) :
    writeSingleAny lg bo 0 = .error (.ub .floatToInt) ∧ writeDoubleAny lg bo 0 = .error (.ub .floatToInt) := by
  constructor <;> rfl

/-- There is such a logarithm. -/
theorem logFloor_exists : LogFloorOk fun x => (Int.log 2 x : ℚ) := by
  intro x hx
  rw [Int.floor_intCast]
  exact ⟨Int.zpow_log_le_self (by norm_num) hx, Int.lt_zpow_succ_log_self (by norm_num) x⟩

/-- The numbers -6.25 and 1. -/
example := C85_write_single_wrong _ logFloor_exists .be (-(25 / 4)) (by norm_num) (by norm_num)
example := C85_write_double_wrong _ logFloor_exists .le 1
  (by rw [abs_one]; exact zpow_le_one_of_nonpos₀ (by norm_num) (by norm_num))
  (by rw [abs_one]; exact one_lt_zpow₀ (by norm_num) (by norm_num))

/-- One is stored as a number close to three. -/
example : (writeSingleAny (fun _ => 0) .be 1).map (ieeeSingle .be) = .ok (some (3 - 1 / 2 ^ 22)) := by
  decide +kernel

end Sedaman.Props
