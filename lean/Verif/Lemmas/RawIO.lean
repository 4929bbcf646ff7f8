import Verif.Spec.RawIO
import Verif.Lemmas.Bytes
import Mathlib.Tactic.Ring
import Mathlib.Data.Nat.Bitwise

/-! # Every raw reader/writer equals the generic codec of the specification -/

namespace Sedaman

open Spec

/-! ## Spec codec versus host representation -/

theorem beNat_append (a b : Bytes) : beNat (a ++ b) = beNat a * 256 ^ b.length + beNat b := by
  have key : ∀ (b : Bytes) (r : Nat), b.foldl (fun a b => a * 256 + b.toNat) r
      = r * 256 ^ b.length + beNat b := by
    intro b
    induction b with
    | nil => intro r; simp [beNat]
    | cons x xs ih =>
      intro r
      simp only [List.foldl_cons, List.length_cons, beNat]
      rw [ih, ih (0 * 256 + x.toNat), Nat.pow_succ]; ring
  unfold beNat
  rw [List.foldl_append, key]; rfl

theorem beNat_reverse (bs : Bytes) : beNat bs.reverse = leVal bs := by
  induction bs with
  | nil => rfl
  | cons b bs ih =>
    rw [List.reverse_cons, beNat_append, ih]
    simp [beNat, leVal]
    omega

theorem decNat_le (bs : Bytes) : decNat .le bs = leVal bs := beNat_reverse bs

theorem decNat_be (bs : Bytes) : decNat .be bs = leVal bs.reverse := by
  rw [← beNat_reverse, List.reverse_reverse]; rfl

theorem decInt_eq (bo : ByteOrder) (bs : Bytes) : decInt bo bs = toS bs.length (decNat bo bs) := by
  have h : decNat bo bs < 256 ^ bs.length := by
    cases bo with
    | le => rw [decNat_le]; exact leVal_lt bs
    | be =>
      rw [decNat_be]
      have := leVal_lt bs.reverse
      rwa [List.length_reverse] at this
  unfold decInt toS
  rw [Nat.mod_eq_of_lt h]

theorem toU_div (n : Nat) (v : Int) : toU n (v / 256) = toU (n + 1) v / 256 := by
  have h1 := toU_cast n (v / 256)
  have h2 := toU_cast (n + 1) v
  have e : (v / 256) % ((256 ^ n : Nat) : Int) = v % ((256 ^ (n + 1) : Nat) : Int) / 256 := by
    rw [Nat.pow_succ 256 n, Nat.mul_comm, Int.natCast_mul]
    have hm : (0 : Int) < ((256 ^ n : Nat) : Int) := by exact_mod_cast pow256_pos n
    generalize ((256 ^ n : Nat) : Int) = m at *
    have h1 := Int.emod_add_mul_ediv v (256 * m)
    have h2 := Int.emod_nonneg v (b := 256 * m) (by omega)
    have h3 := Int.emod_lt_of_pos v (b := 256 * m) (by omega)
    generalize v % (256 * m) = r at *
    generalize v / (256 * m) = q at *
    have h4 : v / 256 = r / 256 + m * q := by
      rw [← h1, Int.mul_assoc, Int.add_mul_ediv_left _ _ (by decide)]
    show v / 256 % m = r / 256
    rw [h4, Int.add_mul_emod_self_left]
    exact Int.emod_eq_of_lt (by omega) (by omega)
  rw [e, ← h2] at h1
  omega

theorem ofInt_eq_toU (n : Nat) (v : Int) : BitVec.ofInt 8 v = BitVec.ofNat 8 (toU (n + 1) v) := by
  apply BitVec.eq_of_toNat_eq
  rw [BitVec.toNat_ofInt, BitVec.toNat_ofNat]
  have h := toU_cast (n + 1) v
  have e : v % 256 = v % ((256 ^ (n + 1) : Nat) : Int) % 256 := by
    rw [Int.emod_emod_of_dvd]
    rw [Nat.pow_succ 256 n, Int.natCast_mul]
    exact Int.dvd_mul_left _ _
  rw [← h] at e
  have : (2 ^ 8 : Nat) = 256 := by decide
  rw [this]
  have e2 : v % ((256 : Nat) : Int) = v % 256 := rfl
  rw [e2, e]
  omega

theorem beBytes_eq (n : Nat) (v : Int) : beBytes n v = (leBytes n (toU n v)).reverse := by
  induction n generalizing v with
  | zero => rfl
  | succ n ih =>
    rw [beBytes, ih, leBytes, List.reverse_cons, toU_div, ofInt_eq_toU n]

theorem encInt_le (n : Nat) (v : Int) : encInt .le n v = leBytes n (toU n v) := by
  rw [encInt, beBytes_eq, List.reverse_reverse]

theorem encInt_be (n : Nat) (v : Int) : encInt .be n v = (leBytes n (toU n v)).reverse := beBytes_eq n v

@[simp] theorem encInt_length (bo : ByteOrder) (n : Nat) (v : Int) : (encInt bo n v).length = n := by
  cases bo
  · rw [encInt_le]; simp
  · rw [encInt_be]; simp

theorem decNat_encInt (bo : ByteOrder) (n : Nat) (v : Int) : decNat bo (encInt bo n v) = toU n v := by
  have h := toU_lt n v
  cases bo
  · rw [encInt_le, decNat_le, leVal_leBytes, Nat.mod_eq_of_lt h]
  · rw [encInt_be, decNat_be, List.reverse_reverse, leVal_leBytes, Nat.mod_eq_of_lt h]

theorem decInt_encInt (bo : ByteOrder) (n : Nat) (v : Int) :
    decInt bo (encInt bo n v) = toS n (toU n v) := by
  rw [decInt_eq, encInt_length, decNat_encInt]

theorem decNat_lt (bo : ByteOrder) (bs : Bytes) : decNat bo bs < 256 ^ bs.length := by
  cases bo with
  | le => rw [decNat_le]; exact leVal_lt bs
  | be =>
    rw [decNat_be]
    have := leVal_lt bs.reverse
    rwa [List.length_reverse] at this

theorem encInt_decNat (bo : ByteOrder) (bs : Bytes) :
    encInt bo bs.length ((decNat bo bs : Nat) : Int) = bs := by
  cases bo
  · rw [encInt_le, decNat_le, toU_of_nat_lt (leVal_lt bs), leBytes_leVal]
  · rw [encInt_be, decNat_be, toU_of_nat_lt, leBytes_leVal' (by simp), List.reverse_reverse]
    have := leVal_lt bs.reverse
    rwa [List.length_reverse] at this

theorem encInt_toU (bo : ByteOrder) (n : Nat) (v : Int) : encInt bo n (toU n v) = encInt bo n v := by
  cases bo
  · rw [encInt_le, encInt_le, toU_of_nat_lt (toU_lt n v)]
  · rw [encInt_be, encInt_be, toU_of_nat_lt (toU_lt n v)]

theorem encInt_toS (bo : ByteOrder) (n : Nat) (u : Nat) : encInt bo n (toS n u) = encInt bo n u := by
  rw [← encInt_toU, toU_toS, ← toU_natCast, encInt_toU]

theorem encInt_decInt (bo : ByteOrder) (bs : Bytes) :
    encInt bo bs.length (decInt bo bs) = bs := by
  rw [decInt_eq, encInt_toS, encInt_decNat]

/-- Generic reader: take `n` bytes and decode them. -/
def rdNat (bo : ByteOrder) (n : Nat) : Rd Nat := fun bs =>
  if n ≤ bs.length then .ok (decNat bo (bs.take n), bs.drop n) else isUb .outOfBounds

/-- Generic signed reader. -/
def rdInt (bo : ByteOrder) (n : Nat) : Rd Int := fun bs =>
  if n ≤ bs.length then .ok (decInt bo (bs.take n), bs.drop n) else isUb .outOfBounds

theorem readU_eq (n : Nat) : readU n = rdNat .le n := by
  funext bs
  simp only [readU, rdNat, rd_bind, rdBytes, rd_pure, decNat_le]
  split <;> rfl

theorem readS_eq (n : Nat) : readS n = rdInt .le n := by
  funext bs
  simp only [readS, rdInt, rd_bind, rdBytes, rd_pure]
  split
  · rename_i h
    simp only [ok_bind, decInt_eq, decNat_le, List.length_take, Nat.min_eq_left h]
  · rfl

theorem swapU_leVal {n : Nat} {bs : Bytes} (h : bs.length = n) :
    swapU n (leVal bs) = leVal bs.reverse := by
  unfold swapU; rw [leBytes_leVal' h]

theorem readU_swap_eq (n : Nat) : (do pure (swapU n (← readU n)) : Rd Nat) = rdNat .be n := by
  funext bs
  simp only [readU_eq, rdNat, rd_bind, rd_pure]
  split
  · rename_i h
    simp only [ok_bind]
    rw [decNat_be, decNat_le, swapU_leVal (by rw [List.length_take]; omega)]
  · rfl

theorem swapS_toS (n u : Nat) : swapS n (toS n u) = toS n (swapU n u) := by
  unfold swapS
  rw [toU_toS]
  unfold swapU
  rw [leBytes_mod]

theorem readS_swap_eq (n : Nat) : (do pure (swapS n (← readS n)) : Rd Int) = rdInt .be n := by
  funext bs
  simp only [readS_eq, rdInt, rd_bind, rd_pure]
  split
  · rename_i h
    have hl : (bs.take n).length = n := by rw [List.length_take]; omega
    simp only [ok_bind]
    rw [decInt_eq, decInt_eq, hl, swapS_toS, decNat_be, decNat_le, swapU_leVal hl]
  · rfl

theorem readU8_eq (bo : ByteOrder) : readU8 = rdNat bo 1 := by
  unfold readU8
  rw [readU_eq]
  cases bo
  · rfl
  · funext bs
    simp only [rdNat]
    split
    · rename_i h
      rw [decNat_le, decNat_be]
      cases bs with
      | nil => simp at h
      | cons b bs => simp [leVal]
    · rfl

theorem readI8_eq (bo : ByteOrder) : readI8 = rdInt bo 1 := by
  unfold readI8
  rw [readS_eq]
  cases bo
  · rfl
  · funext bs
    simp only [rdInt]
    split
    · rename_i h
      rw [decInt_eq, decInt_eq, decNat_le, decNat_be]
      cases bs with
      | nil => simp at h
      | cons b bs => simp [leVal]
    · rfl

theorem readU16_eq (bo : ByteOrder) : readU16 bo = rdNat bo 2 := by
  cases bo
  · exact readU_eq 2
  · exact readU_swap_eq 2

theorem readI16_eq (bo : ByteOrder) : readI16 bo = rdInt bo 2 := by
  cases bo
  · exact readS_eq 2
  · exact readS_swap_eq 2

theorem readU32_eq (bo : ByteOrder) : readU32 bo = rdNat bo 4 := by
  cases bo
  · exact readU_eq 4
  · exact readU_swap_eq 4

theorem readI32_eq (bo : ByteOrder) : readI32 bo = rdInt bo 4 := by
  cases bo
  · exact readS_eq 4
  · exact readS_swap_eq 4

theorem readU64_eq (bo : ByteOrder) : readU64 bo = rdNat bo 8 := by
  cases bo
  · exact readU_eq 8
  · exact readU_swap_eq 8

theorem readI64_eq (bo : ByteOrder) : readI64 bo = rdInt bo 8 := by
  cases bo
  · exact readS_eq 8
  · exact readS_swap_eq 8

theorem or_shift {a b k : Nat} (h : a < 2 ^ k) : a ||| b <<< k = a + 2 ^ k * b := by
  rw [Nat.shiftLeft_eq, Nat.mul_comm, Nat.or_comm, ← Nat.two_pow_add_eq_or_of_lt h, Nat.add_comm]

theorem shift_or {a b k : Nat} (h : b < 2 ^ k) : a <<< k ||| b = 2 ^ k * a + b := by
  rw [Nat.or_comm, or_shift h, Nat.add_comm]

theorem readU24_eq (bo : ByteOrder) : readU24 bo = rdNat bo 3 := by
  funext bs
  match bs with
  | [] => cases bo <;> rfl
  | [a] => cases bo <;> rfl
  | [a, b] => cases bo <;> rfl
  | a :: b :: c :: rest =>
    have ha := a.isLt
    have hb := b.isLt
    have hc := c.isLt
    cases bo
    · simp only [readU24, readU_eq, rd_bind, rdNat, rd_pure]
      simp only [List.length_cons, List.take_succ_cons, List.take_zero, List.drop_succ_cons,
        List.drop_zero, decNat_le, leVal]
      rw [if_pos (by omega), if_pos (by omega)]
      simp only [ok_bind, List.length_cons]
      rw [if_pos (by omega)]
      simp only [ok_bind, List.take_succ_cons, List.take_zero, leVal, List.drop_succ_cons,
        List.drop_zero]
      rw [or_shift (by omega)]
      congr 2
      omega
    · simp only [readU24, readU_eq, rd_bind, rdNat, rd_pure]
      simp only [List.length_cons, List.take_succ_cons, List.take_zero, List.drop_succ_cons,
        List.drop_zero, decNat_be, decNat_le]
      rw [if_pos (by omega), if_pos (by omega)]
      simp only [ok_bind, List.length_cons]
      rw [if_pos (by omega)]
      simp only [ok_bind, List.take_succ_cons, List.take_zero, List.drop_succ_cons,
        List.drop_zero]
      rw [swapU_leVal (by simp)]
      simp only [List.reverse_cons, List.reverse_nil, List.nil_append, List.cons_append, leVal]
      rw [shift_or (by omega)]
      congr 2
      omega

theorem signExt24 {r : Nat} (h : r < 2 ^ 24) :
    toS 4 (if r &&& 0x800000 ≠ 0 then r ||| 0xff000000 else r) = toS 3 r := by
  have e1 : r &&& 0x800000 = 2 ^ 23 * (r.testBit 23).toNat := by
    rw [Nat.and_comm]; exact Nat.two_pow_and r 23
  have e2 : r ||| 0xff000000 = r + 0xff000000 := or_shift (a := r) (b := 0xff) (k := 24) h
  have e3 : r.testBit 23 = decide (2 ^ 23 ≤ r) := by
    rw [Nat.testBit_eq_decide_div_mod_eq]
    congr 1
    simp only [eq_iff_iff]
    omega
  rw [e1, e2, e3]
  by_cases hr : 2 ^ 23 ≤ r
  · have hc : 2 ^ 23 * (decide (2 ^ 23 ≤ r)).toNat ≠ 0 := by simp; omega
    rw [if_pos hc]
    unfold toS
    have h1 : (r + 0xff000000) % 256 ^ 4 = r + 0xff000000 := Nat.mod_eq_of_lt (by omega)
    have h2 : r % 256 ^ 3 = r := Nat.mod_eq_of_lt (by omega)
    rw [h1, h2, if_neg (by omega), if_neg (by omega)]
    omega
  · have hc : ¬ 2 ^ 23 * (decide (2 ^ 23 ≤ r)).toNat ≠ 0 := by simp; omega
    rw [if_neg hc]
    unfold toS
    have h1 : r % 256 ^ 4 = r := Nat.mod_eq_of_lt (by omega)
    have h2 : r % 256 ^ 3 = r := Nat.mod_eq_of_lt (by omega)
    rw [h1, h2, if_pos (by omega), if_pos (by omega)]

theorem readI24_eq (bo : ByteOrder) : readI24 bo = rdInt bo 3 := by
  funext bs
  simp only [readI24, readU24_eq, rd_bind, rdNat, rdInt, rd_pure]
  split
  · rename_i h
    have hl : (bs.take 3).length = 3 := by rw [List.length_take]; omega
    have := decNat_lt bo (bs.take 3)
    rw [hl] at this
    simp only [ok_bind]
    rw [signExt24 (by omega), decInt_eq, hl]
  · rfl

/-! ## Writers -/

theorem writeI_toU (n : Nat) (v : Int) : writeI n (toU n v) = encInt .le n v := by
  unfold writeI; rw [encInt_le, toU_of_nat_lt (toU_lt n v)]

theorem writeI_eq (n : Nat) (v : Int) : writeI n v = encInt .le n v := by
  rw [encInt_le]; rfl

theorem toU_swapU {n u : Nat} : toU n (swapU n u : Nat) = swapU n u := by
  apply toU_of_nat_lt
  unfold swapU
  have := leVal_lt (leBytes n u).reverse
  simpa using this

theorem writeI_swapU (n : Nat) (v : Int) : writeI n (swapU n (toU n v) : Nat) = encInt .be n v := by
  unfold writeI
  rw [encInt_be, toU_swapU]
  unfold swapU
  rw [leBytes_leVal' (by simp)]

theorem writeI_toS (n : Nat) (v : Int) : writeI n (toS n (toU n v)) = encInt .le n v := by
  rw [writeI_eq, encInt_toS, encInt_toU]

theorem writeI_swapS (n : Nat) (v : Int) :
    writeI n (swapS n (toS n (toU n v))) = encInt .be n v := by
  rw [swapS_toS, writeI_eq, encInt_toS, ← writeI_eq, writeI_swapU]

theorem encInt_one (v : Int) : encInt .be 1 v = encInt .le 1 v := by
  rw [encInt_be, encInt_le]; rfl

theorem writeU8_eq (bo : ByteOrder) (v : Int) : writeU8 v = encInt bo 1 v := by
  unfold writeU8
  rw [writeI_toU]
  cases bo
  · rfl
  · rw [encInt_one]

theorem writeI8_eq (bo : ByteOrder) (v : Int) : writeI8 v = encInt bo 1 v := by
  unfold writeI8
  rw [writeI_toS]
  cases bo
  · rfl
  · rw [encInt_one]

theorem writeU16_eq (bo : ByteOrder) (v : Int) : writeU16 bo v = encInt bo 2 v := by
  cases bo
  · exact writeI_toU 2 v
  · exact writeI_swapU 2 v

theorem writeI16_eq (bo : ByteOrder) (v : Int) : writeI16 bo v = encInt bo 2 v := by
  cases bo
  · exact writeI_toS 2 v
  · exact writeI_swapS 2 v

theorem writeU32_eq (bo : ByteOrder) (v : Int) : writeU32 bo v = encInt bo 4 v := by
  cases bo
  · exact writeI_toU 4 v
  · exact writeI_swapU 4 v

theorem writeI32_eq (bo : ByteOrder) (v : Int) : writeI32 bo v = encInt bo 4 v := by
  cases bo
  · exact writeI_toS 4 v
  · exact writeI_swapS 4 v

theorem writeU64_eq (bo : ByteOrder) (v : Int) : writeU64 bo v = encInt bo 8 v := by
  cases bo
  · exact writeI_toU 8 v
  · exact writeI_swapU 8 v

theorem writeI64_eq (bo : ByteOrder) (v : Int) : writeI64 bo v = encInt bo 8 v := by
  cases bo
  · exact writeI_toS 8 v
  · exact writeI_swapS 8 v

theorem split3 (v : Int) : leBytes 2 (toU 2 v) ++ leBytes 1 (toU 1 (v / 65536)) = leBytes 3 (toU 3 v) := by
  apply leVal_inj
  · simp
  rw [leVal_append, leVal_leBytes, leVal_leBytes, leVal_leBytes]
  have h2 := toU_cast 2 v
  have h1 := toU_cast 1 (v / 65536)
  have h3 := toU_cast 3 v
  simp only [leBytes_length, show (256 ^ 2 : Nat) = 65536 from rfl,
    show (256 ^ 3 : Nat) = 16777216 from rfl, show (256 ^ 1 : Nat) = 256 from rfl] at *
  omega

theorem swap3 (u : Nat) : leBytes 2 (toU 2 (swapU 4 u >>> 8 : Nat)) ++
    leBytes 1 (toU 1 ((swapU 4 u >>> 8 >>> 16 : Nat) : Int)) = (leBytes 3 u).reverse := by
  apply leVal_inj
  · simp
  rw [leVal_append, leVal_leBytes, leVal_leBytes, toU_natCast, toU_natCast]
  simp only [swapU, leBytes, List.reverse_cons, List.reverse_nil, List.nil_append,
    List.cons_append, leVal, BitVec.toNat_ofNat, List.length_cons, List.length_nil,
    Nat.shiftRight_eq_div_pow]
  have h1 := Nat.mod_lt u (y := 2 ^ 8) (by decide)
  have h2 := Nat.mod_lt (u / 256) (y := 2 ^ 8) (by decide)
  have h3 := Nat.mod_lt (u / 256 / 256) (y := 2 ^ 8) (by decide)
  have h4 := Nat.mod_lt (u / 256 / 256 / 256) (y := 2 ^ 8) (by decide)
  generalize u % 2 ^ 8 = a at *
  generalize u / 256 % 2 ^ 8 = b at *
  generalize u / 256 / 256 % 2 ^ 8 = c at *
  generalize u / 256 / 256 / 256 % 2 ^ 8 = d at *
  omega

theorem writeU24_eq (bo : ByteOrder) (v : Int) : writeU24 bo v = encInt bo 3 v := by
  have hm : ∀ w : Nat, leBytes 3 (toU 4 v) = leBytes 3 (toU 3 v) := by
    intro _
    rw [← leBytes_mod 3 (toU 4 v)]
    congr 1
    have h4 := toU_cast 4 v
    have h3 := toU_cast 3 v
    simp only [show (256 ^ 4 : Nat) = 4294967296 from rfl,
      show (256 ^ 3 : Nat) = 16777216 from rfl] at *
    omega
  cases bo
  · simp only [writeU24, writeI]
    rw [encInt_le]
    have := split3 (toU 4 v : Nat)
    rw [toU_natCast 3, leBytes_mod, hm 0] at this
    rw [← this, Nat.shiftRight_eq_div_pow]
    rfl
  · simp only [writeU24, writeI]
    rw [encInt_be, swap3, hm 0]

theorem writeI24_eq (bo : ByteOrder) (v : Int) : writeI24 bo v = encInt bo 3 v := by
  have h3 : toU 3 (toS 4 (toU 4 v)) = toU 3 v := by
    have h1 := toU_cast 3 (toS 4 (toU 4 v))
    have h2 := toU_cast 3 v
    have h4 := toU_cast 4 v
    have h5 := toU_cast 4 (toS 4 (toU 4 v))
    rw [toU_toS] at h5
    have h6 := toU_lt 4 v
    simp only [show (256 ^ 4 : Nat) = 4294967296 from rfl,
      show (256 ^ 3 : Nat) = 16777216 from rfl] at *
    omega
  cases bo
  · simp only [writeI24, writeI]
    rw [encInt_le]
    have := split3 (toS 4 (toU 4 v))
    rw [h3] at this
    rw [← this, Int.shiftRight_eq_div_pow]
    rfl
  · simp only [writeI24, writeI]
    rw [encInt_be, swap3, ← h3, ← leBytes_mod 3 (toU 4 _)]
    congr 2
    have h4 := toU_cast 4 (toS 4 (toU 4 v))
    have h5 := toU_cast 3 (toS 4 (toU 4 v))
    simp only [show (256 ^ 4 : Nat) = 4294967296 from rfl,
      show (256 ^ 3 : Nat) = 16777216 from rfl] at *
    omega

/-! ## Reading back what was written -/

theorem rdNat_encInt (bo : ByteOrder) (n : Nat) (v : Int) (rest : Bytes) :
    rdNat bo n (encInt bo n v ++ rest) = .ok (toU n v, rest) := by
  unfold rdNat
  rw [if_pos (by simp), List.take_left' (by simp), List.drop_left' (by simp), decNat_encInt]

theorem rdInt_encInt (bo : ByteOrder) (n : Nat) (v : Int) (rest : Bytes) :
    rdInt bo n (encInt bo n v ++ rest) = .ok (toS n (toU n v), rest) := by
  unfold rdInt
  rw [if_pos (by simp), List.take_left' (by simp), List.drop_left' (by simp), decInt_encInt]

theorem kind_write_eq (bo : ByteOrder) (k : IntKind) (v : Int) :
    k.write bo v = encInt bo k.size v := by
  cases k <;> simp only [IntKind.write, IntKind.size, writeU8_eq bo, writeI8_eq bo, writeU16_eq,
    writeI16_eq, writeU24_eq, writeI24_eq, writeU32_eq, writeI32_eq, writeU64_eq, writeI64_eq]

theorem kind_read_eq (bo : ByteOrder) (k : IntKind) :
    k.read bo = if k.signed then rdInt bo k.size else asInt (rdNat bo k.size) := by
  cases k <;> simp only [IntKind.read, IntKind.size, IntKind.signed, readU8_eq bo, readI8_eq bo,
    readU16_eq, readI16_eq, readU24_eq, readI24_eq, readU32_eq, readI32_eq, readU64_eq,
    readI64_eq] <;> rfl

end Sedaman
