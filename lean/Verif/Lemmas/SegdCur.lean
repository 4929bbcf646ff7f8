import Verif.Model.SegdCur
import Verif.Model.SegdGen
import Verif.Props.Bcd
import Verif.Lemmas.RawIO

/-!
# Lemmas about the output cursor and packed decimal fields
-/

namespace Sedaman

open Spec

theorem wr_bind {α β : Type} (x : Wr α) (f : α → Wr β) (s : Cur) :
    (x >>= f) s = (x s >>= fun p => f p.1 p.2) := rfl

theorem wr_pure {α : Type} (a : α) (s : Cur) : (pure a : Wr α) s = .ok (a, s) := rfl

/-- Two nibbles per byte. -/
def pack : List Nat → Bytes
  | a :: b :: r => BitVec.ofNat 8 (a * 16 + b) :: pack r
  | _ => []

/-- `v` as `2 * m` decimal digits in `m` bytes. -/
def bcdBytes (m v : Nat) : Bytes := pack (decDigits (2 * m) v)

theorem nibbles_pack (m : Nat) (ds : List Nat) (h : ∀ d ∈ ds, d < 16) (hl : ds.length = 2 * m) :
    nibbles (pack ds) = ds := by
  induction m generalizing ds with
  | zero => have : ds = [] := List.length_eq_zero_iff.mp hl; subst this; rfl
  | succ m ih =>
    match ds, hl with
    | a :: b :: r, hl =>
      have ha := h a (by simp)
      have hb := h b (by simp)
      simp only [pack, nibbles, BitVec.toNat_ofNat]
      rw [ih r (fun d hd => h d (by simp [hd])) (by simp at hl; omega)]
      have e1 : (a * 16 + b) % 2 ^ 8 / 16 = a := by omega
      have e2 : (a * 16 + b) % 2 ^ 8 % 16 = b := by omega
      rw [e1, e2]

theorem pack_length (m : Nat) (ds : List Nat) (hl : ds.length = 2 * m) : (pack ds).length = m := by
  induction m generalizing ds with
  | zero => have : ds = [] := List.length_eq_zero_iff.mp hl; subst this; rfl
  | succ m ih =>
    match ds, hl with
    | a :: b :: r, hl => simp only [pack, List.length_cons]; rw [ih r (by simp at hl; omega)]

@[simp] theorem bcdBytes_length (m v : Nat) : (bcdBytes m v).length = m :=
  pack_length m _ (decDigits_length _ _)

theorem nibbles_bcdBytes (m v : Nat) : nibbles (bcdBytes m v) = decDigits (2 * m) v :=
  nibbles_pack m _ (fun _ hd => Nat.lt_trans (decDigits_lt hd) (by decide)) (decDigits_length _ _)

theorem nibbles_replicate (n : Nat) : nibbles (List.replicate n 0) = List.replicate (2 * n) 0 := by
  induction n with
  | zero => rfl
  | succ n ih => rw [List.replicate_succ, nibbles, ih, Nat.mul_succ]; rfl

theorem nat_of_range {v : Int} {w : Nat} (h0 : 0 ≤ v) (h : v < (256 ^ w : Nat)) :
    ∃ n : Nat, v = (n : Int) ∧ n < 256 ^ w := ⟨v.toNat, by omega, by omega⟩

/-- A byte-aligned number. -/
theorem wrBcd_even {w v m n num : Nat} (d : Bytes) (hw : w ≤ 8) (hv : v < 256 ^ w)
    (hnum : num = 2 * m) (hm : 1 ≤ m) (hn : m ≤ n) :
    wrBcd w (v : Int) false num ⟨d, List.replicate n 0⟩
      = .ok ((), ⟨d ++ bcdBytes m v, List.replicate (n - m) 0⟩) := by
  subst hnum
  obtain ⟨r, e, hr⟩ := Props.C02_toBcd_layout w v (2 * m) false (List.replicate n 0) hw hv
    (by omega) (by simp; omega) (by simp)
  have hr' : r = bcdBytes m v ++ List.replicate (n - m) 0 := by
    apply nibbles_inj
    rw [hr, nibbles_append, nibbles_bcdBytes, nibbles_replicate, nibbles_replicate]
    have h1 : (2 * m + false.toNat) % 2 = 0 := by simp
    have h2 : (2 * m + false.toNat + 1) / 2 * 2 = 2 * m := by simp; omega
    have h3 : 2 * n - 2 * m = 2 * (n - m) := by omega
    rw [h1, h2]
    simp [List.drop_replicate, h3]
  unfold wrBcd
  simp only [e, ok_bind, pure_eq_ok]
  have h1 : (2 * m + false.toNat) / 2 = m := by simp
  rw [h1, hr', List.take_left' (bcdBytes_length m v), List.drop_left' (bcdBytes_length m v)]

/-- One digit in the high nibble of the next byte. -/
theorem wrBcd_one {w v n : Nat} (d : Bytes) (b : Byte) (hw : w ≤ 8) (hv : v < 256 ^ w) :
    wrBcd w (v : Int) false 1 ⟨d, b :: List.replicate n 0⟩
      = .ok ((), ⟨d, BitVec.ofNat 8 (v % 10 * 16) :: List.replicate n 0⟩) := by
  obtain ⟨r, e, hr⟩ := Props.C02_toBcd_layout w v 1 false (b :: List.replicate n 0) hw hv
    (by omega) (by simp; omega) (by simp)
  have hr' : r = BitVec.ofNat 8 (v % 10 * 16) :: List.replicate n 0 := by
    apply nibbles_inj
    rw [hr]
    have h1 : v % 10 * 16 % 2 ^ 8 / 16 = v % 10 := by omega
    have h2 : v % 10 * 16 % 2 ^ 8 % 16 = 0 := by omega
    simp only [nibbles, BitVec.toNat_ofNat, h1, h2]
    simp [decDigits]
  unfold wrBcd
  simp only [e, ok_bind, pure_eq_ok]
  simp [hr']

/-- One digit in the low nibble of the next byte. -/
theorem wrBcd_skip1 {w v n : Nat} (d : Bytes) (b : Byte) (hw : w ≤ 8) (hv : v < 256 ^ w)
    (hb : b.toNat % 16 = 0) :
    wrBcd w (v : Int) true 1 ⟨d, b :: List.replicate n 0⟩
      = .ok ((), ⟨d ++ [BitVec.ofNat 8 (b.toNat + v % 10)], List.replicate n 0⟩) := by
  obtain ⟨r, e, hr⟩ := Props.C02_toBcd_layout w v 1 true (b :: List.replicate n 0) hw hv
    (by omega) (by simp) (by simpa using hb)
  have hr' : r = BitVec.ofNat 8 (b.toNat + v % 10) :: List.replicate n 0 := by
    apply nibbles_inj
    rw [hr]
    have hbl := b.isLt
    have h1 : (b.toNat + v % 10) % 2 ^ 8 / 16 = b.toNat / 16 := by omega
    have h2 : (b.toNat + v % 10) % 2 ^ 8 % 16 = v % 10 := by omega
    simp only [nibbles, BitVec.toNat_ofNat, h1, h2]
    simp [decDigits]
  unfold wrBcd
  simp only [e, ok_bind, pure_eq_ok]
  simp [hr']

/-- Three digits behind a nibble already stored. -/
theorem wrBcd_skip3 {w v n : Nat} (d : Bytes) (b : Byte) (hw : w ≤ 8) (hv : v < 256 ^ w)
    (hb : b.toNat % 16 = 0) :
    wrBcd w (v : Int) true 3 ⟨d, b :: List.replicate (n + 1) 0⟩
      = .ok ((), ⟨d ++ [BitVec.ofNat 8 (b.toNat + v / 100 % 10),
          BitVec.ofNat 8 (v / 10 % 10 * 16 + v % 10)], List.replicate n 0⟩) := by
  obtain ⟨r, e, hr⟩ := Props.C02_toBcd_layout w v 3 true (b :: List.replicate (n + 1) 0) hw hv
    (by omega) (by simp; omega) (by simpa using hb)
  have hr' : r = [BitVec.ofNat 8 (b.toNat + v / 100 % 10),
          BitVec.ofNat 8 (v / 10 % 10 * 16 + v % 10)] ++ List.replicate n 0 := by
    apply nibbles_inj
    rw [hr]
    have hbl := b.isLt
    have h1 : (b.toNat + v / 100 % 10) % 2 ^ 8 / 16 = b.toNat / 16 := by omega
    have h2 : (b.toNat + v / 100 % 10) % 2 ^ 8 % 16 = v / 100 % 10 := by omega
    have h3 : (v / 10 % 10 * 16 + v % 10) % 2 ^ 8 / 16 = v / 10 % 10 := by omega
    have h4 : (v / 10 % 10 * 16 + v % 10) % 2 ^ 8 % 16 = v % 10 := by omega
    simp only [List.cons_append, List.nil_append, nibbles, BitVec.toNat_ofNat, h1, h2, h3, h4,
      List.replicate_succ]
    have h5 : v / 10 / 10 = v / 100 := by rw [Nat.div_div_eq_div_mul]
    simp [decDigits, h5]
  unfold wrBcd
  simp only [e, ok_bind, pure_eq_ok]
  simp [hr']

theorem wrPut_ok {bs : Bytes} {n : Nat} (d : Bytes) (h : bs.length ≤ n) :
    wrPut bs ⟨d, List.replicate n 0⟩ = .ok ((), ⟨d ++ bs, List.replicate (n - bs.length) 0⟩) := by
  unfold wrPut
  rw [if_pos (by simpa using h)]
  simp [List.drop_replicate]

theorem wrSkip_ok {k n : Nat} (d : Bytes) (h : k ≤ n) :
    wrSkip k ⟨d, List.replicate n 0⟩
      = .ok ((), ⟨d ++ List.replicate k 0, List.replicate (n - k) 0⟩) := by
  unfold wrSkip
  rw [if_pos (by simpa using h)]
  simp [List.drop_replicate, List.take_replicate, Nat.min_eq_left h]

/-! ## Reading -/

theorem rdBcd_even {m v num : Nat} (r : Bytes) (hm : 1 ≤ m) (hnum : num = 2 * m) :
    rdBcd false num (bcdBytes m v ++ r) = .ok (((v % 10 ^ num : Nat) : Int), r) := by
  subst hnum
  unfold rdBcd
  rw [rd_bind, Props.C03_fromBcd_value false (2 * m) _ (by omega) (by simp), ok_bind, rd_pure]
  have h1 : (2 * m + false.toNat) / 2 = m := by simp
  rw [h1, nibbles_append, nibbles_bcdBytes, Bool.toNat_false, List.drop_zero,
    List.take_left' (decDigits_length _ _), decVal_decDigits, List.drop_left' (bcdBytes_length m v)]

theorem rdBcd_one (b : Byte) (r : Bytes) :
    rdBcd false 1 (b :: r) = .ok (((b.toNat / 16 : Nat) : Int), b :: r) := by
  unfold rdBcd
  rw [rd_bind, Props.C03_fromBcd_value false 1 _ (by omega) (by simp; omega), ok_bind, rd_pure]
  simp [nibbles, decVal]

theorem rdBcd_skip1 (b : Byte) (r : Bytes) :
    rdBcd true 1 (b :: r) = .ok (((b.toNat % 16 : Nat) : Int), r) := by
  unfold rdBcd
  rw [rd_bind, Props.C03_fromBcd_value true 1 _ (by omega) (by simp), ok_bind, rd_pure]
  simp [nibbles, decVal]

theorem rdBcd_skip3 (b c : Byte) (r : Bytes) :
    rdBcd true 3 (b :: c :: r)
      = .ok (((b.toNat % 16 * 100 + c.toNat / 16 * 10 + c.toNat % 16 : Nat) : Int), r) := by
  unfold rdBcd
  rw [rd_bind, Props.C03_fromBcd_value true 3 _ (by omega) (by simp; omega), ok_bind, rd_pure]
  simp [nibbles, decVal]
  omega

theorem rdBcd_two (b : Byte) (r : Bytes) :
    rdBcd false 2 (b :: r) = .ok (((b.toNat / 16 * 10 + b.toNat % 16 : Nat) : Int), r) := by
  unfold rdBcd
  rw [rd_bind, Props.C03_fromBcd_value false 2 _ (by omega) (by simp), ok_bind, rd_pure]
  simp [nibbles, decVal]

theorem rdBcd_four (b c : Byte) (r : Bytes) :
    rdBcd false 4 (b :: c :: r) = .ok (((b.toNat / 16 * 1000 + b.toNat % 16 * 100
      + c.toNat / 16 * 10 + c.toNat % 16 : Nat) : Int), r) := by
  unfold rdBcd
  rw [rd_bind, Props.C03_fromBcd_value false 4 _ (by omega) (by simp; omega), ok_bind, rd_pure]
  simp [nibbles, decVal]
  omega

theorem rdSkip_ok (a r : Bytes) (n : Nat) (h : a.length = n) : rdSkip n (a ++ r) = .ok ((), r) := by
  unfold rdSkip
  rw [rd_bind]
  unfold rdBytes
  rw [if_pos (by simp; omega), ok_bind, rd_pure, List.drop_left' h]

theorem readU8_cons (b : Byte) (r : Bytes) : readU8 (b :: r) = .ok (b.toNat, r) := by
  simp [readU8, readU, rd_bind, rdBytes, rd_pure, leVal]

end Sedaman
