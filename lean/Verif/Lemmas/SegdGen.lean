import Verif.Lemmas.SegdCur
import Verif.Spec.SegdGen
import Verif.Lemmas.SegdFloat

/-!
# Lemmas about SEG-D general header 1
-/

namespace Sedaman

open Spec

theorem wrBcd_even4 {m n num : Nat} {v : Int} (d : Bytes) (h : 0 ≤ v ∧ v < 2 ^ 31)
    (hnum : num = 2 * m) (hm : 1 ≤ m) (hn : m ≤ n) :
    wrBcd 4 v false num ⟨d, List.replicate n 0⟩
      = .ok ((), ⟨d ++ bcdBytes m v.toNat, List.replicate (n - m) 0⟩) := by
  obtain ⟨k, rfl⟩ := Int.eq_ofNat_of_zero_le h.1
  exact wrBcd_even d (by decide) (by omega) hnum hm hn

theorem wrBcd_even8 {m n num : Nat} {v : Int} (d : Bytes) (h : 0 ≤ v ∧ v < 2 ^ 63)
    (hnum : num = 2 * m) (hm : 1 ≤ m) (hn : m ≤ n) :
    wrBcd 8 v false num ⟨d, List.replicate n 0⟩
      = .ok ((), ⟨d ++ bcdBytes m v.toNat, List.replicate (n - m) 0⟩) := by
  obtain ⟨k, rfl⟩ := Int.eq_ofNat_of_zero_le h.1
  exact wrBcd_even d (by decide) (by omega) hnum hm hn

/-- Bytes of a number that may be escaped. -/
def escBytes (v limit : Int) (m : Nat) : Bytes :=
  if v > limit then List.replicate m 0xff else bcdBytes m v.toNat

@[simp] theorem escBytes_length (v limit : Int) (m : Nat) : (escBytes v limit m).length = m := by
  unfold escBytes; split <;> simp

theorem wrBcdOr_ok {m n num : Nat} {v limit : Int} {esc : Bytes} (d : Bytes)
    (h : 0 ≤ v ∧ v < 2 ^ 31) (hesc : esc = List.replicate m 0xff)
    (hnum : num = 2 * m) (hm : 1 ≤ m) (hn : m ≤ n) :
    wrBcdOr 4 v limit num esc ⟨d, List.replicate n 0⟩
      = .ok ((), ⟨d ++ escBytes v limit m, List.replicate (n - m) 0⟩) := by
  unfold wrBcdOr escBytes
  split
  · rw [wrPut_ok _ (by rw [hesc]; simpa using hn), hesc]; simp
  · exact wrBcd_even4 d h hnum hm hn

theorem chr_toNat {k : Nat} (h : k < 256) : (chr (k : Int)).toNat = k := by
  unfold chr
  rw [BitVec.toNat_ofInt]
  omega

theorem chr_nib (a : Int) : (chr (a * 16)).toNat = (a % 16).toNat * 16 := by
  unfold chr
  rw [BitVec.toNat_ofInt]
  omega

/-- Number of additional blocks and day. -/
theorem wrAddDay {n : Nat} {a day : Int} (d : Bytes) (h : 0 ≤ day ∧ day < 2 ^ 31) :
    (wrPoke (chr (a * 16)) ⟨d, List.replicate (n + 2) 0⟩ >>= fun p => wrBcd 4 day true 3 p.2)
      = .ok ((), ⟨d ++ [BitVec.ofNat 8 ((a % 16).toNat * 16 + day.toNat / 100 % 10),
          BitVec.ofNat 8 (day.toNat / 10 % 10 * 16 + day.toNat % 10)], List.replicate n 0⟩) := by
  obtain ⟨k, rfl⟩ := Int.eq_ofNat_of_zero_le h.1
  show wrBcd 4 (k : Int) true 3 ⟨d, chr (a * 16) :: List.replicate (n + 1) 0⟩ = _
  rw [wrBcd_skip3 (w := 4) d _ (by decide) (by omega) (by rw [chr_nib]; omega), chr_nib]
  rfl

theorem dblToS_sixteenth : ∀ k < 128, dblToS 1 (dmul (dyadic k 4) (pow2 4)) = .ok (k : Int) := by
  decide +kernel

theorem sixteenth_read : ∀ k < 256, ddivPow2 (dblOfInt ((k : Nat) : Int)) 4 = dyadic k 4 := by
  decide +kernel

theorem scans_read : ∀ e < 16, dblToS 8 (dmul (dblOfInt ((1 : Nat) : Int)) (pow2 ((e : Nat) : Int)))
    = .ok (2 ^ e : Int) := by decide +kernel

theorem wrDblChar_ok {x : Dbl} {k n : Nat} (d : Bytes) (h : dblToS 1 x = .ok (k : Int)) (hk : k < 256) :
    wrDblChar x ⟨d, List.replicate (n + 1) 0⟩
      = .ok ((), ⟨d ++ [BitVec.ofNat 8 k], List.replicate n 0⟩) := by
  unfold wrDblChar
  rw [h, ok_bind, wrPut_ok _ (by simp)]
  have : chr (k : Int) = BitVec.ofNat 8 k := by
    apply BitVec.eq_of_toNat_eq; rw [chr_toNat hk, BitVec.toNat_ofNat]; omega
  rw [this]; rfl

theorem scans_quot {v : Nat} (h1 : 1 ≤ v) (h2 : v < 2 ^ 16) :
    dblToS 1 (ddivPow2 (dblOfInt (v : Int)) ((v.log2 : Nat) : Int)) = .ok ((1 : Nat) : Int) := by
  have hb := log2_bounds (m := v) (by omega)
  have hl : v.log2 < 16 := (Nat.log2_lt (by omega)).mpr h2
  unfold ddivPow2
  have hv := dmul_exact (hasVal_ofNat (m := v) (by omega))
    (hasVal_pow2 (k := -((v.log2 : Nat) : Int)) (by omega) (by omega)) (by omega) (by omega) (by omega)
  have hp : (0 : ℚ) < 2 ^ v.log2 := by positivity
  unfold dblToS
  refine dblToInt_nonneg hv ?_ ?_ (by decide) (by decide)
  · rw [zero_add, zpow_neg, zpow_natCast, ← div_eq_mul_inv, le_div_iff₀ hp]
    have := hb.1
    push_cast
    rw [one_mul, mul_one]
    exact_mod_cast this
  · rw [zero_add, zpow_neg, zpow_natCast, ← div_eq_mul_inv, div_lt_iff₀ hp]
    have := hb.2
    rw [Nat.pow_succ] at this
    push_cast
    rw [mul_one]
    have h3 : ((v : Nat) : ℚ) < ((2 ^ v.log2 * 2 : Nat) : ℚ) := by exact_mod_cast this
    push_cast at h3
    linarith

theorem wrScans_ok {lg : Int → Dbl} {h : GenHdr1} {n : Nat} (d : Bytes) (hlg : LogOk lg)
    (hp : 0 ≤ h.polarity ∧ h.polarity < 2 ^ 31) (h1 : 1 ≤ h.scansPerBlock)
    (h2 : h.scansPerBlock < 2 ^ 16) :
    wrScans lg h ⟨d, List.replicate (n + 2) 0⟩
      = .ok ((), ⟨d ++ [BitVec.ofNat 8 (h.polarity.toNat % 10 * 16 + h.scansPerBlock.toNat.log2), 1],
          List.replicate n 0⟩) := by
  obtain ⟨v, hv⟩ := Int.eq_ofNat_of_zero_le (a := h.scansPerBlock) (by omega)
  obtain ⟨p, hpe⟩ := Int.eq_ofNat_of_zero_le hp.1
  rw [hv] at h1 h2
  have h1' : 1 ≤ v := by omega
  have h2' : v < 2 ^ 16 := by omega
  have hl : v.log2 < 16 := (Nat.log2_lt (by omega)).mpr h2'
  unfold wrScans
  rw [hv, hpe]
  rw [wr_bind, List.replicate_succ, wrBcd_one d 0 (by decide) (by omega), ok_bind, wr_bind]
  simp only [Int.ofNat_eq_natCast]
  rw [hlg v h1' h2']
  simp only [ok_bind, pure_eq_ok, Int.toNat_natCast]
  rw [Nat.mod_eq_of_lt hl, wr_bind]
  unfold wrOr
  simp only [ok_bind]
  rw [wrDblChar_ok (k := 1) _ (scans_quot h1' h2') (by decide)]
  have e : BitVec.ofNat 8 (p % 10 * 16) ||| BitVec.ofNat 8 v.log2
      = BitVec.ofNat 8 (p % 10 * 16 + v.log2) := by
    apply BitVec.eq_of_toNat_eq
    rw [BitVec.toNat_or, BitVec.toNat_ofNat, BitVec.toNat_ofNat, BitVec.toNat_ofNat,
      Nat.mod_eq_of_lt (show p % 10 * 16 < 2 ^ 8 by omega),
      Nat.mod_eq_of_lt (show v.log2 < 2 ^ 8 by omega), or_nibs (by omega)]
    omega
  rw [e]
  simp

/-- The two bytes for record type and record length. -/
def recBytes (h : GenHdr1) (ext : Nat) : Bytes :=
  if h.addGenHdrBlocks ≠ 0 ∧ ext ≠ 0 then
    [BitVec.ofNat 8 ((h.recordType % 16).toNat * 16 + 15), 0xff]
  else [BitVec.ofNat 8 (h.recordType.toNat % 10 * 16 + h.recordLength.toNat / 100 % 10),
          BitVec.ofNat 8 (h.recordLength.toNat / 10 % 10 * 16 + h.recordLength.toNat % 10)]

theorem rec_esc {r : Nat} (hr : r < 2 ^ 31) :
    writeU16 .be ((0x0fff ||| (r <<< 12 % 2 ^ 32) : Nat) : Int)
      = [BitVec.ofNat 8 (r % 16 * 16 + 15), 0xff] := by
  rw [writeU16_eq, encInt_be]
  have h1 : r <<< 12 % 2 ^ 32 = 2 ^ 12 * (r % 2 ^ 20) := by
    rw [Nat.shiftLeft_eq]; omega
  have h2 : 0x0fff ||| (r <<< 12 % 2 ^ 32) = 2 ^ 12 * (r % 2 ^ 20) + 0x0fff := by
    rw [h1, Nat.or_comm, ← Nat.two_pow_add_eq_or_of_lt (i := 12) (b := 0x0fff) (by decide)]
  rw [h2]
  have h3 : toU 2 ((2 ^ 12 * (r % 2 ^ 20) + 0x0fff : Nat) : Int) = 4096 * (r % 16) + 4095 := by
    unfold toU; omega
  rw [h3]
  simp only [leBytes, List.reverse_cons, List.reverse_nil, List.nil_append, List.cons_append]
  have a1 : BitVec.ofNat 8 (4096 * (r % 16) + 4095) = 0xff := by
    apply BitVec.eq_of_toNat_eq
    rw [BitVec.toNat_ofNat]
    have : (0xff : Byte).toNat = 255 := rfl
    rw [this]
    omega
  have a2 : (4096 * (r % 16) + 4095) / 256 = r % 16 * 16 + 15 := by omega
  rw [a1, a2]

theorem wrRecord_ok {h : GenHdr1} {ext n : Nat} (d : Bytes)
    (h1 : 0 ≤ h.recordType ∧ h.recordType < 2 ^ 31)
    (h2 : 0 ≤ h.recordLength ∧ h.recordLength < 2 ^ 31) :
    wrRecord h ext ⟨d, List.replicate (n + 2) 0⟩
      = .ok ((), ⟨d ++ recBytes h ext, List.replicate n 0⟩) := by
  obtain ⟨t, ht⟩ := Int.eq_ofNat_of_zero_le h1.1
  obtain ⟨l, hl⟩ := Int.eq_ofNat_of_zero_le h2.1
  unfold wrRecord recBytes
  rw [ht, hl]
  split
  · have e : toU 4 (t : Int) = t := by
      rw [ht] at h1
      exact toU_of_nat_lt (by have := h1.2; omega)
    rw [e, rec_esc (by omega), wrPut_ok _ (by simp)]
    have : ((t : Int) % 16).toNat = t % 16 := by omega
    rw [this]
    simp
  · simp only [Int.toNat_natCast]
    rw [wr_bind, List.replicate_succ, wrBcd_one d 0 (by decide) (by omega), ok_bind,
      wrBcd_skip3 (w := 4) d _ (by decide) (by omega) (by rw [BitVec.toNat_ofNat]; omega)]
    have : (BitVec.ofNat 8 (t % 10 * 16)).toNat = t % 10 * 16 := by rw [BitVec.toNat_ofNat]; omega
    rw [this]

/-- The whole block. -/
def genHdr1Bytes (h : GenHdr1) (ext base : Nat) : Bytes :=
  escBytes h.fileNumber 9999 2 ++ (bcdBytes 2 h.formatCode.toNat ++ (bcdBytes 6 h.genConst.toNat ++
  (bcdBytes 1 h.year.toNat ++
  ([BitVec.ofNat 8 ((h.addGenHdrBlocks % 16).toNat * 16 + h.day.toNat / 100 % 10),
          BitVec.ofNat 8 (h.day.toNat / 10 % 10 * 16 + h.day.toNat % 10)] ++
  (bcdBytes 1 h.hour.toNat ++ (bcdBytes 1 h.minute.toNat ++ (bcdBytes 1 h.second.toNat ++
  (bcdBytes 1 h.manufacCode.toNat ++ (bcdBytes 2 h.manufacNum.toNat ++
  (bcdBytes 3 h.bytesPerScan.toNat ++ ([BitVec.ofNat 8 base] ++
  ([BitVec.ofNat 8 (h.polarity.toNat % 10 * 16 + h.scansPerBlock.toNat.log2), 1] ++
  (recBytes h ext ++ (escBytes h.scanTypesPerRecord 99 1 ++
  (bcdBytes 1 h.channelSetsPerScanType.toNat ++ (bcdBytes 1 h.skewBlocks.toNat ++
  (escBytes h.extendedHdrBlocks 99 1 ++ escBytes h.externalHdrBlocks 99 1)))))))))))))))))

theorem writeGenHdr1_eq {lg : Int → Dbl} {h : GenHdr1} {ext base : Nat} (hlg : LogOk lg)
    (ht : GenHdr1Typed h) (hb : h.baseScanInt = dyadic base 4) (hbase : base < 128)
    (h1 : 1 ≤ h.scansPerBlock) (h2 : h.scansPerBlock < 2 ^ 16) :
    writeGenHdr1 lg h ext = .ok (genHdr1Bytes h ext base) := by
  unfold writeGenHdr1 wrBlock wrGenHdr1
  rw [wr_bind, wrBcdOr_ok (m := 2) _ ht.fileNumber (by decide +kernel) rfl (by decide) (by decide), ok_bind]
  rw [wr_bind, wrBcd_even4 (m := 2) _ ht.formatCode rfl (by decide) (by decide), ok_bind]
  rw [wr_bind, wrBcd_even8 (m := 6) _ ht.genConst rfl (by decide) (by decide), ok_bind]
  rw [wr_bind, wrBcd_even4 (m := 1) _ ht.year rfl (by decide) (by decide), ok_bind]
  rw [wr_bind]
  simp only [wr_bind]
  rw [← bind_assoc, wrAddDay (n := 19) _ ht.day, ok_bind]
  rw [wrBcd_even4 (m := 1) _ ht.hour rfl (by decide) (by decide), ok_bind]
  rw [wrBcd_even4 (m := 1) _ ht.minute rfl (by decide) (by decide), ok_bind]
  rw [wrBcd_even4 (m := 1) _ ht.second rfl (by decide) (by decide), ok_bind]
  rw [wrBcd_even4 (m := 1) _ ht.manufacCode rfl (by decide) (by decide), ok_bind]
  rw [wrBcd_even4 (m := 2) _ ht.manufacNum rfl (by decide) (by decide), ok_bind]
  rw [wrBcd_even8 (m := 3) _ ht.bytesPerScan rfl (by decide) (by decide), ok_bind]
  rw [hb, wrDblChar_ok (n := 9) _ (dblToS_sixteenth base hbase) (by omega), ok_bind]
  rw [wrScans_ok (n := 7) _ hlg ht.polarity h1 h2, ok_bind]
  rw [wrRecord_ok (n := 5) _ ht.recordType ht.recordLength, ok_bind]
  rw [wrBcdOr_ok (m := 1) _ ht.scanTypesPerRecord (by decide +kernel) rfl (by decide) (by decide), ok_bind]
  rw [wrBcd_even4 (m := 1) _ ht.channelSetsPerScanType rfl (by decide) (by decide), ok_bind]
  rw [wrBcd_even4 (m := 1) _ ht.skewBlocks rfl (by decide) (by decide), ok_bind]
  rw [wrBcdOr_ok (m := 1) _ ht.extendedHdrBlocks (by decide +kernel) rfl (by decide) (by decide), ok_bind]
  rw [wrBcdOr_ok (m := 1) _ ht.externalHdrBlocks (by decide +kernel) rfl (by decide) (by decide), ok_bind]
  simp [genHdr1Bytes]

theorem rdBcd_esc4 {v : Int} (r : Bytes) (h : 0 ≤ v) :
    rdBcd false 4 (escBytes v 9999 2 ++ r) = .ok (if v > 9999 then 16665 else v, r) := by
  unfold escBytes
  split
  · exact rdBcd_four 0xff 0xff r
  · rw [rdBcd_even (m := 2) r (by decide) rfl]
    congr 2
    omega

theorem rdBcd_esc2 {v : Int} (r : Bytes) (h : 0 ≤ v) :
    rdBcd false 2 (escBytes v 99 1 ++ r) = .ok (if v > 99 then 165 else v, r) := by
  unfold escBytes
  split
  · exact rdBcd_two 0xff r
  · rw [rdBcd_even (m := 1) r (by decide) rfl]
    congr 2
    omega

theorem mod_toNat {v : Int} (h : 0 ≤ v) (n : Nat) : ((v.toNat % n : Nat) : Int) = v % n := by
  rw [Int.natCast_emod, Int.toNat_of_nonneg h]

theorem skip3_val {a : Nat} (l : Nat) (ha : a < 16) :
    (a * 16 + l / 100 % 10) % 2 ^ 8 % 16 * 100 + (l / 10 % 10 * 16 + l % 10) % 2 ^ 8 / 16 * 10
      + (l / 10 % 10 * 16 + l % 10) % 2 ^ 8 % 16 = l % 1000 := by
  have e1 : (a * 16 + l / 100 % 10) % 2 ^ 8 % 16 = l / 100 % 10 := by omega
  have e2 : (l / 10 % 10 * 16 + l % 10) % 2 ^ 8 / 16 = l / 10 % 10 := by omega
  have e3 : (l / 10 % 10 * 16 + l % 10) % 2 ^ 8 % 16 = l % 10 := by omega
  rw [e1, e2, e3]
  clear e1 e2 e3
  have h1 : l / 10 / 10 = l / 100 := Nat.div_div_eq_div_mul l 10 10
  have h2 : l / 100 / 10 = l / 1000 := Nat.div_div_eq_div_mul l 100 10
  omega

theorem genHdr1Bytes_length (h : GenHdr1) (ext base : Nat) : (genHdr1Bytes h ext base).length = 32 := by
  have : (recBytes h ext).length = 2 := by unfold recBytes; split <;> rfl
  simp [genHdr1Bytes, this]

theorem rdRec {h : GenHdr1} {ext : Nat} (r : Bytes) (h1 : 0 ≤ h.recordType) (h2 : 0 ≤ h.recordLength) :
    ∃ r', rdBcd false 1 (recBytes h ext ++ r) = .ok ((if h.addGenHdrBlocks ≠ 0 ∧ ext ≠ 0
        then h.recordType % 16 else h.recordType % 10), r') ∧
      rdBcd true 3 r' = .ok ((if h.addGenHdrBlocks ≠ 0 ∧ ext ≠ 0 then 1665
        else h.recordLength % 1000), r) := by
  refine ⟨recBytes h ext ++ r, ?_, ?_⟩
  · unfold recBytes
    split
    · rw [List.cons_append, rdBcd_one, BitVec.toNat_ofNat]
      congr 2
      omega
    · rw [List.cons_append, rdBcd_one, BitVec.toNat_ofNat]
      congr 2
      omega
  · unfold recBytes
    split
    · rw [List.cons_append, List.cons_append, rdBcd_skip3, BitVec.toNat_ofNat]
      congr 2
      have : (0xff : Byte).toNat = 255 := rfl
      rw [this]; omega
    · rw [List.cons_append, List.cons_append, rdBcd_skip3, BitVec.toNat_ofNat, BitVec.toNat_ofNat,
        skip3_val _ (by omega), mod_toNat h2]
      rfl

theorem rdScans_ok {a : Nat} (r : Bytes) (p : Nat) (ha : a < 16) (hp : p < 10) :
    rdScans (BitVec.ofNat 8 (p * 16 + a) :: 1 :: r) = .ok (2 ^ a, r) := by
  unfold rdScans
  rw [rd_bind, readU8_cons, ok_bind, rd_bind, readU8_cons, ok_bind]
  simp only [BitVec.toNat_ofNat]
  have e : (p * 16 + a) % 2 ^ 8 % 16 = a := by omega
  rw [e]
  have := scans_read a ha
  have e1 : (1 : Byte).toNat = 1 := rfl
  rw [e1, this]
  rfl

theorem readGenHdr1_eq {h : GenHdr1} {ext base : Nat} (rest : Bytes)
    (ht : GenHdr1Typed h) (hb : h.baseScanInt = dyadic base 4) (hbase : base < 128)
    (h2 : h.scansPerBlock < 2 ^ 16) :
    readGenHdr1 (genHdr1Bytes h ext base ++ rest) = .ok (genHdr1Stored h ext, rest) := by
  have hlog : h.scansPerBlock.toNat.log2 < 16 := by
    by_cases h0 : h.scansPerBlock.toNat = 0
    · rw [h0]; decide
    · exact (Nat.log2_lt h0).mpr (by omega)
  unfold readGenHdr1 genHdr1Bytes
  simp only [List.append_assoc]
  rw [rd_bind, rdBcd_esc4 _ ht.fileNumber.1, ok_bind]
  rw [rd_bind, rdBcd_even (m := 2) _ (by decide) rfl, ok_bind]
  rw [rd_bind, rdBcd_even (m := 6) _ (by decide) rfl, ok_bind]
  rw [rd_bind, rdBcd_even (m := 1) _ (by decide) rfl, ok_bind]
  rw [rd_bind, List.cons_append, rdBcd_one, ok_bind]
  rw [rd_bind, List.cons_append, rdBcd_skip3, ok_bind, List.nil_append]
  rw [rd_bind, rdBcd_even (m := 1) _ (by decide) rfl, ok_bind]
  rw [rd_bind, rdBcd_even (m := 1) _ (by decide) rfl, ok_bind]
  rw [rd_bind, rdBcd_even (m := 1) _ (by decide) rfl, ok_bind]
  rw [rd_bind, rdBcd_even (m := 1) _ (by decide) rfl, ok_bind]
  rw [rd_bind, rdBcd_even (m := 2) _ (by decide) rfl, ok_bind]
  rw [rd_bind, rdBcd_even (m := 3) _ (by decide) rfl, ok_bind]
  rw [rd_bind, List.cons_append, readU8_cons, ok_bind, List.nil_append]
  rw [rd_bind, List.cons_append, rdBcd_one, ok_bind]
  rw [rd_bind, List.cons_append, rdScans_ok _ _ hlog (by omega), ok_bind, List.nil_append]
  obtain ⟨r', hr1, hr2⟩ := rdRec (ext := ext)
    (escBytes h.scanTypesPerRecord 99 1 ++ (bcdBytes 1 h.channelSetsPerScanType.toNat ++
      (bcdBytes 1 h.skewBlocks.toNat ++ (escBytes h.extendedHdrBlocks 99 1 ++
        (escBytes h.externalHdrBlocks 99 1 ++ rest))))) ht.recordType.1 ht.recordLength.1
  rw [rd_bind, hr1, ok_bind, rd_bind, hr2, ok_bind]
  rw [rd_bind, rdBcd_esc2 _ ht.scanTypesPerRecord.1, ok_bind]
  rw [rd_bind, rdBcd_even (m := 1) _ (by decide) rfl, ok_bind]
  rw [rd_bind, rdBcd_even (m := 1) _ (by decide) rfl, ok_bind]
  rw [rd_bind, rdBcd_esc2 _ ht.extendedHdrBlocks.1, ok_bind]
  rw [rd_bind, rdBcd_esc2 _ ht.externalHdrBlocks.1, ok_bind, rd_pure]
  refine congrArg Except.ok ?_
  refine Prod.ext ?_ rfl
  simp only [genHdr1Stored, BitVec.toNat_ofNat]
  rw [Nat.mod_eq_of_lt (show base < 2 ^ 8 by omega), sixteenth_read base (by omega), ← hb]
  rw [mod_toNat ht.formatCode.1, mod_toNat ht.genConst.1, mod_toNat ht.year.1, mod_toNat ht.hour.1,
    mod_toNat ht.minute.1, mod_toNat ht.second.1, mod_toNat ht.manufacCode.1,
    mod_toNat ht.manufacNum.1, mod_toNat ht.bytesPerScan.1, mod_toNat ht.channelSetsPerScanType.1,
    mod_toNat ht.skewBlocks.1]
  have d0 := ht.day.1
  have a0 := ht.addGenHdrBlocks.1
  have p0 := ht.polarity.1
  rw [skip3_val _ (by omega), mod_toNat d0]
  congr 1
  all_goals omega

end Sedaman
