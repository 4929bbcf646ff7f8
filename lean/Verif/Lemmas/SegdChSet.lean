import Verif.Lemmas.SegdGen2
import Verif.Spec.SegdChSet

/-!
# Lemmas about SEG-D channel set headers
-/

namespace Sedaman

open Spec

theorem dblToU_mono {d : Dbl} {v : Int} (h : dblToU 4 d = .ok v) : dblToU 8 d = .ok v := by
  unfold dblToU dblToInt at *
  split at h
  · rename_i n e
    split at h
    · rename_i hc
      simp only [Except.ok.injEq] at h
      rw [if_pos ⟨hc.1, le_trans hc.2 (by decide)⟩, h]
    · cases h
  · cases h

theorem dyadic_u16 {k : Nat} (hk : k < 2 ^ 16) :
    dblToU 2 (dmul (dyadic k 10) (pow2 10)) = .ok ((k : Nat) : Int) := by
  have hm := dmul_exact (hasVal_toDbl (s := false) (m := k) (e := -10) (by omega)
      (by decide) (by decide)) (hasVal_pow2 (k := 10) (by decide) (by decide)) (by omega) (by decide)
    (by decide)
  refine dblToInt_nonneg hm ?_ ?_ (by omega) ?_
  · norm_num
  · norm_num
  · norm_num
    omega

theorem dblNeg_dyadic {k j : Nat} (hk : k < 2 ^ 53) (hj : j ≤ 1074) : dblNeg (dyadic k j) = false := by
  obtain ⟨m, e, h, _⟩ := hasVal_toDbl (s := false) (m := k) (e := -(j : Int)) hk (by omega) (by omega)
  unfold dblNeg dyadic
  rw [h]
  rfl

theorem wrDescale_ok {k n : Nat} (d : Bytes) (hk : k < 2 ^ 15) (hn : 2 ≤ n) :
    wrDescale (dyadic k 10) ⟨d, List.replicate n 0⟩
      = .ok ((), ⟨d ++ encInt .be 2 k, List.replicate (n - 2) 0⟩) := by
  unfold wrDescale
  rw [wr_bind]
  simp only [dyadic_u16 (show k < 2 ^ 16 by omega), ok_bind, pure_eq_ok]
  rw [dblNeg_dyadic (by omega) (by decide), writeU16_eq, Int.toNat_natCast]
  simp only [Bool.false_eq_true, if_false]
  have : k &&& 0x7fff ||| 0 = k := by
    rw [Nat.or_zero, Nat.and_two_pow_sub_one_eq_mod k 15]
    exact Nat.mod_eq_of_lt hk
  rw [this, wrEnc _ hn]

theorem rdDescale_ok {k : Nat} (r : Bytes) (hk : k < 2 ^ 15) :
    rdDescale (encInt .be 2 k ++ r) = .ok (dyadic k 10, r) := by
  unfold rdDescale
  rw [rd_bind, rdU16_enc, ok_bind, rd_pure, toU_of_nat_lt (n := 2) (by omega)]
  simp only
  rw [if_neg (by omega), Nat.mod_eq_of_lt (show k < 0x8000 by omega)]
  have h1 := hasVal_ofNat (m := 1) (by decide)
  have h2 := hasVal_ofNat (m := k) (by omega)
  have h3 := dmul_exact h1 h2 (by omega) (by decide) (by decide)
  have h4 := dmul_hasVal h3 (hasVal_pow2 (k := -10) (by decide) (by decide))
  have : ddivPow2 (dmul (dblOfInt 1) (dblOfInt (k : Int))) 10 = dyadic k 10 := by
    unfold ddivPow2 dyadic
    rw [show ((1 : Int)) = ((1 : Nat) : Int) from rfl, h4]
    simp
  rw [this]

theorem wrSubscans_ok {lg : Int → Dbl} {h : ChSet} {n : Nat} (d : Bytes) (hlg : LogOk lg)
    (hg : h.channelGain < 2 ^ 8) (h1 : 1 ≤ h.subscansPerChSet) (h2 : h.subscansPerChSet < 2 ^ 16) :
    wrSubscans lg h ⟨d, List.replicate (n + 1) 0⟩
      = .ok ((), ⟨d ++ [BitVec.ofNat 8 (h.subscansPerChSet.toNat.log2 % 10 * 16 + h.channelGain % 10)],
          List.replicate n 0⟩) := by
  obtain ⟨v, hv⟩ := Int.eq_ofNat_of_zero_le (a := h.subscansPerChSet) (by omega)
  rw [hv] at h1 h2
  have hl : v.log2 < 16 := (Nat.log2_lt (by omega)).mpr (by omega)
  unfold wrSubscans
  rw [hv, wr_bind]
  simp only [dblToU_mono (hlg v (by omega) (by omega)), ok_bind, pure_eq_ok, Int.toNat_natCast]
  rw [wr_bind, List.replicate_succ, wrBcd_one d 0 (by decide) (by omega), ok_bind,
    wrBcd_skip1 (w := 1) d _ (by decide) (by omega) (by rw [BitVec.toNat_ofNat]; omega)]
  have : (BitVec.ofNat 8 (v.log2 % 10 * 16)).toNat = v.log2 % 10 * 16 := by
    rw [BitVec.toNat_ofNat]; omega
  rw [this]

theorem pow2_int : ∀ k < 10, dblToS 4 (pow2 ((k : Nat) : Int)) = .ok (2 ^ k : Int) := by decide +kernel

theorem rdBcdN_even {m v num : Nat} (r : Bytes) (hm : 1 ≤ m) (hnum : num = 2 * m) :
    rdBcdN false num (bcdBytes m v ++ r) = .ok (v % 10 ^ num, r) := by
  subst hnum
  unfold rdBcdN
  rw [Props.C03_fromBcd_value false (2 * m) _ (by omega) (by simp)]
  have h1 : (2 * m + false.toNat) / 2 = m := by simp
  rw [h1, nibbles_append, nibbles_bcdBytes, Bool.toNat_false, List.drop_zero,
    List.take_left' (decDigits_length _ _), decVal_decDigits, List.drop_left' (bcdBytes_length m v)]

theorem rdBcdN_one (b : Byte) (r : Bytes) :
    rdBcdN false 1 (b :: r) = .ok (b.toNat / 16, b :: r) := by
  unfold rdBcdN
  rw [Props.C03_fromBcd_value false 1 _ (by omega) (by simp; omega)]
  simp [nibbles, decVal]

theorem rdBcdN_skip1 (b : Byte) (r : Bytes) :
    rdBcdN true 1 (b :: r) = .ok (b.toNat % 16, r) := by
  unfold rdBcdN
  rw [Props.C03_fromBcd_value true 1 _ (by omega) (by simp)]
  simp [nibbles, decVal]

theorem rdSubscans_ok {k : Nat} (b : Byte) (r : Bytes) (hb : b.toNat / 16 = k) (hk : k < 10) :
    rdSubscans (b :: r) = .ok (2 ^ k, b :: r) := by
  unfold rdSubscans
  have := rdBcdN_one b r
  unfold rdBcdN at this
  rw [rd_bind, this, ok_bind, hb]
  show (do pure ((← dblToS 4 (pow2 (k : Int))), b :: r) : Out (Int × Bytes)) = _
  rw [pow2_int k hk]
  rfl

theorem wrFlags_ok {h : ChSet} {n : Nat} (d : Bytes) :
    wrFlags h ⟨d, List.replicate (n + 1) 0⟩
      = .ok ((), ⟨d ++ [BitVec.ofNat 8 (h.extHdrFlag % 16 * 16 + h.trcHdrExt % 16)],
          List.replicate n 0⟩) := by
  unfold wrFlags wrPoke wrOr
  rw [wr_bind, List.replicate_succ]
  simp only [ok_bind]
  have : chr ((h.extHdrFlag * 16 : Nat) : Int) ||| chr ((h.trcHdrExt % 16 : Nat) : Int)
      = BitVec.ofNat 8 (h.extHdrFlag % 16 * 16 + h.trcHdrExt % 16) := by
    apply BitVec.eq_of_toNat_eq
    rw [BitVec.toNat_or, BitVec.toNat_ofNat, chr_toNat (k := h.trcHdrExt % 16) (by omega)]
    have e : (chr ((h.extHdrFlag * 16 : Nat) : Int)).toNat = h.extHdrFlag % 16 * 16 := by
      have := chr_nib (h.extHdrFlag : Int)
      push_cast
      rw [this]
      omega
    rw [e, or_nibs (by omega)]
    omega
  rw [this]

theorem rdFlags_ok (a b : Nat) (r : Bytes) (ha : a < 16) (hb : b < 16) :
    rdFlags (BitVec.ofNat 8 (a * 16 + b) :: r) = .ok ((if a ≥ 8 then a + 240 else a, b), r) := by
  unfold rdFlags
  rw [rd_bind, readU8_cons, ok_bind, rd_pure, BitVec.toNat_ofNat,
    Nat.mod_eq_of_lt (show a * 16 + b < 2 ^ 8 by omega)]
  have e1 : (a * 16 + b) / 16 = a := by omega
  have e2 : (a * 16 + b) % 16 = b := by omega
  rw [e1, e2]
  by_cases h : a ≥ 8
  · rw [if_pos h, if_pos (by omega)]
  · rw [if_neg h, if_neg (by omega)]

/-- The whole block. -/
def chSetBytes (h : ChSet) (k : Nat) : Bytes :=
  bcdBytes 1 h.scanTypeNumber.toNat ++ (bcdBytes 1 h.channelSetNumber ++
  (encInt .be 2 (h.startTime / 2 : Nat) ++ (encInt .be 2 (h.endTime / 2 : Nat) ++
  (encInt .be 2 (k : Nat) ++ (bcdBytes 2 h.numberOfChannels ++
  ([BitVec.ofNat 8 (h.channelType % 10 * 16)] ++
  ([BitVec.ofNat 8 (h.subscansPerChSet.toNat.log2 % 10 * 16 + h.channelGain % 10)] ++
  (bcdBytes 2 h.aliasFilterFreq ++ (bcdBytes 2 h.aliasFilterSlope ++
  (bcdBytes 2 h.lowCutFilterFreq ++ (bcdBytes 2 h.lowCutFilterSlope ++
  (bcdBytes 2 h.firstNotchFilter ++ (bcdBytes 2 h.secondNotchFilter ++
  (bcdBytes 2 h.thirdNotchFilter ++ (encInt .be 2 h.extChSetNum ++
  ([BitVec.ofNat 8 (h.extHdrFlag % 16 * 16 + h.trcHdrExt % 16)] ++
  (encInt .be 1 h.vertStack ++ (encInt .be 1 h.streamerNo ++
  encInt .be 1 h.arrayForming))))))))))))))))))

theorem chSetBytes_length (h : ChSet) (k : Nat) : (chSetBytes h k).length = 32 := by
  simp [chSetBytes]

theorem wrSkip_one {n : Nat} (d : Bytes) (b : Byte) :
    wrSkip 1 ⟨d, b :: List.replicate n 0⟩ = .ok ((), ⟨d ++ [b], List.replicate n 0⟩) := by
  unfold wrSkip
  rw [if_pos (by simp)]
  rfl

theorem writeChSet_eq {lg : Int → Dbl} {h : ChSet} {k : Nat} (hlg : LogOk lg) (ht : ChSetTyped h)
    (hd : h.descaleMultiplier = dyadic k 10) (hk : k < 2 ^ 15)
    (h1 : 1 ≤ h.subscansPerChSet) (h2 : h.subscansPerChSet < 2 ^ 16) :
    writeChSet lg h = .ok (chSetBytes h k) := by
  unfold writeChSet wrBlock wrChSet
  simp only [writeU16_eq, chr_eq]
  rw [wr_bind, wrBcd_even4 (m := 1) _ ht.scanTypeNumber rfl (by decide) (by decide), ok_bind]
  rw [wr_bind, wrBcd_even (m := 1) _ (by decide) ht.channelSetNumber rfl (by decide) (by decide), ok_bind]
  rw [wr_bind, wrEnc _ (by decide), ok_bind]
  rw [wr_bind, wrEnc _ (by decide), ok_bind]
  rw [hd, wr_bind, wrDescale_ok _ hk (by decide), ok_bind]
  rw [wr_bind, wrBcd_even (m := 2) _ (by decide) ht.numberOfChannels rfl (by decide) (by decide), ok_bind]
  simp only [Nat.reduceSub]
  rw [wr_bind, List.replicate_succ (n := 21), wrBcd_one _ 0 (by decide) ht.channelType, ok_bind]
  rw [wr_bind, wrSkip_one, ok_bind]
  rw [wr_bind, wrSubscans_ok (n := 20) _ hlg ht.channelGain h1 h2, ok_bind]
  rw [wr_bind, wrBcd_even (m := 2) _ (by decide) ht.aliasFilterFreq rfl (by decide) (by decide), ok_bind]
  rw [wr_bind, wrBcd_even (m := 2) _ (by decide) ht.aliasFilterSlope rfl (by decide) (by decide), ok_bind]
  rw [wr_bind, wrBcd_even (m := 2) _ (by decide) ht.lowCutFilterFreq rfl (by decide) (by decide), ok_bind]
  rw [wr_bind, wrBcd_even (m := 2) _ (by decide) ht.lowCutFilterSlope rfl (by decide) (by decide), ok_bind]
  rw [wr_bind, wrBcd_even (m := 2) _ (by decide) ht.firstNotchFilter rfl (by decide) (by decide), ok_bind]
  rw [wr_bind, wrBcd_even (m := 2) _ (by decide) ht.secondNotchFilter rfl (by decide) (by decide), ok_bind]
  rw [wr_bind, wrBcd_even (m := 2) _ (by decide) ht.thirdNotchFilter rfl (by decide) (by decide), ok_bind]
  rw [wr_bind, wrEnc _ (by decide), ok_bind]
  rw [wr_bind, wrFlags_ok (n := 3), ok_bind]
  rw [wr_bind, wrEnc _ (by decide), ok_bind]
  rw [wr_bind, wrEnc _ (by decide), ok_bind]
  rw [wrEnc _ (by decide), ok_bind]
  simp [chSetBytes, pure_eq_ok]

theorem readChSet_eq {h : ChSet} {k : Nat} (rest : Bytes) (ht : ChSetTyped h)
    (hd : h.descaleMultiplier = dyadic k 10) (hk : k < 2 ^ 15) :
    readChSet (chSetBytes h k ++ rest) = .ok (chSetStored h, rest) := by
  unfold readChSet chSetBytes
  simp only [List.append_assoc]
  rw [rd_bind, rdBcd_even (m := 1) _ (by decide) rfl, ok_bind]
  rw [rd_bind, rdBcdN_even (m := 1) _ (by decide) rfl, ok_bind]
  rw [rd_bind, rdU16_enc, ok_bind]
  rw [rd_bind, rdU16_enc, ok_bind]
  rw [rd_bind, rdDescale_ok _ hk, ok_bind]
  rw [rd_bind, rdBcdN_even (m := 2) _ (by decide) rfl, ok_bind]
  rw [rd_bind, List.cons_append, rdBcdN_one, ok_bind]
  rw [rd_bind, ← List.cons_append, rdSkip_ok _ _ 1 (by simp), ok_bind]
  rw [rd_bind, List.cons_append, rdSubscans_ok (k := h.subscansPerChSet.toNat.log2 % 10) _ _
    (by rw [BitVec.toNat_ofNat]; omega) (by omega), ok_bind]
  rw [rd_bind, rdBcdN_skip1, ok_bind, List.nil_append]
  rw [rd_bind, rdBcdN_even (m := 2) _ (by decide) rfl, ok_bind]
  rw [rd_bind, rdBcdN_even (m := 2) _ (by decide) rfl, ok_bind]
  rw [rd_bind, rdBcdN_even (m := 2) _ (by decide) rfl, ok_bind]
  rw [rd_bind, rdBcdN_even (m := 2) _ (by decide) rfl, ok_bind]
  rw [rd_bind, rdBcdN_even (m := 2) _ (by decide) rfl, ok_bind]
  rw [rd_bind, rdBcdN_even (m := 2) _ (by decide) rfl, ok_bind]
  rw [rd_bind, rdBcdN_even (m := 2) _ (by decide) rfl, ok_bind]
  rw [rd_bind, rdU16_enc, ok_bind]
  rw [rd_bind, List.cons_append, rdFlags_ok _ _ _ (by omega) (by omega), ok_bind, List.nil_append]
  rw [rd_bind, rdU8_enc, ok_bind]
  rw [rd_bind, rdU8_enc, ok_bind]
  rw [rd_bind, rdU8_enc, ok_bind, rd_pure]
  refine congrArg (fun x => Except.ok (x, rest)) ?_
  unfold chSetStored
  rw [mod_toNat ht.scanTypeNumber.1, toU_natCast, toU_natCast,
    toU_of_nat_lt (n := 2) ht.extChSetNum, toU_of_nat_lt (n := 1) ht.vertStack,
    toU_of_nat_lt (n := 1) ht.streamerNo, toU_of_nat_lt (n := 1) ht.arrayForming, ← hd]
  have e1 : (BitVec.ofNat 8 (h.channelType % 10 * 16)).toNat / 16 = h.channelType % 10 := by
    rw [BitVec.toNat_ofNat]; omega
  have e2 : (BitVec.ofNat 8 (h.subscansPerChSet.toNat.log2 % 10 * 16 + h.channelGain % 10)).toNat % 16
      = h.channelGain % 10 := by
    rw [BitVec.toNat_ofNat]; omega
  rw [e1, e2]
  rfl

end Sedaman
