import Verif.Lemmas.SegdGen
import Verif.Lemmas.RawIO

/-!
# Lemmas about SEG-D general header 2 and the additional blocks
-/

namespace Sedaman

open Spec

theorem chr_eq (v : Int) : [chr v] = encInt .be 1 v := by
  rw [encInt_be]
  unfold chr
  rw [ofInt_eq_toU 0]
  rfl

theorem rdU8_enc (v : Int) (r : Bytes) : readU8 (encInt .be 1 v ++ r) = .ok (toU 1 v, r) := by
  rw [readU8_eq .be, rdNat_encInt]

theorem rdU16_enc (v : Int) (r : Bytes) : readU16 .be (encInt .be 2 v ++ r) = .ok (toU 2 v, r) := by
  rw [readU16_eq, rdNat_encInt]

theorem rdU24_enc (v : Int) (r : Bytes) : readU24 .be (encInt .be 3 v ++ r) = .ok (toU 3 v, r) := by
  rw [readU24_eq, rdNat_encInt]

theorem wrEnc {bo : ByteOrder} {k n : Nat} {v : Int} (d : Bytes) (h : k ≤ n) :
    wrPut (encInt bo k v) ⟨d, List.replicate n 0⟩
      = .ok ((), ⟨d ++ encInt bo k v, List.replicate (n - k) 0⟩) := by
  rw [wrPut_ok d (by simpa using h)]; simp

/-- The whole block. -/
def genHdr2Bytes (h : GenHdr2) : Bytes :=
  encInt .be 3 h.expandedFileNum ++ (encInt .be 2 h.extChSetsPerScanType ++
  (encInt .be 2 h.extendedHdrBlocks ++ (encInt .be 2 h.externalHdrBlocks ++ ([0] ++
  (encInt .be 1 h.segdRevMajor ++ (encInt .be 1 h.segdRevMinor ++
  (encInt .be 2 h.genTrailerNumOfBlocks ++ (encInt .be 3 h.extRecordLen ++ ([0] ++
  (encInt .be 1 h.genHdrBlockNum ++ ([0] ++ (encInt .be 2 h.sequenceNumber ++
  List.replicate 10 0))))))))))))

theorem writeGenHdr2_eq (h : GenHdr2) : writeGenHdr2 h = .ok (genHdr2Bytes h) := by
  unfold writeGenHdr2 wrBlock wrGenHdr2
  simp only [writeU24_eq, writeU16_eq, chr_eq]
  rw [wr_bind, wrEnc _ (by decide), ok_bind]
  rw [wr_bind, wrEnc _ (by decide), ok_bind]
  rw [wr_bind, wrEnc _ (by decide), ok_bind]
  rw [wr_bind, wrEnc _ (by decide), ok_bind]
  rw [wr_bind, wrSkip_ok _ (by decide), ok_bind]
  rw [wr_bind, wrEnc _ (by decide), ok_bind]
  rw [wr_bind, wrEnc _ (by decide), ok_bind]
  rw [wr_bind, wrEnc _ (by decide), ok_bind]
  rw [wr_bind, wrEnc _ (by decide), ok_bind]
  rw [wr_bind, wrSkip_ok _ (by decide), ok_bind]
  rw [wr_bind, wrEnc _ (by decide), ok_bind]
  rw [wr_bind, wrSkip_ok _ (by decide), ok_bind]
  rw [wrEnc _ (by decide), ok_bind]
  simp [genHdr2Bytes, pure_eq_ok]

theorem readRevision_eq (g h : GenHdr2) (rest : Bytes) :
    ∃ r, readRevision g (genHdr2Bytes h ++ rest)
      = .ok ({ g with segdRevMajor := toU 1 h.segdRevMajor, segdRevMinor := toU 1 h.segdRevMinor }, r) := by
  unfold readRevision genHdr2Bytes
  have e : ∀ x : Bytes, encInt .be 3 h.expandedFileNum ++ (encInt .be 2 h.extChSetsPerScanType ++
      (encInt .be 2 h.extendedHdrBlocks ++ (encInt .be 2 h.externalHdrBlocks ++ ([0] ++ x))))
      = (encInt .be 3 h.expandedFileNum ++ (encInt .be 2 h.extChSetsPerScanType ++
      (encInt .be 2 h.extendedHdrBlocks ++ (encInt .be 2 h.externalHdrBlocks ++ [0])))) ++ x := by
    intro x; simp only [List.append_assoc]
  simp only [List.append_assoc]
  rw [e, rd_bind, rdSkip_ok _ _ 10 (by simp), ok_bind]
  rw [rd_bind, rdU8_enc, ok_bind, rd_bind, rdU8_enc, ok_bind, rd_pure]
  exact ⟨_, rfl⟩

theorem readGenHdr2_eq (g h : GenHdr2) (rest : Bytes) :
    ∃ r, readGenHdr2 g (genHdr2Bytes h ++ rest)
      = .ok ({ g with
          expandedFileNum := toU 3 h.expandedFileNum
          extChSetsPerScanType := toU 2 h.extChSetsPerScanType
          extendedHdrBlocks := toU 2 h.extendedHdrBlocks
          externalHdrBlocks := toU 2 h.externalHdrBlocks
          genTrailerNumOfBlocks := toU 2 h.genTrailerNumOfBlocks
          extRecordLen := toU 3 h.extRecordLen
          genHdrBlockNum := toU 1 h.genHdrBlockNum
          sequenceNumber := toU 2 h.sequenceNumber }, r) := by
  unfold readGenHdr2 genHdr2Bytes
  simp only [List.append_assoc]
  rw [rd_bind, rdU24_enc, ok_bind]
  rw [rd_bind, rdU16_enc, ok_bind]
  rw [rd_bind, rdU16_enc, ok_bind]
  rw [rd_bind, rdU16_enc, ok_bind]
  have e : ∀ x : Bytes, [0] ++ (encInt .be 1 h.segdRevMajor ++ (encInt .be 1 h.segdRevMinor ++ x))
      = ([0] ++ (encInt .be 1 h.segdRevMajor ++ encInt .be 1 h.segdRevMinor)) ++ x := by
    intro x; simp only [List.append_assoc]
  rw [e, rd_bind, rdSkip_ok _ _ 3 (by simp), ok_bind]
  rw [rd_bind, rdU16_enc, ok_bind]
  rw [rd_bind, rdU24_enc, ok_bind]
  rw [rd_bind, rdSkip_ok _ _ 1 (by simp), ok_bind]
  rw [rd_bind, rdU8_enc, ok_bind]
  rw [rd_bind, rdSkip_ok _ _ 1 (by simp), ok_bind]
  rw [rd_bind, rdU16_enc, ok_bind, rd_pure]
  exact ⟨_, rfl⟩

theorem genHdr2Bytes_length (h : GenHdr2) : (genHdr2Bytes h).length = 32 := by
  simp [genHdr2Bytes]

/-! ## Source line and point numbers -/

theorem dyadic_int {k : Nat} (hk : k < 2 ^ 48) :
    dblToU 4 (dyadic k 16) = .ok ((k / 2 ^ 16 : Nat) : Int) := by
  have hv := hasVal_toDbl (s := false) (m := k) (e := -16) (by omega) (by decide) (by decide)
  have hdiv := Nat.div_add_mod k (2 ^ 16)
  have hmod := Nat.mod_lt k (show 0 < 2 ^ 16 by decide)
  have e : (2 : ℚ) ^ (-16 : Int) = 1 / 65536 := by norm_num
  refine dblToInt_nonneg hv ?_ ?_ (by omega) ?_
  · rw [e]
    have : ((2 ^ 16 * (k / 2 ^ 16) : Nat) : ℚ) ≤ (k : ℚ) := by exact_mod_cast (by omega)
    push_cast at this ⊢
    linarith
  · rw [e]
    have : ((k : Nat) : ℚ) < ((2 ^ 16 * (k / 2 ^ 16) + 2 ^ 16 : Nat) : ℚ) := by exact_mod_cast (by omega)
    push_cast at this ⊢
    linarith
  · have : k / 2 ^ 16 < 2 ^ 32 := by omega
    norm_num
    omega

theorem dyadic_frac {k : Nat} (hk : k < 2 ^ 48) :
    dblToU 2 (dmul (dsub (dyadic k 16) (dblOfInt ((k / 2 ^ 16 : Nat) : Int))) (pow2 16))
      = .ok ((k % 2 ^ 16 : Nat) : Int) := by
  have hv := hasVal_toDbl (s := false) (m := k) (e := -16) (by omega) (by decide) (by decide)
  have hi := hasVal_ofNat (m := k / 2 ^ 16) (by omega)
  have hdiv := Nat.div_add_mod k (2 ^ 16)
  have e : (2 : ℚ) ^ (-16 : Int) = 1 / 65536 := by norm_num
  have hs := dsub_nonneg (k := k % 2 ^ 16) (q := -16) hv hi (by
    have : ((2 ^ 16 * (k / 2 ^ 16) + k % 2 ^ 16 : Nat) : ℚ) = (k : ℚ) := by rw [hdiv]
    push_cast at this ⊢
    rw [e, mul_one]
    linarith)
  have hd : dsub (dyadic k 16) (dblOfInt ((k / 2 ^ 16 : Nat) : Int))
      = toDbl (.fin false (k % 2 ^ 16) (-16)) := hs
  rw [hd]
  have hm := dmul_exact (hasVal_toDbl (s := false) (m := k % 2 ^ 16) (e := -16) (by omega)
      (by decide) (by decide)) (hasVal_pow2 (k := 16) (by decide) (by decide)) (by omega) (by decide)
    (by decide)
  refine dblToInt_nonneg hm ?_ ?_ (by omega) ?_
  · norm_num
  · norm_num
  · norm_num
    omega

theorem dyadic_back {k : Nat} (hk : k < 2 ^ 48) :
    dadd (dblOfInt ((k / 2 ^ 16 : Nat) : Int)) (ddivPow2 (dblOfInt ((k % 2 ^ 16 : Nat) : Int)) 16)
      = dyadic k 16 := by
  have hi := hasVal_ofNat (m := k / 2 ^ 16) (by omega)
  have hf := hasVal_ofNat (m := k % 2 ^ 16) (by omega)
  have hm := dmul_exact hf (hasVal_pow2 (k := -16) (by decide) (by decide)) (by omega) (by decide)
    (by decide)
  have hdiv := Nat.div_add_mod k (2 ^ 16)
  have e : (2 : ℚ) ^ (-16 : Int) = 1 / 65536 := by norm_num
  refine dadd_nonneg hi hm ?_
  have : ((2 ^ 16 * (k / 2 ^ 16) + k % 2 ^ 16 : Nat) : ℚ) = (k : ℚ) := by rw [hdiv]
  rw [zero_add]
  simp only [Nat.cast_ofNat, Nat.cast_mul, Nat.cast_pow, Nat.cast_add] at this ⊢
  rw [e, zpow_zero]
  push_cast
  linarith

theorem wrSource_ok {k n : Nat} (d : Bytes) (hk : k < 2 ^ 48) (hn : 5 ≤ n) :
    wrSource (dyadic k 16) ⟨d, List.replicate n 0⟩
      = .ok ((), ⟨d ++ (encInt .be 3 (k / 2 ^ 16 : Nat) ++ encInt .be 2 (k % 2 ^ 16 : Nat)),
          List.replicate (n - 5) 0⟩) := by
  unfold wrSource
  rw [wr_bind]
  simp only [dyadic_int hk, ok_bind, pure_eq_ok, writeI24_eq, writeU16_eq]
  rw [wr_bind, wrEnc _ (by omega), ok_bind, wr_bind]
  simp only [dyadic_frac hk, ok_bind]
  rw [wrEnc _ (by omega), List.append_assoc]
  congr 4

theorem rdSource_ok {k : Nat} (r : Bytes) (hk : k < 2 ^ 39) :
    rdSource (encInt .be 3 (k / 2 ^ 16 : Nat) ++ (encInt .be 2 (k % 2 ^ 16 : Nat) ++ r))
      = .ok (dyadic k 16, r) := by
  unfold rdSource
  rw [rd_bind, readI24_eq, rdInt_encInt, ok_bind, rd_bind, rdU16_enc, ok_bind, rd_pure]
  have e1 : toS 3 (toU 3 ((k / 2 ^ 16 : Nat) : Int)) = ((k / 2 ^ 16 : Nat) : Int) := by
    apply toS_toU
    unfold FitsS
    omega
  have e2 : toU 2 ((k % 2 ^ 16 : Nat) : Int) = k % 2 ^ 16 := toU_of_nat_lt (by omega)
  rw [e1, e2, dyadic_back (by omega)]

/-- The whole block for line number `l / 2^16` and point number `p / 2^16`. -/
def genHdrNBytes (h : GenHdrN) (l p : Nat) : Bytes :=
  encInt .be 3 h.expandedFileNumber ++ (encInt .be 3 (l / 2 ^ 16 : Nat) ++
  (encInt .be 2 (l % 2 ^ 16 : Nat) ++ (encInt .be 3 (p / 2 ^ 16 : Nat) ++
  (encInt .be 2 (p % 2 ^ 16 : Nat) ++ (encInt .be 1 h.souPointIndex ++
  (encInt .be 1 h.phaseControl ++ (encInt .be 1 h.typeVibrator ++ (encInt .be 2 h.phaseAngle ++
  (encInt .be 1 h.genHdrBlockNum ++ (encInt .be 1 h.souSetNum ++ List.replicate 12 0))))))))))

theorem genHdrNBytes_length (h : GenHdrN) (l p : Nat) : (genHdrNBytes h l p).length = 32 := by
  simp [genHdrNBytes]

theorem writeGenHdrN_eq {h : GenHdrN} {l p : Nat} (hl : h.souLineNum = dyadic l 16)
    (hp : h.souPointNum = dyadic p 16) (h1 : l < 2 ^ 48) (h2 : p < 2 ^ 48) :
    writeGenHdrN h = .ok (genHdrNBytes h l p) := by
  unfold writeGenHdrN wrBlock wrGenHdrN
  simp only [writeU24_eq, writeI16_eq, chr_eq]
  rw [hl, hp]
  rw [wr_bind, wrEnc _ (by decide), ok_bind]
  rw [wr_bind, wrSource_ok _ h1 (by decide), ok_bind]
  rw [wr_bind, wrSource_ok _ h2 (by decide), ok_bind]
  rw [wr_bind, wrEnc _ (by decide), ok_bind]
  rw [wr_bind, wrEnc _ (by decide), ok_bind]
  rw [wr_bind, wrEnc _ (by decide), ok_bind]
  rw [wr_bind, wrEnc _ (by decide), ok_bind]
  rw [wr_bind, wrEnc _ (by decide), ok_bind]
  rw [wrEnc _ (by decide), ok_bind]
  simp [genHdrNBytes, pure_eq_ok]

theorem readGenHdrN_eq {h : GenHdrN} {l p : Nat} (rest : Bytes) (h1 : l < 2 ^ 39) (h2 : p < 2 ^ 39) :
    ∃ r, readGenHdrN (genHdrNBytes h l p ++ rest) = .ok (
      { expandedFileNumber := toU 3 h.expandedFileNumber
        souLineNum := dyadic l 16
        souPointNum := dyadic p 16
        souPointIndex := toU 1 h.souPointIndex
        phaseControl := toU 1 h.phaseControl
        typeVibrator := toU 1 h.typeVibrator
        phaseAngle := toS 2 (toU 2 h.phaseAngle)
        genHdrBlockNum := toU 1 h.genHdrBlockNum
        souSetNum := toU 1 h.souSetNum }, r) := by
  unfold readGenHdrN genHdrNBytes
  simp only [List.append_assoc]
  rw [rd_bind, rdU24_enc, ok_bind]
  rw [rd_bind, rdSource_ok _ h1, ok_bind]
  rw [rd_bind, rdSource_ok _ h2, ok_bind]
  rw [rd_bind, rdU8_enc, ok_bind]
  rw [rd_bind, rdU8_enc, ok_bind]
  rw [rd_bind, rdU8_enc, ok_bind]
  rw [rd_bind, readI16_eq, rdInt_encInt, ok_bind]
  rw [rd_bind, rdU8_enc, ok_bind]
  rw [rd_bind, rdU8_enc, ok_bind, rd_pure]
  exact ⟨_, rfl⟩

end Sedaman
