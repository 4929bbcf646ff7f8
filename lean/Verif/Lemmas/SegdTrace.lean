import Verif.Lemmas.SegdChSet
import Verif.Lemmas.TraceHdr
import Verif.Spec.SegdTrace

/-!
# Lemmas about SEG-D trace headers
-/

namespace Sedaman

open Spec

theorem wrLift_ok {α : Type} {x : Out α} {a : α} (h : x = .ok a) (c : Cur) :
    wrLift x c = .ok (a, c) := by
  unfold wrLift; rw [h]; rfl

theorem intOf_headerInt {hdr : Header} {n : String} {v : Int} (h : headerInt hdr n v) :
    intOf hdr n = .ok v := by
  unfold intOf
  rcases h with h | ⟨h, rfl⟩ <;> rw [h]

theorem zero_hasVal : HasVal (dblOfInt 0) false 0 0 := hasVal_ofNat (m := 0) (by decide)

theorem scaledOf_headerFix8 {hdr : Header} {n : String} {k : Nat} (h : headerFix8 hdr n k)
    (hk : k < 2 ^ 32) : ∃ d, scaledOf hdr n = .ok d ∧ HasVal d false k 0 := by
  unfold scaledOf
  rcases h with h | ⟨h, rfl⟩ <;> rw [h]
  · refine ⟨_, rfl, ?_⟩
    have := dmul_exact (hasVal_toDbl (s := false) (m := k) (e := -8) (by omega)
      (by decide) (by decide)) (hasVal_pow2 (k := 8) (by decide) (by decide)) (by omega) (by decide)
      (by decide)
    exact this.congr (by norm_num)
  · exact ⟨_, rfl, zero_hasVal⟩

theorem dblToU4_nat {d : Dbl} {k : Nat} (h : HasVal d false k 0) (hk : k < 2 ^ 32) :
    dblToU 4 d = .ok (k : Int) := by
  refine dblToInt_nonneg h ?_ ?_ (by omega) ?_
  · norm_num
  · norm_num
  · norm_num; omega

theorem dblToS1_nat {d : Dbl} {k : Nat} (h : HasVal d false k 0) (hk : k < 128) :
    dblToS 1 d = .ok (k : Int) := by
  refine dblToInt_nonneg h ?_ ?_ (by omega) ?_
  · norm_num
  · norm_num
  · norm_num; omega

theorem wrNum_ok {v m n num : Nat} {limit : Int} {esc : Bytes} (d : Bytes)
    (h : v < 2 ^ 63) (hesc : esc = List.replicate m 0xff)
    (hnum : num = 2 * m) (hm : 1 ≤ m) (hn : m ≤ n) :
    wrNum v limit num esc ⟨d, List.replicate n 0⟩
      = .ok ((), ⟨d ++ escBytes v limit m, List.replicate (n - m) 0⟩) := by
  unfold wrNum escBytes
  split
  · rw [wrPut_ok _ (by rw [hesc]; simpa using hn), hesc]; simp
  · exact wrBcd_even d (by decide) (by omega) hnum hm hn

theorem wrDblU24_ok {x : Dbl} {k n : Nat} (d : Bytes) (h : HasVal x false k 0) (hk : k < 2 ^ 32)
    (hn : 3 ≤ n) : wrDblU24 x ⟨d, List.replicate n 0⟩
      = .ok ((), ⟨d ++ encInt .be 3 k, List.replicate (n - 3) 0⟩) := by
  unfold wrDblU24
  rw [wr_bind, wrLift_ok (dblToU4_nat h hk), ok_bind, writeU24_eq, wrEnc _ hn]

theorem wrDblChar_enc {x : Dbl} {k n : Nat} (d : Bytes) (h : HasVal x false k 0) (hk : k < 128)
    (hn : 1 ≤ n) : wrDblChar x ⟨d, List.replicate n 0⟩
      = .ok ((), ⟨d ++ encInt .be 1 k, List.replicate (n - 1) 0⟩) := by
  unfold wrDblChar
  rw [dblToS1_nat h hk, ok_bind, chr_eq, wrEnc _ hn]

/-- The whole block. -/
def traceHdrBytes (ffid scan chSet chan timing ext skew edit brk : Nat) : Bytes :=
  escBytes ffid 9999 2 ++ (bcdBytes 1 scan ++ (escBytes chSet 99 1 ++ (escBytes chan 9999 2 ++
  (encInt .be 3 timing ++ (encInt .be 1 ext ++ (encInt .be 1 skew ++ (encInt .be 1 edit ++
  (encInt .be 3 brk ++ (encInt .be 2 (if chSet < 100 then 0 else chSet : Nat) ++
  encInt .be 3 ffid)))))))))

theorem traceHdrBytes_length (a b c d e f g h i : Nat) :
    (traceHdrBytes a b c d e f g h i).length = 20 := by simp [traceHdrBytes]

theorem writeTraceHdrD_eq {hdr : Header} {ffid scan chSet chan timing ext skew edit brk : Nat}
    (hc : Carries hdr ffid scan chSet chan timing ext skew edit brk)
    (h1 : ffid < 2 ^ 63) (h2 : scan < 2 ^ 63) (h3 : chSet < 2 ^ 63) (h4 : chan < 2 ^ 63)
    (h5 : timing < 2 ^ 32) (h6 : skew < 128) (h7 : brk < 2 ^ 32) :
    writeTraceHdrD hdr = .ok (traceHdrBytes ffid scan chSet chan timing ext skew edit brk) := by
  obtain ⟨t, ht, htv⟩ := scaledOf_headerFix8 hc.timing h5
  obtain ⟨s, hs, hsv⟩ := scaledOf_headerFix8 hc.skew (by omega)
  obtain ⟨b, hb, hbv⟩ := scaledOf_headerFix8 hc.brk h7
  have hch : intOfSet hdr "CH_SET_NUM" = .ok (chSet : Int) := by
    unfold intOfSet; rw [hc.chSet]
  unfold writeTraceHdrD wrBlock wrTraceHdr
  simp only [chr_eq, writeU24_eq]
  rw [wr_bind, wrLift_ok (intOf_headerInt hc.ffid), ok_bind]
  rw [wr_bind, wrNum_ok (m := 2) _ h1 (by decide +kernel) rfl (by decide) (by decide), ok_bind]
  rw [wr_bind, wrLift_ok (intOf_headerInt hc.scan), ok_bind]
  rw [wr_bind, wrBcd_even (m := 1) _ (by decide) (by omega) rfl (by decide) (by decide), ok_bind]
  rw [wr_bind, wrLift_ok hch, ok_bind]
  rw [wr_bind, wrNum_ok (m := 1) _ h3 (by decide) rfl (by decide) (by decide), ok_bind]
  rw [wr_bind, wrLift_ok (intOf_headerInt hc.chan), ok_bind]
  rw [wr_bind, wrNum_ok (m := 2) _ h4 (by decide +kernel) rfl (by decide) (by decide), ok_bind]
  rw [wr_bind, wrLift_ok ht, ok_bind]
  rw [wr_bind, wrDblU24_ok _ htv h5 (by decide), ok_bind]
  rw [wr_bind, wrLift_ok (intOf_headerInt hc.ext), ok_bind]
  rw [wr_bind, wrEnc _ (by decide), ok_bind]
  rw [wr_bind, wrLift_ok hs, ok_bind]
  rw [wr_bind, wrDblChar_enc _ hsv h6 (by decide), ok_bind]
  rw [wr_bind, wrLift_ok (intOf_headerInt hc.edit), ok_bind]
  rw [wr_bind, wrEnc _ (by decide), ok_bind]
  rw [wr_bind, wrLift_ok hb, ok_bind]
  rw [wr_bind, wrDblU24_ok _ hbv h7 (by decide), ok_bind, writeU16_eq]
  rw [wr_bind, wrEnc _ (by decide), ok_bind]
  rw [wrEnc _ (by decide), ok_bind]
  have : (if (chSet : Int) < 100 then (0 : Int) else chSet)
      = ((if chSet < 100 then 0 else chSet : Nat) : Int) := by split <;> split <;> omega
  rw [this]
  simp [traceHdrBytes, pure_eq_ok]

theorem rdBcdV_even {m v num : Nat} (r : Bytes) (hm : 1 ≤ m) (hnum : num = 2 * m) :
    rdBcdV num (bcdBytes m v ++ r) = .ok (.int ((v % 10 ^ num : Nat) : Int), r) := by
  have := rdBcdN_even (v := v) r hm hnum
  unfold rdBcdN at this
  unfold rdBcdV
  rw [rd_bind, this, ok_bind, rd_pure]

theorem rdBcdV_esc {v : Nat} (lim : Int) (limit num m esc : Nat) (r : Bytes) (hlim : lim = limit) (hm : 1 ≤ m) (hnum : num = 2 * m)
    (hl : limit < 10 ^ num)
    (he : ∀ r, rdBcd false num (List.replicate m 0xff ++ r) = .ok ((esc : Int), r)) :
    rdBcdV num (escBytes v lim m ++ r) = .ok (.int ((if v > limit then esc else v : Nat) : Int), r) := by
  subst hlim
  unfold escBytes
  by_cases h : v > limit
  · rw [if_pos (by omega), if_pos h]
    have := he r
    unfold rdBcd at this
    unfold rdBcdV
    rw [rd_bind] at this ⊢
    cases hf : fromBcd false num (List.replicate m 0xff ++ r) with
    | error e => rw [hf] at this; cases this
    | ok p =>
      obtain ⟨a, b⟩ := p
      rw [hf, ok_bind, rd_pure] at this
      simp only [Except.ok.injEq, Prod.mk.injEq] at this
      rw [ok_bind, rd_pure]
      simp only [this.1, this.2]
  · rw [if_neg (by omega), if_neg h, Int.toNat_natCast, rdBcdV_even r hm hnum,
      Nat.mod_eq_of_lt (by omega)]

theorem fix8_read {k : Nat} (h : k < 2 ^ 53) : ddivPow2 (dblOfInt ((k : Nat) : Int)) 8 = dyadic k 8 := by
  unfold ddivPow2
  rw [dmul_hasVal (hasVal_ofNat h) (hasVal_pow2 (k := -8) (by decide) (by decide))]
  simp [dyadic]

theorem rdFix24_ok {k : Nat} (r : Bytes) : rdFix24 (encInt .be 3 k ++ r)
    = .ok (.dbl (dyadic (k % 2 ^ 24) 8), r) := by
  unfold rdFix24
  rw [rd_bind, rdU24_enc, ok_bind, rd_pure, toU_natCast, fix8_read (by omega)]
  rfl

theorem rdFix8_ok {k : Nat} (r : Bytes) : rdFix8 (encInt .be 1 k ++ r)
    = .ok (.dbl (dyadic (k % 2 ^ 8) 8), r) := by
  unfold rdFix8
  rw [rd_bind, rdU8_enc, ok_bind, rd_pure, toU_natCast, fix8_read (by omega)]
  rfl

theorem setNonzero_get (h : Header) (n m : String) (v : Nat) :
    (setNonzero h n v).get m = if n = m ∧ v ≠ 0 then some (.int v) else h.get m := by
  unfold setNonzero
  split
  · rw [get_set]; rename_i hv; simp [hv]
  · rename_i hv; simp [hv]

/-- What the reader makes of a block, for numbers of any size. -/
theorem readTraceHdrD_eq (ffid scan chSet chan timing ext skew edit brk : Nat) (rest : Bytes)
    (h1 : ffid < 2 ^ 63) :
    ∃ h, readTraceHdrD (traceHdrBytes ffid scan chSet chan timing ext skew edit brk ++ rest)
        = .ok (h, rest) ∧
      Returned h (if ffid % 2 ^ 24 ≠ 0 then ffid % 2 ^ 24 else if ffid > 9999 then 16665 else ffid)
        (scan % 100)
        (if 100 ≤ chSet ∧ chSet % 2 ^ 16 ≠ 0 then chSet % 2 ^ 16 else if chSet > 99 then 165 else chSet)
        (if chan > 9999 then 16665 else chan)
        (timing % 2 ^ 24) (ext % 2 ^ 8) (skew % 2 ^ 8) (edit % 2 ^ 8) (brk % 2 ^ 24) := by
  unfold readTraceHdrD traceHdrBytes
  simp only [List.append_assoc]
  rw [rd_bind, rdBcdV_esc 9999 9999 4 2 16665 _ rfl (by decide) rfl (by decide)
    (fun r => rdBcd_four 0xff 0xff r), ok_bind]
  rw [rd_bind, rdBcdV_even (m := 1) _ (by decide) rfl, ok_bind]
  rw [rd_bind, rdBcdV_esc 99 99 2 1 165 _ rfl (by decide) rfl (by decide)
    (fun r => rdBcd_two 0xff r), ok_bind]
  rw [rd_bind, rdBcdV_esc 9999 9999 4 2 16665 _ rfl (by decide) rfl (by decide)
    (fun r => rdBcd_four 0xff 0xff r), ok_bind]
  rw [rd_bind, rdFix24_ok, ok_bind]
  rw [rd_bind, rdU8_enc, ok_bind]
  rw [rd_bind, rdFix8_ok, ok_bind]
  rw [rd_bind, rdU8_enc, ok_bind]
  rw [rd_bind, rdFix24_ok, ok_bind]
  rw [rd_bind, rdU16_enc, ok_bind]
  rw [rd_bind, rdU24_enc, ok_bind, rd_pure]
  refine ⟨_, rfl, ?_⟩
  simp only [toU_natCast]
  constructor
  all_goals simp only [setNonzero_get, setAll, get_set, Header.get]
  · by_cases h : ffid % 2 ^ 24 ≠ 0
    · rw [if_pos ⟨trivial, h⟩, if_pos h]; rfl
    · rw [if_neg (fun c => h c.2), if_neg h]; rfl
  · rfl
  · by_cases h : 100 ≤ chSet ∧ chSet % 2 ^ 16 ≠ 0
    · rw [if_pos h, if_neg (show ¬ chSet < 100 by omega)]; simp; omega
    · rw [if_neg h]
      have : (if chSet < 100 then 0 else chSet) % 65536 = 0 := by split <;> omega
      simp [this]
  · rfl
  · rfl
  · rfl
  · rfl
  · rfl
  · rfl
  · intro n hn
    simp only [List.mem_cons, not_or, List.not_mem_nil, not_false_eq_true, and_true] at hn
    obtain ⟨n1, n2, n3, n4, n5, n6, n7, n8, n9⟩ := hn
    simp [Ne.symm n1, Ne.symm n2, Ne.symm n3, Ne.symm n4, Ne.symm n5, Ne.symm n6, Ne.symm n7,
      Ne.symm n8, Ne.symm n9]

end Sedaman
