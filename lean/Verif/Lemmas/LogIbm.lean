import Verif.Lemmas.LogReal

/-! # IBM floats and accurate logarithms -/

namespace Sedaman

open Spec Finset

theorem abs_rat {d : Dbl} {x : ℚ} (hd : dblRat d = some x) : dblRat (dblAbs d) = some |x| := by
  unfold dblRat ratOf at hd
  split at hd
  · rename_i s m e hv
    simp only [Option.some.injEq] at hd
    have h := (dblAbs_is (d := d) (s := s) (n := m) (g := e) ⟨m, e, hv, rfl⟩).rat
    rw [h, ← hd]
    have h0 : (0 : ℚ) ≤ (m : ℚ) * 2 ^ e := by positivity
    rw [mul_assoc, abs_mul, abs_of_nonneg h0]
    cases s <;> simp
  · cases hd

/-- What the encoder does when the estimate is right or one too high. -/
theorem ibmEncode_wide {est : LogEst} {d : Dbl} {s : Bool} {m : Nat} {e : Int}
    (hd : d.val = .fin s m e) (hm0 : m ≠ 0) {t : Int} (ht : est (dblAbs d) = t) (hr1 : (16 : ℚ) ^ (t - 66) ≤ m * 2 ^ e)
    (hr2 : (m : ℚ) * 2 ^ e < (16 : ℚ) ^ (t - 64)) (ht0 : 0 ≤ t) (ht1 : t ≤ 127) :
    ∃ F : Nat, F < 2 ^ 24 ∧ (F : ℚ) ≤ (m : ℚ) * 2 ^ (e - 4 * t + 280) ∧ (m : ℚ) * 2 ^ (e - 4 * t + 280) < F + 1 ∧
      ibmEncode est d = .ok ((if s then 1 else 0) * 2 ^ 31 + t.toNat * 2 ^ 24 + F) := by
  obtain ⟨b1, b2, b3⟩ := dbl_fin_bounds hd
  have hl := log2_lt_of_lt b1 (by decide)
  have hid : Is d s m e := ⟨m, e, hd, rfl⟩
  have ha := dblAbs_is hid
  unfold ibmEncode
  rw [dblNeg_is hid hm0]
  simp only
  have hexp : ibmExp est (dblAbs d) = .ok t.toNat := by
    unfold ibmExp
    obtain ⟨m', e', h1, h2⟩ := ha
    rw [h1]
    have : m' ≠ 0 := by
      intro h0
      subst h0
      have hp : (0 : ℚ) < 2 ^ e := by positivity
      have hn' : (0 : ℚ) < m := by exact_mod_cast Nat.pos_of_ne_zero hm0
      have : (0 : ℚ) < m * 2 ^ e := mul_pos hn' hp
      rw [← h2] at this
      simp at this
    simp only [this, if_false]
    rw [ht, if_pos ⟨ht0, by omega⟩, and_7f, Nat.mod_eq_of_lt (by omega)]
  rw [hexp]
  simp only [ok_bind]
  have hmlt : (m : ℚ) < 2 ^ (53 : Int) := by
    have e53 : (2 : ℚ) ^ (53 : Int) = ((2 ^ 53 : Nat) : ℚ) := by norm_num
    rw [e53]
    exact Nat.cast_lt.mpr b1
  rw [sixteen_zpow] at hr1 hr2
  have hlow : 4 * (t - 66) < 53 + e := by
    have : (2 : ℚ) ^ (4 * (t - 66)) < 2 ^ (53 + e) := by
      calc (2 : ℚ) ^ (4 * (t - 66)) ≤ m * 2 ^ e := hr1
        _ < 2 ^ (53 : Int) * 2 ^ e := mul_lt_mul_of_pos_right hmlt (by positivity)
        _ = 2 ^ (53 + e) := (zpow_add₀ (by norm_num) _ _).symm
    exact (zpow_lt_zpow_iff_right₀ (by norm_num)).mp this
  have hlog2 : (m.log2 : Int) + e < 4 * (t - 64) := by
    have h1 : ((2 ^ m.log2 : Nat) : ℚ) ≤ m := by exact_mod_cast (log2_bounds hm0).1
    have : (2 : ℚ) ^ ((m.log2 : Int) + e) < 2 ^ (4 * (t - 64)) := by
      calc (2 : ℚ) ^ ((m.log2 : Int) + e) = 2 ^ (m.log2 : Int) * 2 ^ e := zpow_add₀ (by norm_num) _ _
        _ ≤ m * 2 ^ e := by
          apply mul_le_mul_of_nonneg_right _ (by positivity)
          rw [zpow_natCast]; exact_mod_cast h1
        _ < _ := hr2
    exact (zpow_lt_zpow_iff_right₀ (by norm_num)).mp this
  have htn : ((t.toNat : Nat) : Int) = t := Int.toNat_of_nonneg ht0
  have h1 : Is (ddivPow2 (dblAbs d) (4 * ((t.toNat : Int) - 64))) false m
      (e + -(4 * ((t.toNat : Int) - 64))) :=
    ha.scale (by omega) (by omega) b1 (by omega) (by omega)
  have h2 := h1.scale (k := 24) (by decide) (by decide) b1 (by omega) (by omega)
  have h3 : Is (dmul (ddivPow2 (dblAbs d) (4 * ((t.toNat : Int) - 64))) (pow2 24)) false m
      (e - 4 * t + 280) := by
    have e1 : e + -(4 * ((t.toNat : Int) - 64)) + 24 = e - 4 * t + 280 := by omega
    rw [e1] at h2; exact h2
  obtain ⟨m', e', h4, h5⟩ := h3
  obtain ⟨F, h6, h7, h8⟩ := trunc_fin false m' e'
  rw [h5] at h7 h8
  have hs2 : (m : ℚ) * 2 ^ (e - 4 * t + 280) < 2 ^ (24 : Int) := by
    have : (2 : ℚ) ^ (24 : Int) = 2 ^ (4 * (t - 64)) * 2 ^ (-4 * t + 280) := by
      rw [← zpow_add₀ (by norm_num)]; congr 1; omega
    rw [this]
    have e2 : (m : ℚ) * 2 ^ (e - 4 * t + 280) = m * 2 ^ e * 2 ^ (-4 * t + 280) := by
      rw [mul_assoc, ← zpow_add₀ (by norm_num)]; congr 2; omega
    rw [e2]
    exact mul_lt_mul_of_pos_right hr2 (by positivity)
  have hF2 : F < 2 ^ 24 := by
    have : (F : ℚ) < 2 ^ (24 : Int) := lt_of_le_of_lt h7 hs2
    have e24 : (2 : ℚ) ^ (24 : Int) = ((2 ^ 24 : Nat) : ℚ) := by norm_num
    rw [e24] at this
    exact Nat.cast_lt.mp this
  refine ⟨F, hF2, h7, h8, ?_⟩
  have hu : dblToU 4 (dmul (ddivPow2 (dblAbs d) (4 * ((t.toNat : Int) - 64))) (pow2 24))
      = .ok (F : Int) := by
    unfold dblToU dblToInt
    rw [h4, h6]
    simp only [Bool.false_eq_true, if_false]
    rw [if_pos (by omega)]
  rw [LogEst.toU_ok hu]
  simp only [ok_bind, pure_eq_ok, Int.toNat_natCast, and_ffffff, Nat.mod_eq_of_lt hF2]
  congr 1
  rw [Nat.or_assoc, shift_or hF2]
  have : 2 ^ 24 * t.toNat + F < 2 ^ 31 := by omega
  rw [shift_or this]
  cases s <;> simp <;> omega

/-- The largest IBM number. -/
theorem ibm_max : ((2 ^ 24 - 1 : Nat) : ℚ) * (16 : ℚ) ^ (57 : Int) = (16 : ℚ) ^ (63 : Int) * (1 - 1 / 2 ^ 24) := by
  norm_num

/-- The estimate for any double in the range. -/
theorem est_near {log : Dbl → Dbl} (h : AccurateLog log) {a : Dbl} {x : ℚ} (ha : dblRat a = some x) {k : Int}
    (hk : -31 ≤ k) (hk' : k ≤ 62) (h1 : (16 : ℚ) ^ k ≤ x) (h2 : x < (16 : ℚ) ^ (k + 1)) :
    ibmEstimate log a = k + 65 ∨
      ibmEstimate log a = k + 66 ∧ (16 : ℚ) ^ (k + 1) * (1 - 1 / 2 ^ 24) < x := by
  have g1 := est_low h ha hk hk' h1 (lt_of_lt_of_le h2 (zpow_le_zpow_right₀ (by norm_num) (by omega)))
  have hs : (16 : ℚ) ^ (-65 : Int) ≤ x := le_trans (zpow_le_zpow_right₀ (by norm_num) (by omega)) h1
  have g2 := est_high h ha (k := k + 1) (by omega) (by omega) hs h2
  by_cases hc : x ≤ (16 : ℚ) ^ (k + 1) * (1 - 1 / 2 ^ 24)
  · have g3 := est_below h ha (k := k + 1) (by omega) (by omega) hs hc
    left; omega
  · rcases (show ibmEstimate log a = k + 65 ∨ ibmEstimate log a = k + 66 by omega) with e | e
    · exact .inl e
    · exact .inr ⟨e, not_le.1 hc⟩

/-- Every double in the range is stored with a relative error below `1 / (2^20 - 1)`. -/
theorem ibm_near {est : LogEst} (h : UsesLog est) {d : Dbl} {x : ℚ} (hd : dblRat d = some x)
    (h1 : (16 : ℚ) ^ (-31 : Int) ≤ |x|) (h2 : |x| ≤ ((2 ^ 24 - 1 : Nat) : ℚ) * (16 : ℚ) ^ (57 : Int)) :
    ∃ w, ibmEncode est d = .ok w ∧ w < 2 ^ 32 ∧ |ibmValue w| ≤ |x| ∧ |x - ibmValue w| < |x| / (2 ^ 20 - 1) := by
  obtain ⟨log, hlog, hest⟩ := h
  have hx0 : 0 < |x| := lt_of_lt_of_le (by positivity) h1
  obtain ⟨k, k1, k2⟩ := exists_mem_Ico_zpow hx0 (show (1 : ℚ) < 16 by norm_num)
  rw [ibm_max] at h2
  have hlt : |x| < (16 : ℚ) ^ (63 : Int) := by
    have : (0 : ℚ) < 16 ^ (63 : Int) := by positivity
    linarith
  have hk1 : -31 ≤ k := by
    have := (zpow_lt_zpow_iff_right₀ (show (1 : ℚ) < 16 by norm_num)).1 (lt_of_le_of_lt h1 k2)
    omega
  have hk2 : k ≤ 62 := by
    have := (zpow_lt_zpow_iff_right₀ (show (1 : ℚ) < 16 by norm_num)).1 (lt_of_le_of_lt k1 hlt)
    omega
  have ha := abs_rat hd
  have hn := est_near hlog ha hk1 hk2 k1 k2
  rw [← hest] at hn
  -- the significand
  have hd' := hd
  unfold dblRat ratOf at hd'
  split at hd'
  case h_2 => cases hd'
  rename_i s m e hv
  simp only [Option.some.injEq] at hd'
  have hm0 : m ≠ 0 := by
    rintro rfl
    simp at hd'
    rw [← hd'] at hx0
    simp at hx0
  have habs : |x| = (m : ℚ) * 2 ^ e := by
    rw [← hd', mul_assoc, abs_mul, abs_of_nonneg (a := (m : ℚ) * 2 ^ e) (by positivity)]
    cases s <;> simp
  obtain ⟨t, ht, t0, t1, tl, tu, tY⟩ : ∃ t : Int, est (dblAbs d) = t ∧ 0 ≤ t ∧ t ≤ 127 ∧ (16 : ℚ) ^ (t - 66) ≤ |x| ∧
      |x| < (16 : ℚ) ^ (t - 64) ∧ (2 ^ 20 - 1 : ℚ) * (16 : ℚ) ^ (t - 70) < |x| := by
    rcases hn with e1 | ⟨e1, e2⟩
    · refine ⟨k + 65, e1, by omega, by omega, ?_, ?_, ?_⟩
      · exact le_trans (zpow_le_zpow_right₀ (by norm_num) (by omega)) k1
      · rw [show k + 65 - 64 = k + 1 by omega]; exact k2
      · refine lt_of_lt_of_le ?_ k1
        rw [show k + 65 - 70 = k + (-5) by omega, zpow_add₀ (by norm_num)]
        have : (0 : ℚ) < 16 ^ k := by positivity
        norm_num
        linarith
    · have hk62 : k ≠ 62 := by
        rintro rfl
        rw [show (62 : Int) + 1 = 63 by norm_num] at e2
        linarith
      refine ⟨k + 66, e1, by omega, by omega, ?_, ?_, ?_⟩
      · rw [show k + 66 - 66 = k by omega]; exact k1
      · exact lt_of_lt_of_le k2 (zpow_le_zpow_right₀ (by norm_num) (by omega))
      · refine lt_trans ?_ e2
        rw [show k + 66 - 70 = (k + 1) + (-5) by omega, zpow_add₀ (by norm_num) (k + 1)]
        have : (0 : ℚ) < 16 ^ (k + 1) := by positivity
        norm_num
        linarith
  rw [habs] at tl tu
  obtain ⟨F, f1, f2, f3, f4⟩ := ibmEncode_wide hv hm0 ht tl tu t0 t1
  refine ⟨_, f4, ?_, ?_⟩
  · cases s
    · simp only [Bool.false_eq_true, if_false]; omega
    · simp only [if_true]; omega
  obtain ⟨n, rfl⟩ := Int.eq_ofNat_of_zero_le t0
  simp only [Int.toNat_natCast] at *
  have hval : ibmValue ((if s then 1 else 0) * 2 ^ 31 + n * 2 ^ 24 + F)
      = (if s then -1 else 1) * ((F : ℚ) * (16 : ℚ) ^ ((n : Int) - 70)) := by
    unfold ibmValue
    have g1 : ((if s then 1 else 0) * 2 ^ 31 + n * 2 ^ 24 + F) % 2 ^ 24 = F := by
      cases s
      · simp only [Bool.false_eq_true, if_false]; omega
      · simp only [if_true]; omega
    have g2 : ((if s then 1 else 0) * 2 ^ 31 + n * 2 ^ 24 + F) / 2 ^ 24 % 128 = n := by
      cases s
      · simp only [Bool.false_eq_true, if_false]; omega
      · simp only [if_true]; omega
    have g3 : (2 ^ 31 ≤ (if s then 1 else 0) * 2 ^ 31 + n * 2 ^ 24 + F) ↔ s = true := by
      cases s
      · simp only [Bool.false_eq_true, if_false, iff_false]; omega
      · simp only [if_true, iff_true]; omega
    rw [g1, g2, mul_assoc]
    cases s
    · rw [if_neg (by rw [g3]; simp)]; simp
    · rw [if_pos (by rw [g3])]; simp
  have hx : x = (if s then -1 else 1) * ((m : ℚ) * 2 ^ e) := by rw [← hd']; ring
  have hY : (m : ℚ) * 2 ^ e = (m : ℚ) * 2 ^ (e - 4 * (n : Int) + 280) * (16 : ℚ) ^ ((n : Int) - 70) := by
    rw [sixteen_zpow, mul_assoc, ← zpow_add₀ (by norm_num)]
    congr 2; omega
  have hS : (0 : ℚ) < (16 : ℚ) ^ ((n : Int) - 70) := by positivity
  have hva : |ibmValue ((if s then 1 else 0) * 2 ^ 31 + n * 2 ^ 24 + F)| = (F : ℚ) * (16 : ℚ) ^ ((n : Int) - 70) := by
    rw [hval, abs_mul, abs_of_nonneg (a := (F : ℚ) * (16 : ℚ) ^ ((n : Int) - 70)) (by positivity)]
    cases s <;> simp
  constructor
  · rw [hva, habs, hY]
    exact mul_le_mul_of_nonneg_right f2 hS.le
  · rw [hval]
    nth_rewrite 1 [hx]
    rw [abs_sign, hY, ← sub_mul, abs_mul, abs_of_pos hS, abs_of_nonneg (by linarith), lt_div_iff₀ (by norm_num)]
    refine lt_trans ?_ tY
    rw [mul_comm ((2 : ℚ) ^ 20 - 1)]
    have : ((m : ℚ) * 2 ^ (e - 4 * (n : Int) + 280) - F) * (16 : ℚ) ^ ((n : Int) - 70) < 1 * (16 : ℚ) ^ ((n : Int) - 70) :=
      mul_lt_mul_of_pos_right (by linarith) hS
    rw [one_mul] at this
    exact mul_lt_mul_of_pos_right this (by norm_num)

end Sedaman
