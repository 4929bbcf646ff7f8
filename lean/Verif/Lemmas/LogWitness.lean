import Verif.Lemmas.LogReal

/-! # Two numbers whose logarithm is rounded to the wrong side -/

namespace Sedaman

open Spec Finset

theorem ln2_low : (693147180559945309 / 10 ^ 18 : ℝ) ≤ Real.log 2 := by
  have t : |(2⁻¹ : ℝ)| = 2⁻¹ := by rw [abs_of_pos]; norm_num
  have z := Real.abs_log_sub_add_sum_range_le (show |(2⁻¹ : ℝ)| < 1 by rw [t]; norm_num) 62
  rw [t] at z
  norm_num1 at z
  rw [one_div (2 : ℝ), Real.log_inv, ← sub_eq_add_neg, abs_sub_comm] at z
  have h2 : (693147180559945309 / 10 ^ 18 : ℝ) ≤ (∑ i ∈ range 62, (2⁻¹ : ℝ) ^ (i + 1) / (i + 1)) - 1 / 2 ^ 62 := by
    simp_rw [sum_range_succ]
    norm_num
  rw [abs_le] at z
  norm_num at z h2 ⊢
  linarith [z.1]

/-- The estimate for `16^-39`, when its logarithm is the double nearest to it. -/
theorem est_lost {log : Dbl → Dbl} (h : AccurateLog log) {a : Dbl} (ha : dblRat a = some ((16 : ℚ) ^ (-39 : Int)))
    (hn : ∀ y, dblRat (log a) = some y → |(y : ℝ) - Real.log ((16 : ℚ) ^ (-39 : Int) : ℚ)| ≤ (2 ^ 47)⁻¹) :
    ibmEstimate log a = -39 + 64 := by
  obtain ⟨L, hL, -⟩ := h.near a _ ha (by positivity)
  have hl : Real.log (((16 : ℚ) ^ (-39 : Int) : ℚ) : ℝ) = -156 * Real.log 2 := by
    have : (((16 : ℚ) ^ (-39 : Int) : ℚ) : ℝ) = (2 : ℝ) ^ (-156 : Int) := by norm_num
    rw [this, Real.log_zpow]
    push_cast
    ring
  have hn := hn L hL
  rw [hl] at hn
  -- an upper bound of `L`: it is a multiple of `2^-46`
  have l1 := ln2_low
  obtain ⟨s, n, g, b1, b2, b3⟩ := dblRat_bounds hL
  have c := ln2_close
  rw [abs_le] at hn c
  norm_num at hn c
  have hneg : (L : ℝ) < -100 := by norm_num at l1; linarith
  have hneg : L < -100 := by exact_mod_cast hneg
  have hp : (0 : ℚ) ≤ (n : ℚ) * 2 ^ g := by positivity
  cases s
  case false => simp only [Bool.false_eq_true, if_false, one_mul] at b3; linarith
  simp only [if_true] at b3
  have hg : -46 ≤ g := by
    by_contra hc
    have h1 : (n : ℚ) * 2 ^ g < 2 ^ (53 : Int) * 2 ^ g := by
      apply mul_lt_mul_of_pos_right _ (by positivity)
      have : (n : ℚ) < ((2 ^ 53 : Nat) : ℚ) := Nat.cast_lt.mpr b1
      calc (n : ℚ) < ((2 ^ 53 : Nat) : ℚ) := this
        _ = _ := by norm_num
    rw [← zpow_add₀ (by norm_num)] at h1
    have h2 : (2 : ℚ) ^ (53 + g) ≤ 2 ^ (6 : Int) := zpow_le_zpow_right₀ (by norm_num) (by omega)
    norm_num at h2
    linarith
  obtain ⟨j, hj⟩ := Int.eq_ofNat_of_zero_le (a := g + 46) (by omega)
  have hy' : -L * 2 ^ 46 = ((n * 2 ^ j : Nat) : ℚ) := by
    have : g = (j : Int) - 46 := by omega
    rw [b3, this, zpow_sub₀ (by norm_num), zpow_natCast]
    push_cast
    norm_num
    ring
  generalize n * 2 ^ j = N at hy'
  have hyr : -(L : ℝ) * 2 ^ 46 = (N : ℝ) := by exact_mod_cast hy'
  have e1 : (7609039873701531 : ℝ) < N := by
    rw [← hyr]
    norm_num at l1 ⊢
    linarith
  have e2 : (N : ℝ) < 7609039873701533 := by
    rw [← hyr]
    norm_num at l1 ⊢
    linarith
  have e1 : 7609039873701531 < N := by exact_mod_cast e1
  have e2 : N < 7609039873701533 := by exact_mod_cast e2
  have hN : N = 7609039873701532 := by omega
  have hLv : L = -7609039873701532 / 2 ^ 46 := by
    rw [hN] at hy'
    rw [eq_div_iff (by norm_num)]
    push_cast at hy'
    linarith
  -- the quotient
  have hC := h.two_eq
  obtain ⟨V, hV, hV2⟩ := div_approx hL hC (by norm_num)
  have hq : L / (6243314768165359 / 2 ^ 53) = -(7609039873701532 * 128) / 6243314768165359 := by
    rw [hLv]; norm_num
  rw [hq] at hV2
  have hA : |(-(7609039873701532 * 128) / 6243314768165359 : ℚ)| = (7609039873701532 * 128) / 6243314768165359 := by
    rw [abs_of_neg (by norm_num)]; norm_num
  rw [hA, abs_le] at hV2
  norm_num at hV2
  have hb : |V| ≤ 2 ^ 12 := by
    rw [abs_le]
    norm_num
    constructor <;> linarith [hV2.1, hV2.2]
  have hlo : ((-156 * 2 ^ 60 - 17100 : Int) : ℚ) / 2 ^ 60 ≤ V := by norm_num; linarith [hV2.1]
  have hhi : V ≤ ((-156 * 2 ^ 60 - 16900 : Int) : ℚ) / 2 ^ 60 := by norm_num; linarith [hV2.2]
  have t1 : exponentFrom (dyadic (-156 * 2 ^ 60 - 17100)) = 25 := by decide +kernel
  have t2 : exponentFrom (dyadic (-156 * 2 ^ 60 - 16900)) = 25 := by decide +kernel
  have g1 := est_ge_of hV hb (p := -156 * 2 ^ 60 - 17100) (by norm_num) (by
    have := (Rat.cast_le (K := ℝ)).2 hlo; push_cast at this ⊢; exact this)
  have g2 := est_le_of hV hb (p := -156 * 2 ^ 60 - 16900) (by norm_num) (by
    have := (Rat.cast_le (K := ℝ)).2 hhi; push_cast at this ⊢; exact this)
  rw [t1] at g1
  rw [t2] at g2
  omega

/-- The estimate just below `16^63`. -/
theorem est_top {log : Dbl → Dbl} (h : AccurateLog log) {a : Dbl} {x : ℚ} (ha : dblRat a = some x)
    (h1 : (16 : ℚ) ^ (63 : Int) * (1 - 1 / 2 ^ 47) ≤ x) (h2 : x < (16 : ℚ) ^ (63 : Int)) :
    ibmEstimate log a = 128 := by
  have hlo16 : (16 : ℚ) ^ (-65 : Int) ≤ x := le_trans (by norm_num) h1
  have hx : 0 < x := lt_of_lt_of_le (by positivity) hlo16
  have g2 := est_high h ha (k := 63) (by norm_num) (by norm_num) hlo16 h2
  obtain ⟨L, hL, hn⟩ := h.near a _ ha hx
  have l1 := ln2_low
  obtain ⟨-, l2⟩ := ln2_bounds
  have hxr : (0 : ℝ) < x := by exact_mod_cast hx
  -- the logarithm
  have hup : Real.log x ≤ 252 * Real.log 2 := by
    have : (x : ℝ) ≤ (2 : ℝ) ^ (252 : Int) := by
      have := (Rat.cast_le (K := ℝ)).2 h2.le
      push_cast at this
      exact this.trans (by norm_num)
    have := Real.log_le_log hxr this
    rw [Real.log_zpow] at this
    push_cast at this
    exact this
  have hdn : 252 * Real.log 2 - (2 ^ 47 - 1)⁻¹ ≤ Real.log x := by
    have e1 : (2 : ℝ) ^ (252 : Int) * (1 - 1 / 2 ^ 47) ≤ x := by
      have := (Rat.cast_le (K := ℝ)).2 h1
      push_cast at this
      refine le_trans (by norm_num) this
    have := Real.log_le_log (by norm_num) e1
    rw [Real.log_mul (by positivity) (by norm_num), Real.log_zpow] at this
    have e2 := Real.one_sub_inv_le_log_of_pos (show (0 : ℝ) < 1 - 1 / 2 ^ 47 by norm_num)
    push_cast at this
    norm_num at e2 this ⊢
    linarith
  have hpos : 0 < Real.log x := by norm_num at hdn l1; linarith
  rw [abs_of_pos hpos, abs_le] at hn
  have hC := h.two_eq
  obtain ⟨V, hV, hV2⟩ := div_approx hL hC (by norm_num)
  norm_num at hn hdn l1
  have hLlo : (252 * (693147180559945309 / 10 ^ 18) * (1 - 3 / 5 / 2 ^ 52) - 11 / 10 / 2 ^ 47 : ℝ) ≤ L := by
    norm_num
    linarith [hn.1]
  have hLhi : (L : ℝ) ≤ 200 := by linarith [hn.2]
  have hLlo' : (252 * (693147180559945309 / 10 ^ 18) * (1 - 3 / 5 / 2 ^ 52) - 11 / 10 / 2 ^ 47 : ℚ) ≤ L := by
    have : ((252 * (693147180559945309 / 10 ^ 18) * (1 - 3 / 5 / 2 ^ 52) - 11 / 10 / 2 ^ 47 : ℚ) : ℝ) ≤ (L : ℝ) := by
      push_cast; exact hLlo
    exact (Rat.cast_le (K := ℝ)).1 this
  have hLhi' : L ≤ 200 := by exact_mod_cast hLhi
  have hLp : 0 < L := lt_of_lt_of_le (by norm_num) hLlo'
  rw [abs_of_pos (a := L / (6243314768165359 / 2 ^ 53)) (by positivity), abs_le] at hV2
  norm_num at hV2 hLlo'
  have hlo : ((252 * 2 ^ 60 - 49000 : Int) : ℚ) / 2 ^ 60 ≤ V := by
    norm_num
    linarith [hV2.1]
  have hb : |V| ≤ 2 ^ 12 := by
    rw [abs_le]
    norm_num
    constructor <;> linarith [hV2.1, hV2.2]
  have t1 : exponentFrom (dyadic (252 * 2 ^ 60 - 49000)) = 128 := by decide +kernel
  have g1 := est_ge_of hV hb (p := 252 * 2 ^ 60 - 49000) (by norm_num) (by
    have := (Rat.cast_le (K := ℝ)).2 hlo; push_cast at this ⊢; exact this)
  rw [t1] at g1
  omega

end Sedaman
