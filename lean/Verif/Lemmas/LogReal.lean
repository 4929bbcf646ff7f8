import Verif.Spec.LogLib
import Verif.Lemmas.LogLib
import Mathlib.Analysis.SpecialFunctions.Log.Deriv
import Mathlib.Analysis.SpecialFunctions.Log.Base

/-! # Lemmas about accurate logarithms -/

namespace Sedaman

open Spec Finset

theorem ln2_close : |Real.log 2 - 6243314768165359 / 2 ^ 53| ≤ 31 / 100 * (2 ^ 53)⁻¹ * (69 / 100) := by
  have t : |(2⁻¹ : ℝ)| = 2⁻¹ := by rw [abs_of_pos]; norm_num
  have z := Real.abs_log_sub_add_sum_range_le (show |(2⁻¹ : ℝ)| < 1 by rw [t]; norm_num) 62
  rw [t] at z
  norm_num1 at z
  rw [one_div (2 : ℝ), Real.log_inv, ← sub_eq_add_neg, abs_sub_comm] at z
  have key := abs_sub_le (Real.log 2) (∑ i ∈ range 62, (2⁻¹ : ℝ) ^ (i + 1) / (i + 1)) (6243314768165359 / 2 ^ 53)
  have h2 : |(∑ i ∈ range 62, (2⁻¹ : ℝ) ^ (i + 1) / (i + 1)) - 6243314768165359 / 2 ^ 53|
      ≤ 31 / 100 * (2 ^ 53)⁻¹ * (69 / 100) - 1 / 2 ^ 62 := by
    simp_rw [sum_range_succ]
    norm_num
  norm_num at z key h2 ⊢
  linarith

theorem ln2_bounds : (69 / 100 : ℝ) < Real.log 2 ∧ Real.log 2 < 70 / 100 := by
  have := ln2_close
  rw [abs_le] at this
  norm_num at this
  constructor <;> linarith

/-- The double that an accurate `log(2)` is. -/
theorem Spec.AccurateLog.two_eq {log : Dbl → Dbl} (h : AccurateLog log) :
    dblRat (log (dblOfInt 2)) = some (6243314768165359 / 2 ^ 53) := by
  have h2 : dblOfInt 2 = 0x4000000000000000 := by decide +kernel
  have hr : dblRat 0x4000000000000000 = some 2 := by
    have h : Dbl.val 0x4000000000000000 = .fin false (2 ^ 52) (-51) := by decide +kernel
    unfold dblRat; rw [h]; simp [ratOf]; norm_num
  obtain ⟨y, hy, _⟩ := h.near _ _ hr (by norm_num)
  have hn := h.two y hy
  rw [h2, hy]
  congr 1
  obtain ⟨s, n, g, b1, b2, b3⟩ := dblRat_bounds hy
  have c := ln2_close
  rw [abs_le] at c hn
  norm_num at c hn
  have hlo : (1 / 2 : ℝ) < y := by linarith
  have hlo : (1 / 2 : ℚ) < y := by
    have : ((1 / 2 : ℚ) : ℝ) < (y : ℝ) := by push_cast; exact hlo
    exact_mod_cast this
  have hp : (0 : ℚ) ≤ (n : ℚ) * 2 ^ g := by positivity
  cases s
  case true => simp only [if_true] at b3; linarith
  simp only [Bool.false_eq_true, if_false, one_mul] at b3
  have hg : -53 ≤ g := by
    by_contra hc
    have h1 : (n : ℚ) * 2 ^ g < 2 ^ (53 : Int) * 2 ^ g := by
      apply mul_lt_mul_of_pos_right _ (by positivity)
      have : (n : ℚ) < ((2 ^ 53 : Nat) : ℚ) := Nat.cast_lt.mpr b1
      calc (n : ℚ) < ((2 ^ 53 : Nat) : ℚ) := this
        _ = _ := by norm_num
    rw [← zpow_add₀ (by norm_num)] at h1
    have h2 : (2 : ℚ) ^ (53 + g) ≤ 2 ^ (-1 : Int) := zpow_le_zpow_right₀ (by norm_num) (by omega)
    rw [← b3] at h1
    norm_num at h2
    linarith
  obtain ⟨j, hj⟩ := Int.eq_ofNat_of_zero_le (a := g + 53) (by omega)
  have hy' : y * 2 ^ 53 = ((n * 2 ^ j : Nat) : ℚ) := by
    have : g = (j : Int) - 53 := by omega
    rw [b3, this, zpow_sub₀ (by norm_num), zpow_natCast]
    push_cast
    have : (2 : ℚ) ^ (53 : Int) = 2 ^ 53 := by norm_num
    norm_num
    ring
  generalize n * 2 ^ j = N at hy'
  have hyr : (y : ℝ) * 2 ^ 53 = (N : ℝ) := by exact_mod_cast hy'
  have e1 : (N : ℝ) < 6243314768165359 + 1 := by rw [← hyr]; norm_num; linarith
  have e2 : (6243314768165359 : ℝ) - 1 < N := by rw [← hyr]; norm_num; linarith
  have e1 : N < 6243314768165359 + 1 := by exact_mod_cast e1
  have e2 : 6243314768165359 < N + 1 := by
    have : (6243314768165359 : ℝ) < (N : ℝ) + 1 := by linarith
    exact_mod_cast this
  have : N = 6243314768165359 := by omega
  rw [this] at hy'
  rw [eq_div_iff (by norm_num), hy']
  norm_num

/-- The quotient of the two logarithms, before it is rounded, is close to the binary logarithm. -/
theorem Spec.AccurateLog.quotient {log : Dbl → Dbl} (h : AccurateLog log) {a : Dbl} {x : ℚ} (ha : dblRat a = some x)
    (hx : 0 < x) : ∃ V, ratOf ((log a).val.div (log (dblOfInt 2)).val) = some V ∧
      |(V : ℝ) - Real.logb 2 x| ≤ 197 / 2 ^ 60 * |Real.logb 2 x| := by
  obtain ⟨L, hL, hn⟩ := h.near a x ha hx
  have hC := h.two_eq
  obtain ⟨V, hV, hV2⟩ := div_approx hL hC (by norm_num)
  refine ⟨V, hV, ?_⟩
  have hV2 : |(V : ℝ) - L / (6243314768165359 / 2 ^ 53)| ≤ |(L : ℝ) / (6243314768165359 / 2 ^ 53)| / 2 ^ 64 := by
    have := (Rat.cast_le (K := ℝ)).2 hV2
    push_cast at this
    exact this
  obtain ⟨l1, l2⟩ := ln2_bounds
  have c := ln2_close
  have hlg : Real.log x = Real.logb 2 x * Real.log 2 := by
    rw [Real.logb, div_mul_cancel₀ _ (by linarith)]
  rw [hlg, abs_mul, abs_of_pos (a := Real.log 2) (by linarith)] at hn
  generalize Real.logb 2 x = g at *
  generalize Real.log 2 = l at *
  generalize hCC : (6243314768165359 / 2 ^ 53 : ℝ) = C at *
  have hC1 : (69 / 100 : ℝ) < C := by rw [← hCC]; norm_num
  have hC0 : (0 : ℝ) < C := by linarith
  -- in units of `|g| / 2^53`
  have k1 : |(L : ℝ) - g * C| ≤ (12 / 10 * l + 31 / 100 * (69 / 100)) * (2 ^ 53)⁻¹ * |g| := by
    have e1 : (L : ℝ) - g * C = (L - g * l) + g * (l - C) := by ring
    have e2 := abs_add_le ((L : ℝ) - g * l) (g * (l - C))
    rw [← e1, abs_mul] at e2
    have e3 : |g| * |l - C| ≤ |g| * (31 / 100 * (2 ^ 53)⁻¹ * (69 / 100)) :=
      mul_le_mul_of_nonneg_left c (abs_nonneg g)
    have e4 : (3 / 5 * (2 ^ 52)⁻¹ * (|g| * l) : ℝ) = 12 / 10 * l * (2 ^ 53)⁻¹ * |g| := by ring
    linarith
  have k2 : |(L : ℝ) / C - g| ≤ (12 / 10 * (1 + 1 / 10 ^ 6) + 31 / 100) * (2 ^ 53)⁻¹ * |g| := by
    have e1 : (L : ℝ) / C - g = (L - g * C) / C := by field_simp
    rw [e1, abs_div, abs_of_pos hC0, div_le_iff₀ hC0]
    refine k1.trans ?_
    have hl : l ≤ C * (1 + 1 / 10 ^ 6) := by
      rw [abs_le] at c
      have : (31 / 100 * (2 ^ 53)⁻¹ * (69 / 100) : ℝ) ≤ 1 / 2 * (1 / 10 ^ 6) := by norm_num
      nlinarith
    have hg : (0 : ℝ) ≤ (2 ^ 53)⁻¹ * |g| := by positivity
    have : (12 / 10 * l + 31 / 100 * (69 / 100)) ≤ (12 / 10 * (1 + 1 / 10 ^ 6) + 31 / 100) * C := by nlinarith
    calc (12 / 10 * l + 31 / 100 * (69 / 100)) * (2 ^ 53)⁻¹ * |g|
        = (12 / 10 * l + 31 / 100 * (69 / 100)) * ((2 ^ 53)⁻¹ * |g|) := by ring
      _ ≤ (12 / 10 * (1 + 1 / 10 ^ 6) + 31 / 100) * C * ((2 ^ 53)⁻¹ * |g|) := mul_le_mul_of_nonneg_right this hg
      _ = _ := by ring
  have k3 : |(L : ℝ) / C| ≤ 2 * |g| := by
    have e1 := abs_add_le ((L : ℝ) / C - g) g
    rw [sub_add_cancel] at e1
    have : ((12 / 10 * (1 + 1 / 10 ^ 6) + 31 / 100) * (2 ^ 53)⁻¹ * |g| : ℝ) ≤ 1 * |g| :=
      mul_le_mul_of_nonneg_right (by norm_num) (abs_nonneg g)
    linarith
  have k4 := abs_sub_le (V : ℝ) (L / C) g
  have k5 : |(L : ℝ) / C| / 2 ^ 64 ≤ 2 * |g| / 2 ^ 64 := div_le_div_of_nonneg_right k3 (by norm_num)
  have k6 : 2 * |g| / 2 ^ 64 + (12 / 10 * (1 + 1 / 10 ^ 6) + 31 / 100) * (2 ^ 53)⁻¹ * |g| ≤ 197 / 2 ^ 60 * |g| := by
    have : (2 / 2 ^ 64 + (12 / 10 * (1 + 1 / 10 ^ 6) + 31 / 100) * (2 ^ 53)⁻¹ : ℝ) ≤ 197 / 2 ^ 60 := by norm_num
    have := mul_le_mul_of_nonneg_right this (abs_nonneg g)
    linarith
  linarith

/-! ## Points between which the estimate is known -/

/-- The number `p / 2^60`. -/
def dyadic (p : Int) : FVal := .fin (decide (p < 0)) p.natAbs (-60)

theorem dyadic_rat (p : Int) : ratOf (dyadic p) = some ((p : ℚ) / 2 ^ 60) := by
  unfold dyadic ratOf
  simp only [Option.some.injEq]
  have e1 : (2 : ℚ) ^ (-60 : Int) = 1 / 2 ^ 60 := by norm_num
  rw [e1]
  by_cases h : p < 0
  · have : ((p.natAbs : Nat) : ℚ) = -(p : ℚ) := by
      have : ((p.natAbs : Int) : ℚ) = ((-p : Int) : ℚ) := by rw [show (p.natAbs : Int) = -p by omega]
      rw [Int.cast_natCast, Int.cast_neg] at this
      exact this
    rw [this]
    simp [h]
    ring
  · have : ((p.natAbs : Nat) : ℚ) = (p : ℚ) := by
      have : ((p.natAbs : Int) : ℚ) = (p : ℚ) := by rw [show (p.natAbs : Int) = p by omega]
      rw [Int.cast_natCast] at this
      exact this
    rw [this]
    simp [h]
    ring

/-- Just below `4 k`, by the error of the quotient. -/
def lowPoint (k : Int) : Int := 4 * k * 2 ^ 60 - 197 * (4 * k).natAbs

/-- Just above `4 k`, by the error of the quotient. -/
def highPoint (k : Int) : Int := 4 * k * 2 ^ 60 + 197 * (4 * k).natAbs

theorem low_table : ∀ i : Nat, i < 94 → exponentFrom (dyadic (lowPoint ((i : Int) - 31))) = (i : Int) - 31 + 65 := by
  decide +kernel

theorem high_table : ∀ i : Nat, i < 128 → exponentFrom (dyadic (highPoint ((i : Int) - 64))) = (i : Int) - 64 + 65 := by
  decide +kernel

theorem above_table : ∀ i : Nat, i < 128 →
    exponentFrom (dyadic (4 * ((i : Int) - 65) * 2 ^ 60 + 2 ^ 35)) = (i : Int) - 65 + 65 := by
  decide +kernel

theorem below_table : ∀ i : Nat, i < 128 →
    exponentFrom (dyadic (4 * ((i : Int) - 64) * 2 ^ 60 - 2 ^ 35)) = (i : Int) - 64 + 64 := by
  decide +kernel

theorem logb_two (n : Int) : Real.logb 2 ((2 : ℝ) ^ n) = n := by
  have h : Real.log 2 ≠ 0 := by have := ln2_bounds.1; linarith
  rw [Real.logb, Real.log_zpow, mul_div_cancel_right₀ _ h]

theorem logb_ge {x : ℚ} {k : Int} (h : (16 : ℚ) ^ k ≤ x) : (4 * k : ℝ) ≤ Real.logb 2 x := by
  have h1 : ((2 : ℝ) ^ (4 * k)) ≤ (x : ℝ) := by
    have : (((2 : ℚ) ^ (4 * k) : ℚ) : ℝ) ≤ (x : ℝ) := by
      rw [← sixteen_zpow]; exact_mod_cast h
    push_cast at this
    exact this
  have h2 := Real.logb_le_logb_of_le (b := 2) (by norm_num) (by positivity) h1
  rw [logb_two] at h2
  push_cast at h2
  linarith

theorem logb_lt {x : ℚ} {k : Int} (h0 : 0 < x) (h : x < (16 : ℚ) ^ k) : Real.logb 2 x < (4 * k : ℝ) := by
  have h1 : (x : ℝ) < ((2 : ℝ) ^ (4 * k)) := by
    have : (x : ℝ) < (((2 : ℚ) ^ (4 * k) : ℚ) : ℝ) := by
      rw [← sixteen_zpow]; exact_mod_cast h
    push_cast at this
    exact this
  have h2 := Real.logb_lt_logb (b := 2) (by norm_num) (by exact_mod_cast h0) h1
  rw [logb_two] at h2
  push_cast at h2
  linarith

/-- A number a little above a power of 16. -/
theorem logb_above {x : ℚ} {k : Int} (h : (16 : ℚ) ^ k * (1 + 1 / 2 ^ 24) ≤ x) :
    (4 * k : ℝ) + 1 / 2 ^ 24 ≤ Real.logb 2 x := by
  have h1 : ((2 : ℝ) ^ (4 * k)) * (1 + 1 / 2 ^ 24) ≤ (x : ℝ) := by
    have : (((2 : ℚ) ^ (4 * k) * (1 + 1 / 2 ^ 24) : ℚ) : ℝ) ≤ (x : ℝ) := by
      rw [← sixteen_zpow]; exact_mod_cast h
    push_cast at this
    exact this
  have h2 := Real.logb_le_logb_of_le (b := 2) (by norm_num) (by positivity) h1
  rw [Real.logb_mul (by positivity) (by positivity), logb_two] at h2
  have h3 : (1 / 2 ^ 24 : ℝ) ≤ Real.logb 2 (1 + 1 / 2 ^ 24) := by
    obtain ⟨l1, l2⟩ := ln2_bounds
    rw [Real.logb, le_div_iff₀ (by linarith)]
    have h4 := Real.one_sub_inv_le_log_of_pos (x := (1 + 1 / 2 ^ 24 : ℝ)) (by positivity)
    refine le_trans ?_ h4
    norm_num
    linarith
  push_cast at h2
  linarith

/-- A number a little below a power of 16. -/
theorem logb_below {x : ℚ} {k : Int} (h0 : 0 < x) (h : x ≤ (16 : ℚ) ^ k * (1 - 1 / 2 ^ 24)) :
    Real.logb 2 x ≤ (4 * k : ℝ) - 1 / 2 ^ 24 := by
  have h1 : (x : ℝ) ≤ ((2 : ℝ) ^ (4 * k)) * (1 - 1 / 2 ^ 24) := by
    have : (x : ℝ) ≤ (((2 : ℚ) ^ (4 * k) * (1 - 1 / 2 ^ 24) : ℚ) : ℝ) := by
      rw [← sixteen_zpow]; exact_mod_cast h
    push_cast at this
    exact this
  have h2 := Real.logb_le_logb_of_le (b := 2) (by norm_num) (by exact_mod_cast h0) h1
  have hp : (0 : ℝ) < 1 - 1 / 2 ^ 24 := by norm_num
  rw [Real.logb_mul (by positivity) hp.ne', logb_two] at h2
  have h3 : Real.logb 2 (1 - 1 / 2 ^ 24) ≤ -(1 / 2 ^ 24 : ℝ) := by
    obtain ⟨l1, l2⟩ := ln2_bounds
    rw [Real.logb, div_le_iff₀ (by linarith)]
    have h4 := Real.log_le_sub_one_of_pos hp
    refine le_trans h4 ?_
    norm_num
    linarith
  push_cast at h2
  linarith

/-- The quotient of a number in the range of IBM floats. -/
theorem Spec.AccurateLog.range {log : Dbl → Dbl} (h : AccurateLog log) {a : Dbl} {x : ℚ} (ha : dblRat a = some x)
    (h1 : (16 : ℚ) ^ (-65 : Int) ≤ x) (h2 : x < (16 : ℚ) ^ (63 : Int)) :
    ∃ V, ratOf ((log a).val.div (log (dblOfInt 2)).val) = some V ∧ |V| ≤ 2 ^ 12 ∧
      |(V : ℝ) - Real.logb 2 x| ≤ 197 / 2 ^ 60 * |Real.logb 2 x| ∧ |Real.logb 2 x| ≤ 260 := by
  have hx : 0 < x := lt_of_lt_of_le (by positivity) h1
  obtain ⟨V, hV, hV2⟩ := h.quotient ha hx
  have g1 := logb_ge h1
  have g2 := logb_lt hx h2
  have g3 : |Real.logb 2 x| ≤ 260 := by
    rw [abs_le]
    push_cast at g1 g2
    constructor <;> linarith
  refine ⟨V, hV, ?_, hV2, g3⟩
  have : |(V : ℝ)| ≤ 2 ^ 12 := by
    have := abs_add_le ((V : ℝ) - Real.logb 2 x) (Real.logb 2 x)
    rw [sub_add_cancel] at this
    have : (197 / 2 ^ 60 * |Real.logb 2 x| : ℝ) ≤ 1 * |Real.logb 2 x| :=
      mul_le_mul_of_nonneg_right (by norm_num) (abs_nonneg _)
    norm_num
    linarith
  exact_mod_cast this

theorem point_small {p : Int} (h : |p| ≤ 2 ^ 70) : |(p : ℚ) / 2 ^ 60| ≤ 2 ^ 12 := by
  rw [abs_div, abs_of_pos (a := (2 : ℚ) ^ 60) (by norm_num), div_le_iff₀ (by norm_num)]
  have : ((|p| : Int) : ℚ) ≤ ((2 ^ 70 : Int) : ℚ) := by exact_mod_cast h
  push_cast at this
  refine this.trans (by norm_num)

theorem est_ge_of {log : Dbl → Dbl} {a : Dbl} {V : ℚ} (hV : ratOf ((log a).val.div (log (dblOfInt 2)).val) = some V)
    (hb : |V| ≤ 2 ^ 12) {p : Int} (hp : |p| ≤ 2 ^ 70) (h : ((p : ℝ) / 2 ^ 60) ≤ V) :
    exponentFrom (dyadic p) ≤ ibmEstimate log a := by
  apply exponentFrom_mono (dyadic_rat p) hV (point_small hp) hb
  have : (((p : ℚ) / 2 ^ 60 : ℚ) : ℝ) ≤ (V : ℝ) := by push_cast; exact h
  exact_mod_cast this

theorem est_le_of {log : Dbl → Dbl} {a : Dbl} {V : ℚ} (hV : ratOf ((log a).val.div (log (dblOfInt 2)).val) = some V)
    (hb : |V| ≤ 2 ^ 12) {p : Int} (hp : |p| ≤ 2 ^ 70) (h : (V : ℝ) ≤ ((p : ℝ) / 2 ^ 60)) :
    ibmEstimate log a ≤ exponentFrom (dyadic p) := by
  apply exponentFrom_mono hV (dyadic_rat p) hb (point_small hp)
  have : (V : ℝ) ≤ (((p : ℚ) / 2 ^ 60 : ℚ) : ℝ) := by push_cast; exact h
  exact_mod_cast this

theorem natAbs_real (k : Int) : (((4 * k).natAbs : Nat) : ℝ) = |(4 * k : ℝ)| := by
  have : (((4 * k).natAbs : Nat) : ℝ) = (|4 * k| : Int) := by rw [Int.abs_eq_natAbs, Int.cast_natCast]
  rw [this]
  push_cast
  rfl

/-- The estimate is never too low, for numbers of at least `16^-31`. -/
theorem est_low {log : Dbl → Dbl} (h : AccurateLog log) {a : Dbl} {x : ℚ} (ha : dblRat a = some x) {k : Int}
    (hk : -31 ≤ k) (hk' : k ≤ 62) (h1 : (16 : ℚ) ^ k ≤ x) (h2 : x < (16 : ℚ) ^ (63 : Int)) :
    k + 65 ≤ ibmEstimate log a := by
  obtain ⟨V, hV, hb, hV2, hg⟩ := h.range ha
    (le_trans (zpow_le_zpow_right₀ (by norm_num) (by omega)) h1) h2
  have hl := logb_ge h1
  have ht := low_table (k + 31).toNat (by omega)
  rw [show (((k + 31).toNat : Nat) : Int) - 31 = k by omega] at ht
  rw [← ht]
  apply est_ge_of hV hb
  · unfold lowPoint
    rw [abs_le]; constructor <;> omega
  unfold lowPoint
  push_cast
  have hn := natAbs_real k
  have e1 : ((((4 * k).natAbs : Nat) : Int) : ℝ) = |(4 * k : ℝ)| := by rw [Int.cast_natCast, hn]
  have e2 : (4 * (k : ℝ) * 2 ^ 60 - 197 * |4 * (k : ℝ)|) / 2 ^ 60 = 4 * k - 197 / 2 ^ 60 * |4 * (k : ℝ)| := by ring
  have goal : 4 * (k : ℝ) - 197 / 2 ^ 60 * |4 * (k : ℝ)| ≤ V := by
    generalize Real.logb 2 x = g at *
    generalize 4 * (k : ℝ) = c at *
    rw [abs_le] at hV2
    rcases abs_cases g with ⟨g1, g2⟩ | ⟨g1, g2⟩ <;> rcases abs_cases c with ⟨c1, c2⟩ | ⟨c1, c2⟩ <;>
      rw [g1] at hV2 <;> rw [c1] <;> norm_num at hV2 ⊢ <;> linarith
  norm_num at goal ⊢
  linarith

/-- The estimate is too high by one at most. -/
theorem est_high {log : Dbl → Dbl} (h : AccurateLog log) {a : Dbl} {x : ℚ} (ha : dblRat a = some x) {k : Int}
    (hk : -64 ≤ k) (hk' : k ≤ 63) (h1 : (16 : ℚ) ^ (-65 : Int) ≤ x) (h2 : x < (16 : ℚ) ^ k) :
    ibmEstimate log a ≤ k + 65 := by
  obtain ⟨V, hV, hb, hV2, hg⟩ := h.range ha h1 (lt_of_lt_of_le h2 (zpow_le_zpow_right₀ (by norm_num) (by omega)))
  have hl := logb_lt (lt_of_lt_of_le (by positivity) h1) h2
  have ht := high_table (k + 64).toNat (by omega)
  rw [show (((k + 64).toNat : Nat) : Int) - 64 = k by omega] at ht
  rw [← ht]
  apply est_le_of hV hb
  · unfold highPoint
    rw [abs_le]; constructor <;> omega
  unfold highPoint
  push_cast
  have hn := natAbs_real k
  have e1 : ((((4 * k).natAbs : Nat) : Int) : ℝ) = |(4 * k : ℝ)| := by rw [Int.cast_natCast, hn]
  have e2 : (4 * (k : ℝ) * 2 ^ 60 + 197 * |4 * (k : ℝ)|) / 2 ^ 60 = 4 * k + 197 / 2 ^ 60 * |4 * (k : ℝ)| := by ring
  have goal : (V : ℝ) ≤ 4 * (k : ℝ) + 197 / 2 ^ 60 * |4 * (k : ℝ)| := by
    generalize Real.logb 2 x = g at *
    generalize 4 * (k : ℝ) = c at *
    rw [abs_le] at hV2
    rcases abs_cases g with ⟨g1, g2⟩ | ⟨g1, g2⟩ <;> rcases abs_cases c with ⟨c1, c2⟩ | ⟨c1, c2⟩ <;>
      rw [g1] at hV2 <;> rw [c1] <;> norm_num at hV2 ⊢ <;> linarith
  norm_num at goal ⊢
  linarith

/-- The estimate is not too low for numbers that are not too close to a power of 16. -/
theorem est_above {log : Dbl → Dbl} (h : AccurateLog log) {a : Dbl} {x : ℚ} (ha : dblRat a = some x) {k : Int}
    (hk : -65 ≤ k) (hk' : k ≤ 62) (h1 : (16 : ℚ) ^ k * (1 + 1 / 2 ^ 24) ≤ x) (h2 : x < (16 : ℚ) ^ (63 : Int)) :
    k + 65 ≤ ibmEstimate log a := by
  have h0 : (16 : ℚ) ^ k ≤ x := by
    have : (0 : ℚ) < 16 ^ k := by positivity
    linarith
  obtain ⟨V, hV, hb, hV2, hg⟩ := h.range ha
    (le_trans (zpow_le_zpow_right₀ (by norm_num) (by omega)) h0) h2
  have hl := logb_above h1
  have ht := above_table (k + 65).toNat (by omega)
  rw [show (((k + 65).toNat : Nat) : Int) - 65 = k by omega] at ht
  rw [← ht]
  apply est_ge_of hV hb
  · rw [abs_le]; constructor <;> omega
  push_cast
  rw [abs_le] at hV2
  norm_num at hl hV2 ⊢
  linarith

/-- The estimate is not too high for numbers that are not too close to a power of 16. -/
theorem est_below {log : Dbl → Dbl} (h : AccurateLog log) {a : Dbl} {x : ℚ} (ha : dblRat a = some x) {k : Int}
    (hk : -64 ≤ k) (hk' : k ≤ 63) (h1 : (16 : ℚ) ^ (-65 : Int) ≤ x) (h2 : x ≤ (16 : ℚ) ^ k * (1 - 1 / 2 ^ 24)) :
    ibmEstimate log a ≤ k + 64 := by
  have h0 : x < (16 : ℚ) ^ k := by
    have : (0 : ℚ) < 16 ^ k := by positivity
    linarith
  have hx : 0 < x := lt_of_lt_of_le (by positivity) h1
  obtain ⟨V, hV, hb, hV2, hg⟩ := h.range ha h1 (lt_of_lt_of_le h0 (zpow_le_zpow_right₀ (by norm_num) (by omega)))
  have hl := logb_below hx h2
  have ht := below_table (k + 64).toNat (by omega)
  rw [show (((k + 64).toNat : Nat) : Int) - 64 = k by omega] at ht
  rw [← ht]
  apply est_le_of hV hb
  · rw [abs_le]; constructor <;> omega
  push_cast
  rw [abs_le] at hV2
  norm_num at hl hV2 ⊢
  linarith

end Sedaman
