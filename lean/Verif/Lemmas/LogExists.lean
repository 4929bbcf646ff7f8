import Verif.Lemmas.LogReal
import Mathlib.Algebra.Order.Round

/-! # There are accurate logarithms -/

namespace Sedaman

open Spec

/-- Every real number of moderate size is close to a double. -/
theorem near_double {r : ℝ} (h1 : (2 : ℝ) ^ (-60 : Int) ≤ |r|) (h2 : |r| ≤ 2 ^ 12) :
    ∃ d y, dblRat d = some y ∧ |(y : ℝ) - r| ≤ 1 / 2 * (2 ^ 52)⁻¹ * |r| := by
  have h0 : 0 < |r| := lt_of_lt_of_le (by positivity) h1
  obtain ⟨n, n1, n2⟩ := exists_mem_Ico_zpow h0 (show (1 : ℝ) < 2 by norm_num)
  have hn1 : -61 < n := by
    have := (zpow_lt_zpow_iff_right₀ (show (1 : ℝ) < 2 by norm_num)).1 (lt_of_le_of_lt h1 n2)
    omega
  have hn2 : n ≤ 12 := by
    have : (2 : ℝ) ^ n ≤ 2 ^ (12 : Int) := le_trans n1 (h2.trans (by norm_num))
    exact (zpow_le_zpow_iff_right₀ (show (1 : ℝ) < 2 by norm_num)).1 this
  have hp : (0 : ℝ) < 2 ^ (n - 52) := by positivity
  set q : ℝ := |r| / 2 ^ (n - 52) with hq
  have hqr : |r| = q * 2 ^ (n - 52) := by rw [hq]; field_simp
  have q0 : 0 ≤ q := by positivity
  have q2 : q < 2 ^ 53 := by
    rw [hq, div_lt_iff₀ hp]
    have : (2 : ℝ) ^ 53 * 2 ^ (n - 52) = 2 ^ (n + 1) := by
      rw [← zpow_natCast, ← zpow_add₀ (by norm_num)]; congr 1; push_cast; omega
    rw [this]; exact n2
  have q1 : 2 ^ 52 ≤ q := by
    rw [hq, le_div_iff₀ hp]
    have : (2 : ℝ) ^ 52 * 2 ^ (n - 52) = 2 ^ n := by
      rw [← zpow_natCast, ← zpow_add₀ (by norm_num)]; congr 1; push_cast; omega
    rw [this]; exact n1
  -- the significand
  have hr := abs_sub_round q
  have m0 : 0 ≤ round q := by
    by_contra hc
    have : (round q : ℝ) ≤ -1 := by exact_mod_cast (by omega : round q ≤ -1)
    rw [abs_le] at hr
    linarith [hr.2]
  obtain ⟨m, hm⟩ := Int.eq_ofNat_of_zero_le m0
  rw [hm] at hr
  simp only [Int.cast_natCast] at hr
  have hm53 : m ≤ 2 ^ 53 := by
    rw [abs_le] at hr
    have : (m : ℝ) < 2 ^ 53 + 1 := by linarith [hr.1]
    have : m < 2 ^ 53 + 1 := by exact_mod_cast this
    omega
  obtain ⟨d, y, hd, hy⟩ : ∃ (d : Dbl) (y : ℚ), dblRat d = some y ∧
      y = (if decide (r < 0) then -1 else 1) * ((m : ℚ) * 2 ^ (n - 52)) := by
    rcases Nat.lt_or_ge m (2 ^ 53) with hlt | hge
    · have hl : (m.log2 : Int) ≤ 53 := by
        have := log2_lt_of_lt hlt (by decide)
        omega
      obtain ⟨m', e', g1, g2⟩ := toDbl_exact (s := decide (r < 0)) (m := m) (e := n - 52) hlt (by omega) (by omega)
      exact ⟨_, _, Is.rat ⟨m', e', g1, g2⟩, rfl⟩
    · have he : m = 2 ^ 53 := by omega
      obtain ⟨m', e', g1, g2⟩ := toDbl_exact (s := decide (r < 0)) (m := 2 ^ 52) (e := n - 51) (by decide) (by omega)
        (by have : (2 ^ 52 : Nat).log2 = 52 := by decide +kernel
            omega)
      refine ⟨_, _, Is.rat ⟨m', e', g1, g2⟩, ?_⟩
      rw [he, show n - 51 = n - 52 + 1 by omega, zpow_add₀ (by norm_num)]
      norm_num
      ring_nf
  refine ⟨d, y, hd, ?_⟩
  have hyr : (y : ℝ) = (if decide (r < 0) then -1 else 1) * ((m : ℝ) * 2 ^ (n - 52)) := by
    rw [hy]
    by_cases h : r < 0 <;> simp [h]
  have habs : |(y : ℝ) - r| = |(m : ℝ) * 2 ^ (n - 52) - abs r| := by
    rw [hyr]
    by_cases h : r < 0
    · simp only [h, decide_true, if_true]
      rw [abs_of_neg h, ← abs_neg]
      congr 1; ring
    · simp only [h, decide_false, Bool.false_eq_true, if_false, one_mul]
      rw [abs_of_nonneg (not_lt.1 h)]
  rw [habs, hqr, ← sub_mul, abs_mul, abs_of_pos hp, abs_sub_comm]
  calc |q - m| * 2 ^ (n - 52) ≤ 1 / 2 * 2 ^ (n - 52) := mul_le_mul_of_nonneg_right hr hp.le
    _ ≤ 1 / 2 * (2 ^ 52)⁻¹ * (q * 2 ^ (n - 52)) := by
      have : (1 : ℝ) ≤ (2 ^ 52)⁻¹ * q := by
        rw [inv_mul_eq_div, le_div_iff₀ (by norm_num), one_mul]
        exact q1
      nlinarith

/-- The logarithm of a double other than 1 is not too small. -/
theorem log_large {d : Dbl} {x : ℚ} (hd : dblRat d = some x) (hx : 0 < x) (h1 : x ≠ 1) :
    (2 : ℝ) ^ (-60 : Int) ≤ |Real.log x| := by
  have hxr : (0 : ℝ) < x := by exact_mod_cast hx
  have key : (2 ^ 55)⁻¹ ≤ |Real.log x| := by
    rcases le_or_gt x (1 / 2) with hs | hs
    · have hs' : (x : ℝ) ≤ 1 / 2 := by
        have := (Rat.cast_le (K := ℝ)).2 hs
        push_cast at this
        exact this
      have := Real.log_le_sub_one_of_pos hxr
      rw [abs_of_neg (by linarith)]
      have : ((2 : ℝ) ^ 55)⁻¹ ≤ 1 / 2 := by norm_num
      linarith
    rcases le_or_gt 2 x with hb | hb
    · have hb' : (2 : ℝ) ≤ x := by exact_mod_cast hb
      have := Real.one_sub_inv_le_log_of_pos hxr
      have h2 : (x : ℝ)⁻¹ ≤ 2⁻¹ := inv_anti₀ (by norm_num) hb'
      norm_num at h2
      rw [abs_of_nonneg (by linarith)]
      have : ((2 : ℝ) ^ 55)⁻¹ ≤ 1 / 2 := by norm_num
      linarith
    obtain ⟨s, n, g, b1, b2, b3⟩ := dblRat_bounds hd
    have hp : (0 : ℚ) ≤ (n : ℚ) * 2 ^ g := by positivity
    cases s
    case true => simp only [if_true] at b3; linarith
    simp only [Bool.false_eq_true, if_false, one_mul] at b3
    have hg : -53 ≤ g := by
      by_contra hc
      have h1 : (n : ℚ) * 2 ^ g < 2 ^ (53 : Int) * 2 ^ g := by
        apply mul_lt_mul_of_pos_right _ (by positivity)
        have : (n : ℚ) < ((2 ^ 53 : Nat) : ℚ) := Nat.cast_lt.mpr b1
        calc (n : ℚ) < ((2 ^ 53 : Nat) : ℚ) := this
          _ = _ := by norm_num
      rw [← zpow_add₀ (by norm_num)] at h1
      have h2 : (2 : ℚ) ^ (53 + g) ≤ 2 ^ (-1 : Int) := zpow_le_zpow_right₀ (by norm_num) (by omega)
      rw [← b3] at h1
      norm_num at h2
      linarith
    obtain ⟨j, hj⟩ := Int.eq_ofNat_of_zero_le (a := g + 53) (by omega)
    have hy' : x * 2 ^ 53 = ((n * 2 ^ j : Nat) : ℚ) := by
      have : g = (j : Int) - 53 := by omega
      rw [b3, this, zpow_sub₀ (by norm_num), zpow_natCast]
      push_cast
      norm_num
      ring
    generalize n * 2 ^ j = N at hy'
    have hN : N ≠ 2 ^ 53 := by
      rintro rfl
      apply h1
      have : (x - 1) * 2 ^ 53 = 0 := by rw [sub_mul, hy']; norm_num
      have := (mul_eq_zero.1 this).resolve_right (by norm_num)
      linarith
    have hyr : (x : ℝ) * 2 ^ 53 = (N : ℝ) := by exact_mod_cast hy'
    rcases Nat.lt_or_gt_of_ne hN with hl | hl
    · have : (N : ℝ) + 1 ≤ 2 ^ 53 := by exact_mod_cast hl
      have hlog := Real.log_le_sub_one_of_pos hxr
      have hx1 : (x : ℝ) ≤ 1 - (2 ^ 53)⁻¹ := by
        rw [← hyr] at this
        norm_num at this ⊢
        linarith
      have : ((2 : ℝ) ^ 55)⁻¹ ≤ (2 ^ 53)⁻¹ := by norm_num
      rw [abs_of_neg (by norm_num at hx1; linarith)]
      linarith
    · have : (2 : ℝ) ^ 53 + 1 ≤ N := by exact_mod_cast hl
      have hlog := Real.one_sub_inv_le_log_of_pos hxr
      have hb' : (x : ℝ) < 2 := by exact_mod_cast hb
      have hx1 : 1 + (2 ^ 53)⁻¹ ≤ (x : ℝ) := by
        rw [← hyr] at this
        norm_num at this ⊢
        linarith
      have h3 : (2 ^ 55)⁻¹ ≤ 1 - (x : ℝ)⁻¹ := by
        rw [inv_eq_one_div (x : ℝ), one_sub_div hxr.ne', le_div_iff₀ hxr]
        norm_num at hx1 ⊢
        linarith
      have h4 : (0 : ℝ) ≤ (2 ^ 55)⁻¹ := by positivity
      rw [abs_of_nonneg (by linarith)]
      linarith
  refine le_trans ?_ key
  norm_num

/-- The logarithm of a double is not too large. -/
theorem log_small {d : Dbl} {x : ℚ} (hd : dblRat d = some x) (hx : 0 < x) : |Real.log x| ≤ 2 ^ 12 := by
  unfold dblRat ratOf at hd
  split at hd
  case h_2 => cases hd
  rename_i s m e hv
  obtain ⟨b1, b2, b3⟩ := dbl_fin_bounds hv
  simp only [Option.some.injEq] at hd
  have hp : (0 : ℚ) ≤ (m : ℚ) * 2 ^ e := by positivity
  cases s
  case true => simp only [if_true] at hd; linarith
  simp only [Bool.false_eq_true, if_false, one_mul] at hd
  have hm : 1 ≤ m := by
    rcases Nat.eq_zero_or_pos m with rfl | h
    · simp at hd; linarith
    · exact h
  have hxr : (x : ℝ) = (m : ℝ) * 2 ^ e := by rw [← hd]; push_cast; rfl
  have hm1 : (1 : ℝ) ≤ m := by exact_mod_cast hm
  have hm2 : (m : ℝ) ≤ 2 ^ (53 : Int) := by
    have : (m : ℝ) ≤ ((2 ^ 53 : Nat) : ℝ) := by exact_mod_cast b1.le
    calc (m : ℝ) ≤ ((2 ^ 53 : Nat) : ℝ) := this
      _ = _ := by norm_num
  obtain ⟨l1, l2⟩ := ln2_bounds
  have hlog : Real.log x = Real.log m + e * Real.log 2 := by
    rw [hxr, Real.log_mul (by positivity) (by positivity), Real.log_zpow]
  have hlm1 : 0 ≤ Real.log m := Real.log_nonneg hm1
  have hlm2 : Real.log m ≤ 53 * Real.log 2 := by
    have := Real.log_le_log (by positivity) hm2
    rw [Real.log_zpow] at this
    push_cast at this
    exact this
  have e1 : (-1074 : ℝ) ≤ e := by exact_mod_cast b2
  have e2 : (e : ℝ) ≤ 971 := by exact_mod_cast b3
  rw [hlog, abs_le]
  constructor
  · nlinarith
  · nlinarith

theorem accurate_exists : ∃ log, AccurateLog log := by
  have hr : dblRat 0x4000000000000000 = some 2 := by
    have h : Dbl.val 0x4000000000000000 = .fin false (2 ^ 52) (-51) := by decide +kernel
    unfold dblRat; rw [h]; simp [ratOf]; norm_num
  have hc : dblRat 0x3FE62E42FEFA39EF = some (6243314768165359 / 2 ^ 53) := by
    have h : Dbl.val 0x3FE62E42FEFA39EF = .fin false 6243314768165359 (-53) := by decide +kernel
    unfold dblRat; rw [h]; simp [ratOf]; norm_num
  have h0 : dblRat 0 = some 0 := by
    have h : Dbl.val 0 = .fin false 0 (-1074) := by decide +kernel
    unfold dblRat; rw [h]; simp [ratOf]
  have key : ∀ d : Dbl, ∃ c : Dbl, (∀ x, dblRat d = some x → 0 < x → ∃ y, dblRat c = some y ∧
      |(y : ℝ) - Real.log x| ≤ 3 / 5 * (2 ^ 52)⁻¹ * |Real.log x|) ∧
      (d = 0x4000000000000000 → ∀ y, dblRat c = some y → |(y : ℝ) - Real.log 2| ≤ (2 ^ 54)⁻¹) := by
    intro d
    have c := ln2_close
    obtain ⟨l1, l2⟩ := ln2_bounds
    by_cases h2 : d = 0x4000000000000000
    · refine ⟨0x3FE62E42FEFA39EF, fun x hx _ => ⟨_, hc, ?_⟩, fun _ y hy => ?_⟩
      · rw [h2, hr] at hx
        have hx := Option.some.inj hx
        rw [← hx, abs_sub_comm]
        push_cast
        rw [abs_of_pos (a := Real.log 2) (by linarith)]
        norm_num at c ⊢
        linarith
      · rw [hc] at hy
        have hy := Option.some.inj hy
        rw [← hy, abs_sub_comm]
        push_cast
        norm_num at c ⊢
        linarith
    by_cases hx : ∃ x, dblRat d = some x ∧ 0 < x
    · obtain ⟨x, hx, hp⟩ := hx
      by_cases h1 : x = 1
      · refine ⟨0, fun x' hx' _ => ⟨0, h0, ?_⟩, fun h => absurd h h2⟩
        rw [hx] at hx'
        have := Option.some.inj hx'
        rw [← this, h1]
        simp
      · obtain ⟨c, y, hy, hn⟩ := near_double (log_large hx hp h1) (log_small hx hp)
        refine ⟨c, fun x' hx' _ => ⟨y, hy, ?_⟩, fun h => absurd h h2⟩
        rw [hx] at hx'
        have := Option.some.inj hx'
        rw [← this]
        refine hn.trans (mul_le_mul_of_nonneg_right (by norm_num) (abs_nonneg _))
    · exact ⟨0, fun x hx' hp => absurd ⟨x, hx', hp⟩ hx, fun h => absurd h h2⟩
  choose log hlog using key
  exact ⟨log, ⟨fun d x hx hp => (hlog d).1 x hx hp, fun y hy => (hlog _).2 rfl y hy⟩⟩

end Sedaman
