import Verif.Model.LogLib
import Verif.Lemmas.Round

/-! # Lemmas about the exponent estimate -/

namespace Sedaman

open Spec

theorem ratOf_fin (s : Bool) (m : Nat) (e : Int) : ratOf (.fin s m e) = some (ratS s m e) := by
  unfold ratOf ratS
  cases s <;> simp

theorem four_val : (dblOfInt 4).val = .fin false (2 ^ 52) (-50) := by decide +kernel
theorem one_val : (dblOfInt 1).val = .fin false (2 ^ 52) (-52) := by decide +kernel
theorem sixtyfour_val : (dblOfInt 64).val = .fin false (2 ^ 52) (-46) := by decide +kernel

/-- Division by four is exact before rounding. -/
theorem div_four {v : FVal} {x : ℚ} (h : ratOf v = some x) : ratOf (v.div (dblOfInt 4).val) = some (x / 4) := by
  rw [four_val]
  unfold ratOf at h
  split at h
  case h_2 => cases h
  rename_i s m e
  simp only [Option.some.injEq] at h
  have hl : Nat.log2 (2 ^ 52) = 52 := by decide
  have hq : m * 2 ^ (52 + 65) = (m * 2 ^ 65) * 2 ^ 52 := by rw [mul_assoc, ← pow_add]
  unfold FVal.div
  simp only [hl, hq, Nat.mul_mod_left, if_true, Nat.mul_div_cancel _ (Nat.two_pow_pos 52), ratOf,
    if_neg (show ¬ (2 ^ 52 = 0) by decide), Option.some.injEq]
  rw [← h]
  have e1 : e - -50 - ((52 + 65 : Nat) : Int) - 1 = e + (-68) := by omega
  rw [e1, zpow_add₀ (by norm_num)]
  have e2 : (2 : ℚ) ^ (-68 : Int) = 1 / 2 ^ 68 := by norm_num
  rw [e2]
  push_cast
  cases s <;> simp <;> ring

theorem add_rat {v w : FVal} {x y : ℚ} (h : ratOf v = some x) (h' : ratOf w = some y) :
    ratOf (v.add w) = some (x + y) := by
  cases v with
  | nan => cases h
  | inf _ => cases h
  | fin s m e =>
    cases w with
    | nan => cases h'
    | inf _ => cases h'
    | fin t n g =>
      rw [ratOf_fin] at h h'
      cases h
      cases h'
      obtain ⟨u, k, q, h1, h2, _⟩ := add_fin s t m n e g
      rw [h1, ratOf_fin, h2]

theorem one_rat : dblRat (dblOfInt 1) = some 1 := by
  unfold dblRat; rw [one_val]; simp [ratOf]; norm_num

theorem sixtyfour_rat : dblRat (dblOfInt 64) = some 64 := by
  unfold dblRat; rw [sixtyfour_val]; simp [ratOf]; norm_num

theorem bound_rat : ∃ d d', dblRat d = some (2 ^ 20) ∧ dblRat d' = some (-2 ^ 20) := by
  refine ⟨pow2 20, 0xC130000000000000, ?_, ?_⟩
  · have h : (pow2 20).val = .fin false (2 ^ 52) (-32) := by decide +kernel
    unfold dblRat; rw [h]; simp [ratOf]; norm_num
  · have h : Dbl.val 0xC130000000000000 = .fin true (2 ^ 52) (-32) := by decide +kernel
    unfold dblRat; rw [h]; simp [ratOf]; norm_num

theorem tame_of {x : ℚ} (h : |x| ≤ 2 ^ 21) : Tame x := le_trans h (by norm_num)

/-- Rounding keeps order and the bound `2^20`. -/
theorem round_step {v w : FVal} {x x' : ℚ} (hv : ratOf v = some x) (hw : ratOf w = some x') (hx : |x| ≤ 2 ^ 20)
    (hx' : |x'| ≤ 2 ^ 20) (hle : x ≤ x') :
    ∃ y y', dblRat (toDbl v) = some y ∧ dblRat (toDbl w) = some y' ∧ |y| ≤ 2 ^ 20 ∧ |y'| ≤ 2 ^ 20 ∧ y ≤ y' := by
  have t1 : Tame x := tame_of (le_trans hx (by norm_num))
  have t2 : Tame x' := tame_of (le_trans hx' (by norm_num))
  obtain ⟨y, h1, h2⟩ := toDbl_rounds hv t1
  obtain ⟨y', h3, h4⟩ := toDbl_rounds hw t2
  obtain ⟨d, d', hd, hd'⟩ := bound_rat
  exact ⟨y, y', h1, h3, h2.abs_bound hd hd' hx, h4.abs_bound hd hd' hx', toDbl_mono hv hw t1 t2 h1 h3 hle⟩

theorem truncates_mono {x y : ℚ} {a b : Int} (ha : Truncates x a) (hb : Truncates y b) (h : x ≤ y) : a ≤ b := by
  have key : (a : ℚ) < b + 1 := by
    rcases le_total 0 x with h0 | h0
    · have := ha.1 h0
      have := hb.1 (h0.trans h)
      linarith
    · have h1 := ha.2 h0
      rcases le_total 0 y with h2 | h2
      · have h3 := hb.1 h2
        have : (-1 : ℚ) < b := by linarith
        have : (-1 : Int) < b := by exact_mod_cast this
        have ha0 : (a : ℚ) < 1 := by linarith
        have ha0 : a < 1 := by exact_mod_cast ha0
        have : a < b + 1 := by omega
        exact_mod_cast this
      · have := hb.2 h2
        linarith
  have : a < b + 1 := by exact_mod_cast key
  omega

/-- The estimate grows with the quotient. -/
theorem exponentFrom_mono {v w : FVal} {x x' : ℚ} (hv : ratOf v = some x) (hw : ratOf w = some x')
    (hx : |x| ≤ 2 ^ 12) (hx' : |x'| ≤ 2 ^ 12) (hle : x ≤ x') : exponentFrom v ≤ exponentFrom w := by
  have big : (2 : ℚ) ^ 12 ≤ 2 ^ 20 := by norm_num
  have hd : ∃ d d', dblRat d = some (2 ^ 12) ∧ dblRat d' = some (-2 ^ 12) := by
    refine ⟨pow2 12, 0xC0B0000000000000, ?_, ?_⟩
    · have h : (pow2 12).val = .fin false (2 ^ 52) (-40) := by decide +kernel
      unfold dblRat; rw [h]; simp [ratOf]; norm_num
    · have h : Dbl.val 0xC0B0000000000000 = .fin true (2 ^ 52) (-40) := by decide +kernel
      unfold dblRat; rw [h]; simp [ratOf]; norm_num
  -- rounding of the quotient
  obtain ⟨y, h1, r1⟩ := toDbl_rounds hv (tame_of (hx.trans (by norm_num)))
  obtain ⟨y', h2, r2⟩ := toDbl_rounds hw (tame_of (hx'.trans (by norm_num)))
  obtain ⟨d, d', hd, hd'⟩ := hd
  have b1 := r1.abs_bound hd hd' hx
  have b2 := r2.abs_bound hd hd' hx'
  have hy : y ≤ y' := toDbl_mono hv hw (tame_of (hx.trans (by norm_num))) (tame_of (hx'.trans (by norm_num))) h1 h2 hle
  -- division by four
  have q1 := div_four h1
  have q2 := div_four h2
  obtain ⟨z, z', h3, h4, b3, b4, hz⟩ := round_step q1 q2 (by rw [abs_div]; norm_num at b1 ⊢; linarith)
    (by rw [abs_div]; norm_num at b2 ⊢; linarith) (by linarith)
  obtain ⟨_, s1, r3⟩ := toDbl_rounds q1 (tame_of (by rw [abs_div]; norm_num at b1 ⊢; linarith))
  obtain ⟨_, s2, r4⟩ := toDbl_rounds q2 (tame_of (by rw [abs_div]; norm_num at b2 ⊢; linarith))
  rw [h3] at s1
  rw [h4] at s2
  cases s1
  cases s2
  have b3 : |z| ≤ 2 ^ 12 := r3.abs_bound hd hd' (by rw [abs_div]; norm_num at b1 ⊢; linarith)
  have b4 : |z'| ≤ 2 ^ 12 := r4.abs_bound hd hd' (by rw [abs_div]; norm_num at b2 ⊢; linarith)
  -- plus one
  have ab : ∀ {u c : ℚ}, |u| ≤ 2 ^ 19 → 0 ≤ c → c ≤ 64 → |u + c| ≤ 2 ^ 20 := by
    intro u c hu hc hc'
    rw [abs_le] at hu ⊢
    norm_num at hu ⊢
    constructor <;> linarith
  have p1 := add_rat h3 one_rat
  have p2 := add_rat h4 one_rat
  obtain ⟨u, u', h5, h6, -, -, hu⟩ := round_step p1 p2 (ab (b3.trans (by norm_num)) (by norm_num) (by norm_num))
    (ab (b4.trans (by norm_num)) (by norm_num) (by norm_num)) (by linarith)
  obtain ⟨_, s1, r5⟩ := toDbl_rounds p1 (tame_of ((ab (b3.trans (by norm_num)) (by norm_num) (by norm_num)).trans (by norm_num)))
  obtain ⟨_, s2, r6⟩ := toDbl_rounds p2 (tame_of ((ab (b4.trans (by norm_num)) (by norm_num) (by norm_num)).trans (by norm_num)))
  rw [h5] at s1
  rw [h6] at s2
  cases s1
  cases s2
  have hd13 : ∃ d d', dblRat d = some (2 ^ 13) ∧ dblRat d' = some (-2 ^ 13) := by
    refine ⟨pow2 13, 0xC0C0000000000000, ?_, ?_⟩
    · have h : (pow2 13).val = .fin false (2 ^ 52) (-39) := by decide +kernel
      unfold dblRat; rw [h]; simp [ratOf]; norm_num
    · have h : Dbl.val 0xC0C0000000000000 = .fin true (2 ^ 52) (-39) := by decide +kernel
      unfold dblRat; rw [h]; simp [ratOf]; norm_num
  obtain ⟨d2, d2', hd2, hd2'⟩ := hd13
  have b5 : |u| ≤ 2 ^ 13 := r5.abs_bound hd2 hd2' (by rw [abs_le] at b3 ⊢; norm_num at b3 ⊢; constructor <;> linarith)
  have b6 : |u'| ≤ 2 ^ 13 := r6.abs_bound hd2 hd2' (by rw [abs_le] at b4 ⊢; norm_num at b4 ⊢; constructor <;> linarith)
  -- plus 64
  obtain ⟨r, r', h7, h8, -, -, hr⟩ := round_step (add_rat h5 sixtyfour_rat) (add_rat h6 sixtyfour_rat)
    (ab (b5.trans (by norm_num)) (by norm_num) (by norm_num)) (ab (b6.trans (by norm_num)) (by norm_num) (by norm_num))
    (by linarith)
  obtain ⟨n, t1, t2⟩ := trunc_rat h7
  obtain ⟨n', t3, t4⟩ := trunc_rat h8
  unfold exponentFrom dadd ddiv
  rw [t1, t3]
  exact truncates_mono t2 t4 hr

/-- The quotient before rounding is right to 64 bits. -/
theorem div_approx {v w : FVal} {x y : ℚ} (hv : ratOf v = some x) (hw : ratOf w = some y) (hy : y ≠ 0) :
    ∃ V, ratOf (v.div w) = some V ∧ |V - x / y| ≤ |x / y| / 2 ^ 64 := by
  cases v with
  | nan => cases hv
  | inf _ => cases hv
  | fin s m e =>
  cases w with
  | nan => cases hw
  | inf _ => cases hw
  | fin t n g =>
  rw [ratOf_fin] at hv hw
  cases hv
  cases hw
  have hn : n ≠ 0 := by
    rintro rfl
    simp [ratS] at hy
  simp only [FVal.div, if_neg hn]
  rw [ratOf_fin]
  refine ⟨_, rfl, ?_⟩
  generalize hk : n.log2 + 65 = k
  have hdm := Nat.div_add_mod (m * 2 ^ k) n
  have hr := Nat.mod_lt (m * 2 ^ k) (Nat.pos_of_ne_zero hn)
  generalize hq : m * 2 ^ k / n = q at *
  generalize hrr : m * 2 ^ k % n = r at *
  have hnq : (0 : ℚ) < n := by exact_mod_cast Nat.pos_of_ne_zero hn
  have hS : (0 : ℚ) < 2 ^ (e - g - k) := by positivity
  have hA : (m : ℚ) * 2 ^ k = n * q + r := by exact_mod_cast hdm.symm
  have hx : ratS s m e / ratS t n g = (if (s != t) then -1 else 1) * (((n * q + r) / n) * 2 ^ (e - g - k)) := by
    unfold ratS
    rw [← hA, zpow_sub₀ (by norm_num), zpow_sub₀ (by norm_num), zpow_natCast]
    cases s <;> cases t <;> simp <;> field_simp
  have hV : ratS (s != t) (2 * q + if r = 0 then 0 else 1) (e - g - k - 1)
      = (if (s != t) then -1 else 1) * (((q : ℚ) + if r = 0 then 0 else 1 / 2) * 2 ^ (e - g - k)) := by
    unfold ratS
    rw [zpow_sub_one₀ (by norm_num) (e - g - k)]
    push_cast
    by_cases h0 : r = 0
    · simp only [h0, if_true]; ring
    · simp only [h0, if_false]; ring
  rw [hx, hV, abs_sign, abs_mul, abs_mul (a := ((n : ℚ) * q + r) / n)]
  rw [← sub_mul, abs_mul, abs_of_pos hS]
  have hs1 : |(if (s != t) then (-1 : ℚ) else 1)| = 1 := by cases s <;> cases t <;> simp
  rw [hs1, one_mul, mul_div_right_comm]
  apply mul_le_mul_of_nonneg_right _ hS.le
  have e1 : ((n : ℚ) * q + r) / n = q + r / n := by field_simp
  rw [e1]
  by_cases h0 : r = 0
  · simp only [h0, if_true, Nat.cast_zero, zero_div, sub_self, abs_zero]
    positivity
  · simp only [h0, if_false]
    have hr1 : (r : ℚ) / n < 1 := by rw [div_lt_one hnq]; exact_mod_cast hr
    have hr0 : (0 : ℚ) ≤ (r : ℚ) / n := by positivity
    have hm : m ≠ 0 := by
      rintro rfl
      apply h0
      have : n * q + r = 0 := by rw [hdm]; simp
      omega
    have hbig : (2 : ℚ) ^ 64 ≤ q + r / n := by
      rw [← e1, ← hA, le_div_iff₀ hnq]
      have h1 : n < 2 ^ (n.log2 + 1) := (log2_bounds hn).2
      have h2 : 2 ^ 64 * n ≤ m * 2 ^ k := by
        calc 2 ^ 64 * n ≤ 2 ^ 64 * 2 ^ (n.log2 + 1) := Nat.mul_le_mul_left _ h1.le
          _ = 2 ^ k := by rw [← pow_add]; congr 1; omega
          _ ≤ m * 2 ^ k := Nat.le_mul_of_pos_left _ (Nat.pos_of_ne_zero hm)
      exact_mod_cast h2
    have e2 : (q : ℚ) + 1 / 2 - (q + r / n) = 1 / 2 - r / n := by ring
    rw [e2, abs_of_nonneg (a := (q : ℚ) + r / n) (by linarith)]
    have : (1 : ℚ) ≤ (q + r / n) / 2 ^ 64 := by rw [le_div_iff₀ (by norm_num)]; linarith
    rw [abs_le]
    constructor <;> linarith

end Sedaman
