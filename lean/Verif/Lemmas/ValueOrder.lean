import Verif.Spec.Sorted1D
import Verif.Lemmas.Float
import Mathlib.Tactic.Linarith
import Mathlib.Data.Prod.Lex

/-!
# The order of header values
-/

namespace Sedaman

open Spec

/-- Value of a finite magnitude pattern. -/
def magRat (f : FFmt) (b : Nat) : ℚ := ((decMag f b).1 : ℚ) * 2 ^ (decMag f b).2

theorem magRat_eq (f : FFmt) (b : Nat) :
    magRat f b = if b / 2 ^ (f.p - 1) = 0 then (b : ℚ) * 2 ^ f.emin
      else ((2 ^ (f.p - 1) + b % 2 ^ (f.p - 1) : Nat) : ℚ) *
        2 ^ (f.emin + ((b / 2 ^ (f.p - 1) : Nat) : Int) - 1) := by
  unfold magRat decMag
  split <;> rfl

theorem magRat_nonneg (f : FFmt) (b : Nat) : 0 ≤ magRat f b := by unfold magRat; positivity

/-- An upper bound of all values with a given exponent field. -/
theorem magRat_lt (f : FFmt) (b : Nat) :
    magRat f b < ((2 ^ (f.p - 1) : Nat) : ℚ) * 2 ^ (f.emin + ((b / 2 ^ (f.p - 1) : Nat) : Int)) := by
  rw [magRat_eq]
  have hp : 0 < 2 ^ (f.p - 1) := Nat.two_pow_pos _
  generalize 2 ^ (f.p - 1) = P at *
  have hm := Nat.mod_lt b hp
  have hd := Nat.div_add_mod b P
  split
  · rename_i h0
    rw [h0] at hd ⊢
    simp only [Nat.mul_zero, Nat.zero_add] at hd
    simp only [Nat.cast_zero, add_zero]
    have : (0 : ℚ) < 2 ^ f.emin := by positivity
    have h1 : (b : ℚ) < (P : ℚ) := by exact_mod_cast (by omega : b < P)
    exact mul_lt_mul_of_pos_right h1 this
  · have e : (2 : ℚ) ^ (f.emin + ((b / P : Nat) : Int)) = 2 * 2 ^ (f.emin + ((b / P : Nat) : Int) - 1) := by
      rw [← zpow_one_add₀ (by norm_num)]; congr 1; ring
    rw [e]
    have h2 : (0 : ℚ) < 2 ^ (f.emin + ((b / P : Nat) : Int) - 1) := by positivity
    have h1 : ((P + b % P : Nat) : ℚ) < (P : ℚ) * 2 := by exact_mod_cast (by omega : P + b % P < P * 2)
    rw [← mul_assoc]
    exact mul_lt_mul_of_pos_right h1 h2

theorem magRat_mono (f : FFmt) {a b : Nat} (h : a < b) : magRat f a < magRat f b := by
  have hp : 0 < 2 ^ (f.p - 1) := Nat.two_pow_pos _
  have hlt := magRat_lt f a
  have ha := magRat_eq f a
  rw [magRat_eq f b]
  generalize 2 ^ (f.p - 1) = P at *
  have hda := Nat.div_add_mod a P
  have hdb := Nat.div_add_mod b P
  have hma := Nat.mod_lt a hp
  have hmb := Nat.mod_lt b hp
  rcases Nat.lt_or_ge (a / P) (b / P) with hq | hq
  · rw [if_neg (Nat.ne_of_gt (Nat.lt_of_le_of_lt (Nat.zero_le _) hq))]
    refine lt_of_lt_of_le hlt ?_
    have h1 : ((P : Nat) : ℚ) ≤ ((P + b % P : Nat) : ℚ) := by exact_mod_cast Nat.le_add_right _ _
    have h2 : (2 : ℚ) ^ (f.emin + ((a / P : Nat) : Int)) ≤ 2 ^ (f.emin + ((b / P : Nat) : Int) - 1) :=
      zpow_le_zpow_right₀ (by norm_num) (by omega)
    exact mul_le_mul h1 h2 (by positivity) (by positivity)
  · have heq : a / P = b / P := by
      exact Nat.le_antisymm (Nat.div_le_div_right (c := P) h.le) hq
    rw [heq] at hda
    rw [ha, heq]
    have h3 : a % P < b % P := by omega
    split
    · exact mul_lt_mul_of_pos_right (by exact_mod_cast h) (by positivity)
    · exact mul_lt_mul_of_pos_right (by exact_mod_cast (by omega)) (by positivity)

theorem magRat_zero (f : FFmt) : magRat f 0 = 0 := by
  rw [magRat_eq, Nat.zero_div, if_pos rfl]; simp

theorem magRat_pos (f : FFmt) {a : Nat} (h : 0 < a) : 0 < magRat f a := by
  have := magRat_mono f h
  rwa [magRat_zero] at this

/-- The three kinds of `double`. -/
theorem dbl_cases (d : Dbl) : (dblIsNan d = true ∧ dblNumber d = none) ∨
    (dblIsNan d = false ∧ 2 ^ 63 ≤ d.toNat ∧ d.toNat - 2 ^ 63 = f64.infMag ∧
      dblNumber d = some ⊥) ∨
    (dblIsNan d = false ∧ d.toNat < 2 ^ 63 ∧ d.toNat = f64.infMag ∧
      dblNumber d = some ((⊤ : WithTop ℚ) : WithBot (WithTop ℚ))) ∨
    (dblIsNan d = false ∧ 2 ^ 63 ≤ d.toNat ∧ d.toNat - 2 ^ 63 < f64.infMag ∧
      dblNumber d = some (((-magRat f64 (d.toNat - 2 ^ 63) : ℚ) : WithTop ℚ) : WithBot (WithTop ℚ))) ∨
    (dblIsNan d = false ∧ d.toNat < 2 ^ 63 ∧ d.toNat < f64.infMag ∧
      dblNumber d = some (((magRat f64 d.toNat : ℚ) : WithTop ℚ) : WithBot (WithTop ℚ))) := by
  have hlt := d.isLt
  have e : 2 ^ (f64.p - 1 + f64.ebits) = 2 ^ 63 := by decide
  have hi : f64.infMag = 9218868437227405312 := by decide
  unfold dblIsNan dblNumber Dbl.val decF
  simp only [e]
  generalize d.toNat = n at *
  by_cases h : 2 ^ 63 ≤ n
  · have hm : n % 2 ^ 63 = n - 2 ^ 63 := by omega
    rw [hm]
    rcases Nat.lt_trichotomy (n - 2 ^ 63) f64.infMag with h1 | h1 | h1
    · refine .inr (.inr (.inr (.inl ⟨by simp only [decide_eq_false_iff_not]; omega, h, h1, ?_⟩)))
      rw [if_pos h1]
      simp only [ratOf, h, decide_true, if_true, Option.map_some]
      unfold magRat
      congr 3
      ring_nf
    · refine .inr (.inl ⟨by simp only [decide_eq_false_iff_not]; omega, h, h1, ?_⟩)
      rw [if_neg (by omega), if_pos h1]
      simp only [h, decide_true, if_true]
    · refine .inl ⟨by simp only [decide_eq_true_eq]; exact h1, ?_⟩
      rw [if_neg (by omega), if_neg (by omega)]
  · have hm : n % 2 ^ 63 = n := by omega
    rw [hm]
    rcases Nat.lt_trichotomy n f64.infMag with h1 | h1 | h1
    · refine .inr (.inr (.inr (.inr ⟨by simp only [decide_eq_false_iff_not]; omega, by omega, h1, ?_⟩)))
      rw [if_pos h1]
      simp only [ratOf, h, decide_false, Option.map_some]
      unfold magRat
      congr 3
      simp
    · refine .inr (.inr (.inl ⟨by simp only [decide_eq_false_iff_not]; omega, by omega, h1, ?_⟩))
      rw [if_neg (by omega), if_pos h1]
      simp only [h, decide_false]
      rfl
    · refine .inl ⟨by simp only [decide_eq_true_eq]; exact h1, ?_⟩
      rw [if_neg (by omega), if_neg (by omega)]

/-- The integer standing for a `double` has the order of the numbers. -/
theorem dblRank_lt_iff {a b : Dbl} {x y : WithBot (WithTop ℚ)} (ha : dblNumber a = some x)
    (hb : dblNumber b = some y) : dblRank a < dblRank b ↔ x < y := by
  have hi : f64.infMag = 9218868437227405312 := by decide
  have key : ∀ (d : Dbl) (z : WithBot (WithTop ℚ)), dblNumber d = some z →
      (dblRank d = -(f64.infMag : Int) ∧ z = ⊥) ∨
      (dblRank d = (f64.infMag : Int) ∧ z = ((⊤ : WithTop ℚ) : WithBot (WithTop ℚ))) ∨
      (∃ n : Nat, n < f64.infMag ∧ dblRank d = -(n : Int) ∧
        z = (((-magRat f64 n : ℚ) : WithTop ℚ) : WithBot (WithTop ℚ))) ∨
      (∃ n : Nat, n < f64.infMag ∧ dblRank d = (n : Int) ∧
        z = (((magRat f64 n : ℚ) : WithTop ℚ) : WithBot (WithTop ℚ))) := by
    intro d z hz
    unfold dblRank
    rcases dbl_cases d with ⟨-, h⟩ | ⟨-, h1, h2, h⟩ | ⟨-, h1, h2, h⟩ | ⟨-, h1, h2, h⟩ | ⟨-, h1, h2, h⟩
    · rw [h] at hz; cases hz
    all_goals
      rw [h] at hz
      obtain rfl := Option.some.inj hz
    · rw [if_pos h1, h2]; exact .inl ⟨rfl, rfl⟩
    · rw [if_neg (by omega), h2]; exact .inr (.inl ⟨rfl, rfl⟩)
    · rw [if_pos h1]; exact .inr (.inr (.inl ⟨_, h2, rfl, rfl⟩))
    · rw [if_neg (by omega)]; exact .inr (.inr (.inr ⟨_, h2, rfl, rfl⟩))
  have mono : ∀ {m n : Nat}, m < n ↔ magRat f64 m < magRat f64 n := by
    intro m n
    refine ⟨magRat_mono f64, fun h => ?_⟩
    by_contra hc
    rcases Nat.lt_or_ge n m with h1 | h1
    · exact absurd (magRat_mono f64 h1) (by linarith)
    · have : m = n := by omega
      rw [this] at h; exact lt_irrefl _ h
  have lt0 : ∀ {m : Nat}, 0 < m ↔ 0 < magRat f64 m := by
    intro m; rw [← magRat_zero f64]; exact mono
  rcases key a x ha with ⟨ea, rfl⟩ | ⟨ea, rfl⟩ | ⟨m, hm, ea, rfl⟩ | ⟨m, hm, ea, rfl⟩ <;>
    rcases key b y hb with ⟨eb, rfl⟩ | ⟨eb, rfl⟩ | ⟨n, hn, eb, rfl⟩ | ⟨n, hn, eb, rfl⟩ <;>
    rw [ea, eb] <;> simp only [WithBot.coe_lt_coe, WithTop.coe_lt_coe, lt_irrefl,
      WithBot.bot_lt_coe, WithBot.not_lt_bot, WithTop.coe_lt_top, not_top_lt, iff_true, iff_false]
  any_goals omega
  · simp only [neg_lt_neg_iff, ← mono]; omega
  · constructor
    · intro h
      rcases Nat.eq_zero_or_pos m with h0 | h0
      · have := lt0.1 (show 0 < n by omega)
        have := magRat_nonneg f64 m
        linarith
      · have := lt0.1 h0
        have := magRat_nonneg f64 n
        linarith
    · intro h
      by_contra hc
      obtain ⟨rfl, rfl⟩ : m = 0 ∧ n = 0 := by omega
      rw [magRat_zero] at h
      norm_num at h
  · constructor
    · intro h; omega
    · intro h
      have := magRat_nonneg f64 m
      have := magRat_nonneg f64 n
      linarith
  · rw [← mono]; omega

/-- NaN is what has no number. -/
theorem isNan_iff (d : Dbl) : dblIsNan d = true ↔ dblNumber d = none := by
  rcases dbl_cases d with ⟨h, h'⟩ | ⟨h, -, -, h'⟩ | ⟨h, -, -, h'⟩ | ⟨h, -, -, h'⟩ | ⟨h, -, -, h'⟩ <;>
    simp [h, h']

theorem ordered_iff (v : Value) : Ordered v ↔ valueIsNan v = false := by
  cases v with
  | int n => simp [Ordered, valueIsNan]
  | dbl d =>
    simp only [Ordered, valueIsNan, ne_eq, ← isNan_iff]
    simp

/-- The comparison of the code is the order of the specification. -/
theorem valueLt_iff (a b : Value) : valueLt a b = true ↔ KeyLt a b := by
  cases a <;> cases b <;> simp only [valueLt, KeyLt, decide_eq_true_eq, reduceCtorEq]
  rename_i a b
  unfold dblLt
  simp only [Bool.and_eq_true, Bool.not_eq_true', decide_eq_true_eq]
  constructor
  · rintro ⟨⟨ha, hb⟩, h⟩
    obtain ⟨x, hx⟩ : ∃ x, dblNumber a = some x := by
      cases hx : dblNumber a with
      | none => rw [← isNan_iff, ha] at hx; cases hx
      | some x => exact ⟨x, rfl⟩
    obtain ⟨y, hy⟩ : ∃ y, dblNumber b = some y := by
      cases hy : dblNumber b with
      | none => rw [← isNan_iff, hb] at hy; cases hy
      | some y => exact ⟨y, rfl⟩
    exact ⟨x, y, hx, hy, (dblRank_lt_iff hx hy).1 h⟩
  · rintro ⟨x, y, hx, hy, h⟩
    refine ⟨⟨?_, ?_⟩, (dblRank_lt_iff hx hy).2 h⟩
    · rw [Bool.eq_false_iff]; intro hc; rw [isNan_iff, hx] at hc; cases hc
    · rw [Bool.eq_false_iff]; intro hc; rw [isNan_iff, hy] at hc; cases hc

/-- A place in a linear order for every ordered value. -/
def rank : Value → ℤ ×ₗ ℤ
  | .int a => toLex (0, a)
  | .dbl d => toLex (1, dblRank d)

theorem keyLt_rank {a b : Value} (ha : Ordered a) (hb : Ordered b) : KeyLt a b ↔ rank a < rank b := by
  rw [← valueLt_iff]
  rw [ordered_iff] at ha hb
  cases a <;> cases b <;> simp only [valueLt, rank, Prod.Lex.toLex_lt_toLex, decide_eq_true_eq,
    lt_irrefl, false_or, true_and, reduceCtorEq, false_iff, true_iff]
  · left; norm_num
  · norm_num
  · simp only [valueIsNan] at ha hb
    unfold dblLt
    simp [ha, hb]

theorem keyEq_rank {a b : Value} (ha : Ordered a) (hb : Ordered b) : KeyEq a b ↔ rank a = rank b := by
  unfold KeyEq
  rw [keyLt_rank ha hb, keyLt_rank hb ha]
  exact ⟨fun h => le_antisymm (not_lt.1 h.2) (not_lt.1 h.1), fun h => by rw [h]; simp⟩

end Sedaman
