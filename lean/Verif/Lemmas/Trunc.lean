import Verif.Lemmas.Samples
import Verif.Model.OSEGY

/-!
# Conversions of doubles to integers in terms of rational values
-/

namespace Sedaman

open Spec

theorem trunc_rat {d : Dbl} {x : ℚ} (h : dblRat d = some x) :
    ∃ n, d.val.trunc = some n ∧ Truncates x n := by
  unfold dblRat ratOf at h
  split at h
  · rename_i s m e hv
    obtain ⟨a, h3, h4, h5⟩ := trunc_fin s m e
    rw [hv, h3]
    refine ⟨_, rfl, ?_⟩
    have hpos : (0 : ℚ) ≤ (m : ℚ) * 2 ^ e := by positivity
    simp only [Option.some.injEq] at h
    cases s
    · simp only [Bool.false_eq_true, if_false, one_mul] at h ⊢
      rw [← h]
      refine ⟨fun _ => ⟨by push_cast; exact h4, by push_cast; exact h5⟩, fun h6 => ?_⟩
      have e0 : (m : ℚ) * 2 ^ e = 0 := le_antisymm h6 hpos
      have ha : (a : ℚ) ≤ 0 := by linarith
      have ha0 : (0 : ℚ) ≤ a := by positivity
      push_cast
      constructor <;> linarith
    · simp only [if_true] at h ⊢
      have e1 : (m : ℚ) * 2 ^ e = -x := by rw [← h]; ring
      rw [e1] at h4 h5 hpos
      refine ⟨fun h6 => ?_, fun _ => ?_⟩
      · have ha0 : (0 : ℚ) ≤ a := by positivity
        push_cast
        constructor <;> linarith
      · push_cast
        constructor <;> linarith
  · cases h

theorem dblToS_ok {k : Nat} {d : Dbl} {n : Int} (h : dblToS k d = .ok n) :
    ∃ x, dblRat d = some x ∧ Truncates x n := by
  unfold dblToS dblToInt at h
  cases hv : d.val with
  | fin s m e =>
    have hx : dblRat d = some ((if s then -1 else 1) * (m : ℚ) * (2 : ℚ) ^ e) := by
      unfold dblRat; rw [hv]; rfl
    obtain ⟨k', h1, h2⟩ := trunc_rat hx
    rw [h1] at h
    simp only at h
    split at h
    · have e := Except.ok.inj h
      subst e
      exact ⟨_, hx, h2⟩
    · cases h
  | inf s => rw [hv] at h; cases h
  | nan => rw [hv] at h; cases h

theorem truncates_unique {x : ℚ} {a b : Int} (ha : Truncates x a) (hb : Truncates x b) : a = b := by
  rcases le_total 0 x with h | h
  · obtain ⟨h1, h2⟩ := ha.1 h
    obtain ⟨h3, h4⟩ := hb.1 h
    have e1 : (a : ℚ) < b + 1 := by linarith
    have e2 : (b : ℚ) < a + 1 := by linarith
    have e1' : a < b + 1 := by exact_mod_cast e1
    have e2' : b < a + 1 := by exact_mod_cast e2
    omega
  · obtain ⟨h1, h2⟩ := ha.2 h
    obtain ⟨h3, h4⟩ := hb.2 h
    have e1 : (a : ℚ) - 1 < b := by linarith
    have e2 : (b : ℚ) - 1 < a := by linarith
    have e1' : a - 1 < b := by exact_mod_cast e1
    have e2' : b - 1 < a := by exact_mod_cast e2
    omega

theorem dblToS_of {k : Nat} {d : Dbl} {x : ℚ} {n : Int} (hd : dblRat d = some x)
    (ht : Truncates x n) (hn : -(256 ^ k / 2 : Nat) ≤ n ∧ n ≤ ((256 ^ k / 2 : Nat) : Int) - 1) :
    dblToS k d = .ok n := by
  obtain ⟨n', h1, h2⟩ := trunc_rat hd
  have := truncates_unique ht h2
  subst this
  unfold dblToS dblToInt
  rw [h1]
  simp only
  rw [if_pos hn]

theorem dblGtNat_iff {d : Dbl} {x : ℚ} (h : dblRat d = some x) (n : Nat) :
    dblGtNat d n = true ↔ (n : ℚ) < x := by
  unfold dblRat ratOf at h
  split at h
  · rename_i s m e hv
    unfold dblGtNat
    rw [hv]
    simp only [Option.some.injEq] at h
    rw [← h]
    have hpos : (0 : ℚ) ≤ (m : ℚ) * 2 ^ e := by positivity
    cases s
    · simp only [Bool.false_eq_true, if_false, one_mul, Bool.not_false, Bool.true_and, decide_eq_true_eq]
      by_cases he : 0 ≤ e
      · obtain ⟨k, rfl⟩ := Int.eq_ofNat_of_zero_le he
        rw [if_pos he, Int.toNat_natCast, zpow_natCast]
        norm_cast
      · obtain ⟨k, rfl⟩ : ∃ k : Nat, e = -(k : Int) := ⟨(-e).toNat, by omega⟩
        rw [if_neg he, show (- -(k : Int)).toNat = k by omega, zpow_neg, zpow_natCast]
        have hk : (0 : ℚ) < 2 ^ k := by positivity
        rw [← div_eq_mul_inv, lt_div_iff₀ hk]
        norm_cast
    · simp only [if_true, Bool.not_true, Bool.false_and, Bool.false_eq_true, false_iff, not_lt]
      have : (-1 : ℚ) * m * 2 ^ e ≤ 0 := by
        have : (-1 : ℚ) * m * 2 ^ e = -((m : ℚ) * 2 ^ e) := by ring
        linarith
      have hn : (0 : ℚ) ≤ n := by positivity
      linarith
  · cases h

end Sedaman
