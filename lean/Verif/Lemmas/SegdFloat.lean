import Verif.Model.SegdFloat
import Verif.Lemmas.Float
import Mathlib.Tactic.Ring
import Mathlib.Tactic.FieldSimp

/-!
# Exact values of doubles
-/

namespace Sedaman

/-- The double holds exactly `(-1)^s * m * 2^e`. -/
def HasVal (d : Dbl) (s : Bool) (m : Nat) (e : Int) : Prop :=
  ∃ m' e', d.val = .fin s m' e' ∧ (m' : ℚ) * 2 ^ e' = (m : ℚ) * 2 ^ e

theorem hasVal_toDbl {s : Bool} {m : Nat} {e : Int} (hm : m < 2 ^ 53) (he : -1074 ≤ e) (he' : e ≤ 971) :
    HasVal (toDbl (.fin s m e)) s m e := toDbl_exact hm he (by
  by_cases h0 : m = 0
  · subst h0; simp; omega
  · have := (Nat.log2_lt h0).mpr hm
    omega)

theorem hasVal_ofNat {m : Nat} (hm : m < 2 ^ 53) : HasVal (dblOfInt (m : Int)) false m 0 := by
  unfold dblOfInt
  have h1 : decide ((m : Int) < 0) = false := by simp
  rw [h1]; exact hasVal_toDbl hm (by decide) (by decide)

theorem hasVal_pow2 {k : Int} (h1 : -1074 ≤ k) (h2 : k ≤ 971) : HasVal (pow2 k) false 1 k :=
  hasVal_toDbl (by decide) h1 h2

theorem HasVal.congr {d : Dbl} {s : Bool} {m n : Nat} {e g : Int} (h : HasVal d s m e)
    (hr : (m : ℚ) * 2 ^ e = (n : ℚ) * 2 ^ g) : HasVal d s n g := by
  obtain ⟨m', e', h1, h2⟩ := h
  exact ⟨m', e', h1, h2.trans hr⟩

theorem HasVal.eq {d : Dbl} {s : Bool} {m : Nat} {e : Int} (h : HasVal d s m e) :
    d = toDbl (.fin s m e) := by
  obtain ⟨m', e', h1, h2⟩ := h
  rw [← toDbl_congr h2, ← h1, toDbl_val]
  rw [h1]; rfl

theorem dmul_hasVal {a b : Dbl} {s t : Bool} {m n : Nat} {e g : Int} (ha : HasVal a s m e)
    (hb : HasVal b t n g) : dmul a b = toDbl (.fin (s != t) (m * n) (e + g)) := by
  obtain ⟨m', e', h1, h2⟩ := ha
  obtain ⟨n', g', h3, h4⟩ := hb
  unfold dmul
  rw [h1, h3]
  simp only [FVal.mul]
  apply toDbl_congr
  push_cast
  rw [zpow_add₀ two_ne_zero, zpow_add₀ two_ne_zero]
  calc (m' : ℚ) * n' * (2 ^ e' * 2 ^ g') = (m' * 2 ^ e') * (n' * 2 ^ g') := by ring
    _ = (m * 2 ^ e) * (n * 2 ^ g) := by rw [h2, h4]
    _ = _ := by ring

theorem dmul_exact {a b : Dbl} {s t : Bool} {m n : Nat} {e g : Int} (ha : HasVal a s m e)
    (hb : HasVal b t n g) (hm : m * n < 2 ^ 53) (h1 : -1074 ≤ e + g) (h2 : e + g ≤ 971) :
    HasVal (dmul a b) (s != t) (m * n) (e + g) := by
  rw [dmul_hasVal ha hb]; exact hasVal_toDbl hm h1 h2

/-- Signed rational of a finite value. -/
def ratS (s : Bool) (m : Nat) (e : Int) : ℚ := (if s then -1 else 1) * (m : ℚ) * 2 ^ e

theorem scaled_cast (s : Bool) (m : Nat) {e q : Int} (h : q ≤ e) :
    ((scaled s m (e - q).toNat : Int) : ℚ) * 2 ^ q = ratS s m e := by
  obtain ⟨k, hk⟩ := Int.eq_ofNat_of_zero_le (sub_nonneg.mpr h)
  have hk' : e - q = (k : Int) := hk
  have he : e = q + k := by omega
  rw [hk', Int.toNat_natCast]
  subst he
  unfold scaled ratS
  rw [zpow_add₀ two_ne_zero, zpow_natCast]
  split <;> push_cast <;> ring

theorem add_fin (s t : Bool) (m n : Nat) (e g : Int) :
    ∃ u k q, (FVal.fin s m e).add (.fin t n g) = .fin u k q ∧
      ratS u k q = ratS s m e + ratS t n g ∧
      (ratS s m e + ratS t n g = 0 → u = (s && t)) ∧
      (ratS s m e + ratS t n g ≠ 0 → u = decide (ratS s m e + ratS t n g < 0)) := by
  have hx : ((scaled s m (e - min e g).toNat + scaled t n (g - min e g).toNat : Int) : ℚ)
      * 2 ^ (min e g) = ratS s m e + ratS t n g := by
    push_cast
    rw [add_mul, scaled_cast s m (min_le_left e g), scaled_cast t n (min_le_right e g)]
  unfold FVal.add
  simp only
  generalize scaled s m (e - min e g).toNat + scaled t n (g - min e g).toNat = x at *
  have hp : (0 : ℚ) < 2 ^ (min e g) := by positivity
  refine ⟨_, _, _, rfl, ?_, ?_, ?_⟩
  · rw [← hx]
    by_cases h0 : x = 0
    · subst h0; simp [ratS]
    · rw [if_neg h0]
      unfold ratS
      by_cases hlt : x < 0
      · have : (x : ℚ) = -(x.natAbs : ℚ) := by
          rw [Nat.cast_natAbs, abs_of_neg hlt]; simp
        rw [this]; simp [hlt]
      · have : (x : ℚ) = (x.natAbs : ℚ) := by
          rw [Nat.cast_natAbs, abs_of_nonneg (not_lt.mp hlt)]
        rw [this]; simp [hlt]
  · intro h
    rw [← hx] at h
    have : (x : ℚ) = 0 := by
      rcases mul_eq_zero.mp h with h | h
      · exact h
      · exact absurd h hp.ne'
    rw [if_pos (by exact_mod_cast this)]
  · intro h
    rw [← hx] at h ⊢
    have h0 : x ≠ 0 := by rintro rfl; simp at h
    rw [if_neg h0]
    congr 1
    rw [mul_neg_iff]
    simp only [hp, hp.not_gt, and_false, and_true, false_or, eq_iff_iff]
    exact_mod_cast Iff.rfl

/-- Sum of two non-negative exactly held numbers. -/
theorem dadd_nonneg {a b : Dbl} {m n k : Nat} {e g q : Int} (ha : HasVal a false m e)
    (hb : HasVal b false n g) (h : (m : ℚ) * 2 ^ e + n * 2 ^ g = k * 2 ^ q) :
    dadd a b = toDbl (.fin false k q) := by
  obtain ⟨m', e', h1, h2⟩ := ha
  obtain ⟨n', g', h3, h4⟩ := hb
  unfold dadd
  rw [h1, h3]
  obtain ⟨u, k', q', e5, h6, h7, h8⟩ := add_fin false false m' n' e' g'
  rw [e5]
  have hs : ratS false m' e' + ratS false n' g' = (k : ℚ) * 2 ^ q := by
    simp only [ratS, Bool.false_eq_true, if_false, one_mul]
    rw [h2, h4, h]
  rw [hs] at h6 h7 h8
  have hk : (0 : ℚ) ≤ (k : ℚ) * 2 ^ q := by positivity
  have hu : u = false := by
    by_cases h0 : (k : ℚ) * 2 ^ q = 0
    · exact h7 h0
    · rw [h8 h0]; simpa using hk
  subst hu
  apply toDbl_congr
  simpa [ratS] using h6

/-- Difference of two non-negative exactly held numbers. -/
theorem dsub_nonneg {a b : Dbl} {m n k : Nat} {e g q : Int} (ha : HasVal a false m e)
    (hb : HasVal b false n g) (h : (m : ℚ) * 2 ^ e - n * 2 ^ g = k * 2 ^ q) :
    dsub a b = toDbl (.fin false k q) := by
  obtain ⟨m', e', h1, h2⟩ := ha
  obtain ⟨n', g', h3, h4⟩ := hb
  unfold dsub
  rw [h1, h3]
  simp only [FVal.neg, Bool.not_false]
  obtain ⟨u, k', q', e5, h6, h7, h8⟩ := add_fin false true m' n' e' g'
  rw [e5]
  have hs : ratS false m' e' + ratS true n' g' = (k : ℚ) * 2 ^ q := by
    simp only [ratS, Bool.false_eq_true, if_false, if_true, one_mul]
    rw [← h, ← h2, ← h4]; ring
  rw [hs] at h6 h7 h8
  have hk : (0 : ℚ) ≤ (k : ℚ) * 2 ^ q := by positivity
  have hu : u = false := by
    by_cases h0 : (k : ℚ) * 2 ^ q = 0
    · exact h7 h0
    · rw [h8 h0]; simpa using hk
  subst hu
  apply toDbl_congr
  simpa [ratS] using h6

/-- Truncation of a finite non-negative value given as a rational. -/
theorem trunc_dbl_rat {m : Nat} {e : Int} {n : Nat} (h1 : (n : ℚ) ≤ (m : ℚ) * 2 ^ e)
    (h2 : (m : ℚ) * 2 ^ e < (n : ℚ) + 1) : (FVal.fin false m e).trunc = some (n : Int) := by
  unfold FVal.trunc
  simp only [Bool.false_eq_true, if_false, Option.some.injEq, Nat.cast_inj]
  split
  · rename_i he
    obtain ⟨k, rfl⟩ := Int.eq_ofNat_of_zero_le he
    rw [zpow_natCast] at h1 h2
    norm_cast at h1 h2
    simp; omega
  · rename_i he
    obtain ⟨k, hk⟩ : ∃ k : Nat, e = -(k : Int) := ⟨(-e).toNat, by omega⟩
    subst hk
    rw [zpow_neg, zpow_natCast, ← div_eq_mul_inv] at h1 h2
    have hp : (0 : ℚ) < 2 ^ k := by positivity
    rw [le_div_iff₀ hp] at h1
    rw [div_lt_iff₀ hp] at h2
    norm_cast at h1 h2
    have e1 : (- -(k : Int)).toNat = k := by simp
    rw [e1]
    rw [Nat.div_eq_iff (by positivity)]
    rw [Nat.add_mul] at h2
    omega


/-- Conversion to an integer type of an exactly held non-negative number. -/
theorem dblToInt_nonneg {d : Dbl} {m : Nat} {e : Int} {n : Nat} {lo hi : Int}
    (h : HasVal d false m e) (h1 : (n : ℚ) ≤ (m : ℚ) * 2 ^ e) (h2 : (m : ℚ) * 2 ^ e < (n : ℚ) + 1)
    (hlo : lo ≤ n) (hhi : (n : Int) ≤ hi) : dblToInt lo hi d = .ok (n : Int) := by
  obtain ⟨m', e', e1, e2⟩ := h
  unfold dblToInt
  rw [e1, trunc_dbl_rat (n := n) (by rw [e2]; exact h1) (by rw [e2]; exact h2)]
  simp only
  rw [if_pos ⟨hlo, hhi⟩]

end Sedaman
