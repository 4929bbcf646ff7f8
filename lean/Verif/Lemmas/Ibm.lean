import Verif.Lemmas.Samples

/-! # Lemmas about IBM floating point numbers -/

namespace Sedaman

open Spec

theorem and_7f (x : Nat) : x &&& 0x7f = x % 128 := Nat.and_two_pow_sub_one_eq_mod x 7

theorem and_ffffff (x : Nat) : x &&& 0xffffff = x % 2 ^ 24 := Nat.and_two_pow_sub_one_eq_mod x 24

/-- The decoded number is exactly sign, fraction and exponent of the word. -/
theorem ibmDecode_is {w : Nat} (hw : w < 2 ^ 32) :
    Is (ibmDecode w) (decide (2 ^ 31 ≤ w)) (w % 2 ^ 24)
      (4 * ((w / 2 ^ 24 % 128 : Nat) : Int) - 280) := by
  have hf : w % 2 ^ 24 < 2 ^ 24 := Nat.mod_lt _ (by decide)
  have hl := log2_lt_of_lt hf (by decide)
  have he : w / 2 ^ 24 % 128 < 128 := Nat.mod_lt _ (by decide)
  unfold ibmDecode
  simp only [and_7f, and_ffffff, Nat.shiftRight_eq_div_pow]
  generalize w / 2 ^ 24 % 128 = ex at *
  generalize w % 2 ^ 24 = fr at *
  have h1 : Is (dblOfInt (fr : Int)) false fr 0 := by
    have := is_ofInt (n := (fr : Int)) (by simp; omega)
    rw [decide_eq_false (by omega)] at this
    simpa using this
  have h2 : Is (ddivPow2 (dblOfInt (fr : Int)) 24) false fr (0 + -24) :=
    h1.scale (by decide) (by decide) (by omega) (by decide) (by omega)
  have h3 := h2.scale (k := 4 * ((ex : Int) - 64)) (by omega) (by omega) (by omega) (by omega)
    (by omega)
  have h4 : Is (dblOfInt (if w / 2 ^ 31 ≠ 0 then -1 else 1)) (decide (2 ^ 31 ≤ w)) 1 0 := by
    by_cases hs : 2 ^ 31 ≤ w
    · have : w / 2 ^ 31 ≠ 0 := by omega
      rw [if_pos this, decide_eq_true hs]
      exact is_ofInt (n := -1) (by decide)
    · have : ¬ w / 2 ^ 31 ≠ 0 := by omega
      rw [if_neg this, decide_eq_false hs]
      exact is_ofInt (n := 1) (by decide)
  have h5 := h3.mul h4 (by omega) (by omega) (by rw [Nat.mul_one]; omega)
  simp only [Nat.mul_one, Int.add_zero, Bool.false_bne] at h5
  apply h5.congr
  congr 2
  omega

theorem dblAbs_is {d : Dbl} {s : Bool} {n : Nat} {g : Int} (h : Is d s n g) :
    Is (dblAbs d) false n g := by
  obtain ⟨m, e, h1, h2⟩ := h
  refine ⟨m, e, ?_, h2⟩
  unfold Dbl.val decF at h1 ⊢
  unfold dblAbs
  have hS : 2 ^ (f64.p - 1 + f64.ebits) = 2 ^ 63 := by decide
  simp only [hS] at h1 ⊢
  have hlt : d.toNat % 2 ^ 63 < 2 ^ 63 := Nat.mod_lt _ (by decide)
  have hb : (BitVec.ofNat 64 (d.toNat % 2 ^ 63)).toNat = d.toNat % 2 ^ 63 := by
    rw [BitVec.toNat_ofNat]; omega
  rw [hb, Nat.mod_mod]
  by_cases hm : d.toNat % 2 ^ 63 < f64.infMag
  · rw [if_pos hm] at h1 ⊢
    simp only [FVal.fin.injEq] at h1 ⊢
    exact ⟨decide_eq_false (by omega), h1.2.1, h1.2.2⟩
  · rw [if_neg hm] at h1
    split at h1 <;> simp at h1

theorem dblNeg_is {d : Dbl} {s : Bool} {n : Nat} {g : Int} (h : Is d s n g) (hn : n ≠ 0) :
    dblNeg d = s := by
  obtain ⟨m, e, h1, h2⟩ := h
  unfold dblNeg
  rw [h1]
  have : m ≠ 0 := by
    intro h0
    subst h0
    have hp : (0 : ℚ) < 2 ^ g := by positivity
    have hn' : (0 : ℚ) < n := by exact_mod_cast Nat.pos_of_ne_zero hn
    have : (0 : ℚ) < n * 2 ^ g := mul_pos hn' hp
    rw [← h2] at this
    simp at this
  simp [this]

/-- The exponent estimate `est a` is the exact one: `16^(t-65) ≤ a < 16^(t-64)`. -/
def EstExact (est : LogEst) (a : Dbl) : Prop :=
  ∃ r, dblRat a = some r ∧ (16 : ℚ) ^ (est a - 65) ≤ r ∧ r < (16 : ℚ) ^ (est a - 64)

theorem Is.rat {d : Dbl} {s : Bool} {n : Nat} {g : Int} (h : Is d s n g) :
    dblRat d = some ((if s then -1 else 1) * ((n : ℚ) * 2 ^ g)) := by
  obtain ⟨m, e, h1, h2⟩ := h
  unfold dblRat
  rw [h1]
  simp only [ratOf]
  rw [mul_assoc, h2]

theorem sixteen_zpow (k : Int) : (16 : ℚ) ^ k = 2 ^ (4 * k) := by
  rw [zpow_mul]; norm_num

/-- What the encoder does for a magnitude `n * 2^g` when the estimate is exact. -/
theorem ibmEncode_spec {est : LogEst} {d : Dbl} {s : Bool} {m : Nat} {e : Int}
    (hd : d.val = .fin s m e) (hm0 : m ≠ 0) (hest : EstExact est (dblAbs d))
    (ht0 : 0 ≤ est (dblAbs d)) (ht1 : est (dblAbs d) ≤ 127) :
    ∃ F : Nat, 2 ^ 20 ≤ F ∧ F < 2 ^ 24 ∧
      (F : ℚ) ≤ (m : ℚ) * 2 ^ (e - 4 * est (dblAbs d) + 280) ∧
      (m : ℚ) * 2 ^ (e - 4 * est (dblAbs d) + 280) < F + 1 ∧
      ibmEncode est d = .ok ((if s then 1 else 0) * 2 ^ 31 + (est (dblAbs d)).toNat * 2 ^ 24 + F) := by
  obtain ⟨b1, b2, b3⟩ := dbl_fin_bounds hd
  have hl := log2_lt_of_lt b1 (by decide)
  have hid : Is d s m e := ⟨m, e, hd, rfl⟩
  have ha := dblAbs_is hid
  obtain ⟨r, hr, hr1, hr2⟩ := hest
  rw [ha.rat] at hr
  simp only [Bool.false_eq_true, if_false, one_mul, Option.some.injEq] at hr
  subst hr
  unfold ibmEncode
  rw [dblNeg_is hid hm0]
  simp only
  have hexp : ibmExp est (dblAbs d) = .ok (est (dblAbs d)).toNat := by
    unfold ibmExp
    obtain ⟨m', e', h1, h2⟩ := ha
    rw [h1]
    have : m' ≠ 0 := by
      intro h0
      subst h0
      have hp : (0 : ℚ) < 2 ^ e := by positivity
      have hn' : (0 : ℚ) < m := by exact_mod_cast Nat.pos_of_ne_zero hm0
      have : (0 : ℚ) < m * 2 ^ e := mul_pos hn' hp
      rw [← h2] at this
      simp at this
    simp only [this, if_false]
    rw [if_pos ⟨ht0, by omega⟩, and_7f, Nat.mod_eq_of_lt (by omega)]
  rw [hexp]
  simp only [ok_bind]
  generalize ht : est (dblAbs d) = t at *
  -- bounds on the exponent from the estimate
  have hmpos : (1 : ℚ) ≤ m := by exact_mod_cast Nat.pos_of_ne_zero hm0
  have hmlt : (m : ℚ) < 2 ^ (53 : Int) := by
    have e53 : (2 : ℚ) ^ (53 : Int) = ((2 ^ 53 : Nat) : ℚ) := by norm_num
    rw [e53]
    exact Nat.cast_lt.mpr b1
  rw [sixteen_zpow] at hr1 hr2
  have hlow : 4 * (t - 65) < 53 + e := by
    have : (2 : ℚ) ^ (4 * (t - 65)) < 2 ^ (53 + e) := by
      calc (2 : ℚ) ^ (4 * (t - 65)) ≤ m * 2 ^ e := hr1
        _ < 2 ^ (53 : Int) * 2 ^ e := mul_lt_mul_of_pos_right hmlt (by positivity)
        _ = 2 ^ (53 + e) := (zpow_add₀ (by norm_num) _ _).symm
    exact (zpow_lt_zpow_iff_right₀ (by norm_num)).mp this
  have hlog2 : (m.log2 : Int) + e < 4 * (t - 64) := by
    have h1 : ((2 ^ m.log2 : Nat) : ℚ) ≤ m := by exact_mod_cast (log2_bounds hm0).1
    have : (2 : ℚ) ^ ((m.log2 : Int) + e) < 2 ^ (4 * (t - 64)) := by
      calc (2 : ℚ) ^ ((m.log2 : Int) + e) = 2 ^ (m.log2 : Int) * 2 ^ e := zpow_add₀ (by norm_num) _ _
        _ ≤ m * 2 ^ e := by
          apply mul_le_mul_of_nonneg_right _ (by positivity)
          rw [zpow_natCast]; exact_mod_cast h1
        _ < _ := hr2
    exact (zpow_lt_zpow_iff_right₀ (by norm_num)).mp this
  have htn : ((t.toNat : Nat) : Int) = t := Int.toNat_of_nonneg ht0
  have h1 : Is (ddivPow2 (dblAbs d) (4 * ((t.toNat : Int) - 64))) false m
      (e + -(4 * ((t.toNat : Int) - 64))) :=
    ha.scale (by omega) (by omega) b1 (by omega) (by omega)
  have h2 := h1.scale (k := 24) (by decide) (by decide) b1 (by omega) (by omega)
  have h3 : Is (dmul (ddivPow2 (dblAbs d) (4 * ((t.toNat : Int) - 64))) (pow2 24)) false m
      (e - 4 * t + 280) := by
    have e1 : e + -(4 * ((t.toNat : Int) - 64)) + 24 = e - 4 * t + 280 := by omega
    rw [e1] at h2; exact h2
  obtain ⟨m', e', h4, h5⟩ := h3
  obtain ⟨F, h6, h7, h8⟩ := trunc_fin false m' e'
  rw [h5] at h7 h8
  -- magnitude of the scaled value
  have hs1 : (2 : ℚ) ^ (20 : Int) ≤ m * 2 ^ (e - 4 * t + 280) := by
    have : (2 : ℚ) ^ (20 : Int) = 2 ^ (4 * (t - 65)) * 2 ^ (-4 * t + 280) := by
      rw [← zpow_add₀ (by norm_num)]; congr 1; omega
    rw [this]
    have e2 : (m : ℚ) * 2 ^ (e - 4 * t + 280) = m * 2 ^ e * 2 ^ (-4 * t + 280) := by
      rw [mul_assoc, ← zpow_add₀ (by norm_num)]; congr 2; omega
    rw [e2]
    exact mul_le_mul_of_nonneg_right hr1 (by positivity)
  have hs2 : (m : ℚ) * 2 ^ (e - 4 * t + 280) < 2 ^ (24 : Int) := by
    have : (2 : ℚ) ^ (24 : Int) = 2 ^ (4 * (t - 64)) * 2 ^ (-4 * t + 280) := by
      rw [← zpow_add₀ (by norm_num)]; congr 1; omega
    rw [this]
    have e2 : (m : ℚ) * 2 ^ (e - 4 * t + 280) = m * 2 ^ e * 2 ^ (-4 * t + 280) := by
      rw [mul_assoc, ← zpow_add₀ (by norm_num)]; congr 2; omega
    rw [e2]
    exact mul_lt_mul_of_pos_right hr2 (by positivity)
  have hF1 : 2 ^ 20 ≤ F := by
    have : (2 : ℚ) ^ (20 : Int) < F + 1 := lt_of_le_of_lt hs1 h8
    have e20 : (2 : ℚ) ^ (20 : Int) = ((2 ^ 20 : Nat) : ℚ) := by norm_num
    rw [e20, ← Nat.cast_succ] at this
    have := Nat.cast_lt.mp this
    omega
  have hF2 : F < 2 ^ 24 := by
    have : (F : ℚ) < 2 ^ (24 : Int) := lt_of_le_of_lt h7 hs2
    have e24 : (2 : ℚ) ^ (24 : Int) = ((2 ^ 24 : Nat) : ℚ) := by norm_num
    rw [e24] at this
    exact Nat.cast_lt.mp this
  refine ⟨F, hF1, hF2, h7, h8, ?_⟩
  have hu : dblToU 4 (dmul (ddivPow2 (dblAbs d) (4 * ((t.toNat : Int) - 64))) (pow2 24))
      = .ok (F : Int) := by
    unfold dblToU dblToInt
    rw [h4, h6]
    simp only [Bool.false_eq_true, if_false]
    rw [if_pos (by omega)]
  rw [LogEst.toU_ok hu]
  simp only [ok_bind, pure_eq_ok, Int.toNat_natCast, and_ffffff, Nat.mod_eq_of_lt hF2]
  congr 1
  rw [Nat.or_assoc, shift_or hF2]
  have : 2 ^ 24 * t.toNat + F < 2 ^ 31 := by omega
  rw [shift_or this]
  cases s <;> simp <;> omega

/-- Zero has no encoding. -/
theorem ibmEncode_zero {est : LogEst} (hs : est.Strict) {d : Dbl} {s : Bool} {e : Int} (hd : d.val = .fin s 0 e) :
    ibmEncode est d = isUb .floatToInt := by
  have ha := dblAbs_is (d := d) (s := s) (n := 0) (g := e) ⟨0, e, hd, rfl⟩
  obtain ⟨m, e', h1, h2⟩ := ha
  have hm : m = 0 := by
    by_contra hne
    have hp : (0 : ℚ) < 2 ^ e' := by positivity
    have hn' : (0 : ℚ) < m := by exact_mod_cast Nat.pos_of_ne_zero hne
    have := mul_pos hn' hp
    rw [h2] at this
    simp at this
  subst hm
  unfold ibmEncode ibmExp
  simp only [h1, est.unfit_strict hs]
  rfl

end Sedaman
