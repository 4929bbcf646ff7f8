import Verif.Spec.Float
import Verif.Lemmas.Bytes
import Mathlib.Tactic.Ring
import Mathlib.Tactic.Linarith
import Mathlib.Tactic.Positivity
import Mathlib.Tactic.NormNum
import Mathlib.Tactic.FieldSimp

/-! # Lemmas about the floating point layer -/

namespace Sedaman

open Spec

/-- A usable format. -/
structure FFmt.Ok (f : FFmt) : Prop where
  hp : 2 ≤ f.p
  he : 1 ≤ f.ebits

theorem f64_ok : f64.Ok := ⟨by decide, by decide⟩
theorem f32_ok : f32.Ok := ⟨by decide, by decide⟩

theorem log2_bounds {m : Nat} (h : m ≠ 0) : 2 ^ m.log2 ≤ m ∧ m < 2 ^ (m.log2 + 1) :=
  ⟨Nat.log2_self_le h, Nat.lt_log2_self⟩

theorem log2_eq {m k : Nat} (h1 : 2 ^ k ≤ m) (h2 : m < 2 ^ (k + 1)) : m.log2 = k := by
  have hm : m ≠ 0 := by have := Nat.two_pow_pos k; omega
  exact (Nat.log2_eq_iff hm).mpr ⟨h1, h2⟩

theorem log2_mul_pow {m : Nat} (k : Nat) (h : m ≠ 0) : (m * 2 ^ k).log2 = m.log2 + k := by
  obtain ⟨h1, h2⟩ := log2_bounds h
  apply log2_eq
  · rw [Nat.pow_add]; exact Nat.mul_le_mul_right _ h1
  · rw [show m.log2 + k + 1 = (m.log2 + 1) + k by omega, Nat.pow_add]
    exact Nat.mul_lt_mul_of_pos_right h2 (Nat.two_pow_pos k)

/-! ## Rounding -/

theorem rne_exact (m k : Nat) : rne (m * 2 ^ k) k = m := by
  have hk := Nat.two_pow_pos k
  unfold rne
  simp only [Nat.mul_mod_left, Nat.mul_zero, hk, if_true, Nat.mul_div_cancel _ hk]

theorem rne_scale (m j k : Nat) : rne (m * 2 ^ j) (k + j) = rne m k := by
  have hj := Nat.two_pow_pos j
  unfold rne
  rw [Nat.pow_add, Nat.mul_div_mul_right _ _ hj, Nat.mul_mod_mul_right]
  generalize m % 2 ^ k = r
  generalize m / 2 ^ k = q
  generalize 2 ^ k = K
  have e1 : (2 * (r * 2 ^ j) < K * 2 ^ j) ↔ (2 * r < K) := by
    rw [← Nat.mul_assoc]; exact Nat.mul_lt_mul_right hj
  have e2 : (K * 2 ^ j < 2 * (r * 2 ^ j)) ↔ (K < 2 * r) := by
    rw [← Nat.mul_assoc]; exact Nat.mul_lt_mul_right hj
  simp only [e1, e2]

theorem quantum_scale (f : FFmt) {m : Nat} (k : Nat) (e : Int) (h : m ≠ 0) :
    quantum f (m * 2 ^ k) e = quantum f m (e + k) := by
  unfold quantum
  rw [log2_mul_pow k h]
  push_cast
  congr 1
  ring

/-- The encoding depends on the value only. -/
theorem encMag_scale (f : FFmt) (m k : Nat) (e : Int) :
    encMag f (m * 2 ^ k) e = encMag f m (e + k) := by
  by_cases hm : m = 0
  · subst hm; simp [encMag]
  have hmk : m * 2 ^ k ≠ 0 := Nat.mul_ne_zero hm (Nat.ne_of_gt (Nat.two_pow_pos k))
  unfold encMag
  rw [if_neg hm, if_neg hmk]
  simp only [quantum_scale f k e hm]
  generalize quantum f m (e + k) = q
  congr 2
  by_cases h1 : q ≤ e
  · rw [if_pos h1, if_pos (by omega), Nat.mul_assoc, ← Nat.pow_add]
    congr 2; omega
  · rw [if_neg h1]
    by_cases h2 : q ≤ e + k
    · rw [if_pos h2]
      have : m * 2 ^ k = m * 2 ^ (e + k - q).toNat * 2 ^ (q - e).toNat := by
        rw [Nat.mul_assoc, ← Nat.pow_add]; congr 2; omega
      rw [this, rne_exact]
    · rw [if_neg h2]
      have : (q - e).toNat = (q - (e + k)).toNat + k := by omega
      rw [this, rne_scale]

theorem encMag_zero (f : FFmt) (e : Int) : encMag f 0 e = 0 := by simp [encMag]

/-- Two representations of the same rational have the same encoding. -/
theorem encMag_congr (f : FFmt) {m n : Nat} {e g : Int}
    (h : (m : ℚ) * 2 ^ e = (n : ℚ) * 2 ^ g) : encMag f m e = encMag f n g := by
  have key : ∀ (m n : Nat) (e g : Int), e ≤ g → (m : ℚ) * 2 ^ e = (n : ℚ) * 2 ^ g →
      encMag f m e = encMag f n g := by
    intro m n e g hle h
    obtain ⟨k, hk⟩ := Int.le.dest hle
    have e1 : (m : ℚ) = n * 2 ^ k := by
      have h2 : (2 : ℚ) ^ g = 2 ^ e * 2 ^ k := by
        rw [← hk, zpow_add₀ (by norm_num), zpow_natCast]
      rw [h2] at h
      have h3 : (2 : ℚ) ^ e ≠ 0 := by positivity
      have : (m : ℚ) * 2 ^ e = (n * 2 ^ k) * 2 ^ e := by rw [h]; ring
      exact mul_right_cancel₀ h3 this
    have e2 : m = n * 2 ^ k := by exact_mod_cast e1
    rw [e2, encMag_scale, hk]
  rcases Int.le_total e g with hle | hle
  · exact key m n e g hle h
  · exact (key n m g e hle h.symm).symm

/-- Encoding a decoded finite magnitude gives the pattern back. -/
theorem encMag_decMag {f : FFmt} (hf : f.Ok) {b : Nat} (hb : b < f.infMag) :
    encMag f (decMag f b).1 (decMag f b).2 = b := by
  have hp := hf.hp
  have hP : 0 < 2 ^ (f.p - 1) := Nat.two_pow_pos _
  have hdm := Nat.div_add_mod b (2 ^ (f.p - 1))
  have hmod := Nat.mod_lt b hP
  unfold decMag
  by_cases hE : b / 2 ^ (f.p - 1) = 0
  · rw [if_pos hE]
    simp only
    unfold encMag
    by_cases h0 : b = 0
    · simp [h0]
    · rw [if_neg h0]
      have hlt : b < 2 ^ (f.p - 1) := (Nat.div_eq_zero_iff_lt hP).mp hE
      have hlog : b.log2 < f.p - 1 := (Nat.log2_lt h0).mpr hlt
      have hq : quantum f b f.emin = f.emin := by
        unfold quantum; omega
      simp only [hq]
      rw [if_pos (Int.le_refl _)]
      simp only [Int.sub_self, Int.toNat_zero, Nat.zero_mul, Nat.pow_zero, Nat.mul_one,
        Nat.zero_add]
      exact Nat.min_eq_left (Nat.le_of_lt hb)
  · rw [if_neg hE]
    simp only
    unfold encMag
    have hm0 : 2 ^ (f.p - 1) + b % 2 ^ (f.p - 1) ≠ 0 := by omega
    rw [if_neg hm0]
    have hlog : (2 ^ (f.p - 1) + b % 2 ^ (f.p - 1)).log2 = f.p - 1 := by
      apply log2_eq
      · omega
      · rw [Nat.pow_succ]; omega
    have hq : quantum f (2 ^ (f.p - 1) + b % 2 ^ (f.p - 1))
        (f.emin + ((b / 2 ^ (f.p - 1) : Nat) : Int) - 1)
        = f.emin + ((b / 2 ^ (f.p - 1) : Nat) : Int) - 1 := by
      unfold quantum
      rw [hlog]
      generalize b / 2 ^ (f.p - 1) = E at *
      omega
    simp only [hq]
    rw [if_pos (Int.le_refl _)]
    generalize hEd : b / 2 ^ (f.p - 1) = E at *
    have e1 : (f.emin + (E : Int) - 1 - f.emin).toNat = E - 1 := by omega
    rw [e1, Int.sub_self]
    obtain ⟨E', rfl⟩ : ∃ E', E = E' + 1 := ⟨E - 1, by omega⟩
    have e2 : 2 ^ (f.p - 1) * (E' + 1) = E' * 2 ^ (f.p - 1) + 2 ^ (f.p - 1) := by ring
    simp only [Nat.add_sub_cancel, Int.toNat_zero, Nat.pow_zero, Nat.mul_one]
    omega

/-- Decoding the encoding of an exactly representable magnitude. -/
theorem decMag_encMag {f : FFmt} (hf : f.Ok) {m : Nat} {e : Int} (h0 : m ≠ 0)
    (hm : m < 2 ^ f.p) (he : f.emin ≤ e)
    (hov : (m.log2 : Int) + 1 + e ≤ f.emin + f.p + (2 ^ f.ebits : Nat) - 3) :
    decMag f (encMag f m e) = (m * 2 ^ (e - quantum f m e).toNat, quantum f m e) ∧
    encMag f m e < f.infMag ∧ quantum f m e ≤ e := by
  have hp := hf.hp
  have hP : 0 < 2 ^ (f.p - 1) := Nat.two_pow_pos _
  have hpp : 2 ^ f.p = 2 * 2 ^ (f.p - 1) := by
    rw [← Nat.pow_succ']; congr 1; omega
  have hlog : m.log2 < f.p := (Nat.log2_lt h0).mpr hm
  obtain ⟨hl1, hl2⟩ := log2_bounds h0
  have hqe : quantum f m e ≤ e := by unfold quantum; omega
  have hqmin : f.emin ≤ quantum f m e := by unfold quantum; omega
  have hE2 : 2 ≤ 2 ^ f.ebits := by
    calc 2 = 2 ^ 1 := rfl
      _ ≤ 2 ^ f.ebits := Nat.pow_le_pow_right (by decide) hf.he
  -- scaled significand
  have hs2 : m * 2 ^ (e - quantum f m e).toNat < 2 ^ f.p := by
    calc m * 2 ^ (e - quantum f m e).toNat
        < 2 ^ (m.log2 + 1) * 2 ^ (e - quantum f m e).toNat :=
          Nat.mul_lt_mul_of_pos_right hl2 (Nat.two_pow_pos _)
      _ = 2 ^ (m.log2 + 1 + (e - quantum f m e).toNat) := (Nat.pow_add ..).symm
      _ ≤ 2 ^ f.p := Nat.pow_le_pow_right (by decide) (by unfold quantum; omega)
  have hraw : (quantum f m e - f.emin).toNat * 2 ^ (f.p - 1)
      + m * 2 ^ (e - quantum f m e).toNat < f.infMag := by
    unfold FFmt.infMag
    by_cases hc : quantum f m e = f.emin
    · rw [hc, Int.sub_self]
      rw [hc] at hs2
      simp only [Int.toNat_zero, Nat.zero_mul, Nat.zero_add]
      by_cases hE3 : 3 ≤ 2 ^ f.ebits
      · calc m * 2 ^ (e - f.emin).toNat < 2 * 2 ^ (f.p - 1) := by omega
          _ ≤ (2 ^ f.ebits - 1) * 2 ^ (f.p - 1) := Nat.mul_le_mul_right _ (by omega)
      · have hE : 2 ^ f.ebits = 2 := by omega
        rw [hE]
        have : m * 2 ^ (e - f.emin).toNat < 2 ^ (f.p - 1) := by
          calc m * 2 ^ (e - f.emin).toNat
              < 2 ^ (m.log2 + 1) * 2 ^ (e - f.emin).toNat :=
                Nat.mul_lt_mul_of_pos_right hl2 (Nat.two_pow_pos _)
            _ = 2 ^ (m.log2 + 1 + (e - f.emin).toNat) := (Nat.pow_add ..).symm
            _ ≤ 2 ^ (f.p - 1) := Nat.pow_le_pow_right (by decide) (by rw [hE] at hov; omega)
        omega
    · have hq : quantum f m e = (m.log2 : Int) + 1 + e - f.p := by unfold quantum at *; omega
      have hk : (quantum f m e - f.emin).toNat + 2 ≤ 2 ^ f.ebits - 1 := by omega
      calc (quantum f m e - f.emin).toNat * 2 ^ (f.p - 1)
            + m * 2 ^ (e - quantum f m e).toNat
          < (quantum f m e - f.emin).toNat * 2 ^ (f.p - 1) + 2 * 2 ^ (f.p - 1) := by omega
        _ = ((quantum f m e - f.emin).toNat + 2) * 2 ^ (f.p - 1) := by ring
        _ ≤ (2 ^ f.ebits - 1) * 2 ^ (f.p - 1) := Nat.mul_le_mul_right _ hk
  have henc : encMag f m e = (quantum f m e - f.emin).toNat * 2 ^ (f.p - 1)
      + m * 2 ^ (e - quantum f m e).toNat := by
    unfold encMag
    rw [if_neg h0]
    simp only
    rw [if_pos hqe, Nat.min_eq_left (Nat.le_of_lt hraw)]
  refine ⟨?_, by rw [henc]; exact hraw, hqe⟩
  rw [henc]
  generalize hM : m * 2 ^ (e - quantum f m e).toNat = M at *
  unfold decMag
  by_cases hc : (m.log2 : Int) + 1 + e - f.p < f.emin
  · -- subnormal
    have hq : quantum f m e = f.emin := by unfold quantum; omega
    have hMlt : M < 2 ^ (f.p - 1) := by
      rw [← hM, hq]
      calc m * 2 ^ (e - f.emin).toNat
          < 2 ^ (m.log2 + 1) * 2 ^ (e - f.emin).toNat :=
            Nat.mul_lt_mul_of_pos_right hl2 (Nat.two_pow_pos _)
        _ = 2 ^ (m.log2 + 1 + (e - f.emin).toNat) := (Nat.pow_add ..).symm
        _ ≤ 2 ^ (f.p - 1) := Nat.pow_le_pow_right (by decide) (by omega)
    rw [hq, Int.sub_self]
    simp only [Int.toNat_zero, Nat.zero_mul, Nat.zero_add]
    rw [if_pos (Nat.div_eq_of_lt hMlt)]
  · have hq : quantum f m e = (m.log2 : Int) + 1 + e - f.p := by unfold quantum; omega
    have hMge : 2 ^ (f.p - 1) ≤ M := by
      rw [← hM]
      calc 2 ^ (f.p - 1) ≤ 2 ^ (m.log2 + (e - quantum f m e).toNat) :=
            Nat.pow_le_pow_right (by decide) (by omega)
        _ = 2 ^ m.log2 * 2 ^ (e - quantum f m e).toNat := by rw [Nat.pow_add]
        _ ≤ m * 2 ^ (e - quantum f m e).toNat := Nat.mul_le_mul_right _ hl1
    obtain ⟨F, rfl⟩ : ∃ F, M = 2 ^ (f.p - 1) + F := ⟨M - 2 ^ (f.p - 1), by omega⟩
    have hF : F < 2 ^ (f.p - 1) := by omega
    generalize hk : (quantum f m e - f.emin).toNat = k at *
    have e1 : k * 2 ^ (f.p - 1) + (2 ^ (f.p - 1) + F) = F + 2 ^ (f.p - 1) * (k + 1) := by ring
    rw [e1, Nat.add_mul_div_left _ _ hP, Nat.div_eq_of_lt hF, Nat.add_mul_mod_self_left,
      Nat.mod_eq_of_lt hF, if_neg (by omega)]
    simp only [Prod.mk.injEq, true_and]
    push_cast
    omega

/-- Rational value of an exactly representable magnitude survives encoding. -/
theorem decMag_encMag_rat {f : FFmt} (hf : f.Ok) {m : Nat} {e : Int}
    (hm : m < 2 ^ f.p) (he : f.emin ≤ e)
    (hov : (m.log2 : Int) + 1 + e ≤ f.emin + f.p + (2 ^ f.ebits : Nat) - 3) :
    ((decMag f (encMag f m e)).1 : ℚ) * 2 ^ (decMag f (encMag f m e)).2 = (m : ℚ) * 2 ^ e ∧
    encMag f m e < f.infMag := by
  by_cases h0 : m = 0
  · subst h0
    rw [encMag_zero]
    have hP : 0 < 2 ^ (f.p - 1) := Nat.two_pow_pos _
    refine ⟨by simp [decMag], ?_⟩
    unfold FFmt.infMag
    have hE2 : 2 ≤ 2 ^ f.ebits := by
      calc 2 = 2 ^ 1 := rfl
        _ ≤ 2 ^ f.ebits := Nat.pow_le_pow_right (by decide) hf.he
    exact Nat.mul_pos (by omega) hP
  · obtain ⟨h1, h2, h3⟩ := decMag_encMag hf h0 hm he hov
    refine ⟨?_, h2⟩
    rw [h1]
    simp only
    push_cast
    rw [mul_assoc, ← zpow_natCast, ← zpow_add₀ (by norm_num)]
    congr 2
    omega

/-! ## Whole patterns -/

theorem encMag_le (f : FFmt) (m : Nat) (e : Int) : encMag f m e ≤ f.infMag := by
  unfold encMag
  split
  · exact Nat.zero_le _
  · exact Nat.min_le_right _ _

theorem infMag_lt (f : FFmt) : f.infMag < 2 ^ (f.p - 1 + f.ebits) := by
  unfold FFmt.infMag
  rw [Nat.pow_add, Nat.mul_comm]
  exact Nat.mul_lt_mul_of_pos_left (Nat.sub_lt (Nat.two_pow_pos _) (by decide)) (Nat.two_pow_pos _)

/-- Not-a-number test. -/
def FVal.isNan : FVal → Bool
  | .nan => true
  | _ => false

/-- Encoding a decoded non-NaN pattern gives the pattern back. -/
theorem encF_decF {f : FFmt} (hf : f.Ok) {b : Nat} (hb : b < 2 ^ (f.p - 1 + f.ebits) * 2)
    (hn : (decF f b).isNan = false) : encF f (decF f b) = b := by
  have hsb : 0 < 2 ^ (f.p - 1 + f.ebits) := Nat.two_pow_pos _
  unfold decF at *
  simp only at *
  generalize hS : 2 ^ (f.p - 1 + f.ebits) = S at *
  have hsgn : (if decide (S ≤ b) = true then S else 0) + b % S = b := by
    by_cases h : S ≤ b
    · simp only [h, decide_true, if_true]
      have h1 : b % S = b - S := by
        rw [Nat.mod_eq_sub_mod h, Nat.mod_eq_of_lt (by omega)]
      omega
    · simp only [h, decide_false]
      rw [Nat.mod_eq_of_lt (by omega)]; simp
  by_cases h1 : b % S < f.infMag
  · rw [if_pos h1]
    simp only [encF, hS]
    rw [encMag_decMag hf h1]
    exact hsgn
  · rw [if_neg h1] at hn ⊢
    by_cases h2 : b % S = f.infMag
    · rw [if_pos h2]
      simp only [encF, hS]
      rw [← h2]
      exact hsgn
    · rw [if_neg h2] at hn
      simp [FVal.isNan] at hn

theorem f64_bits : 2 ^ (f64.p - 1 + f64.ebits) * 2 = 2 ^ 64 := by decide
theorem f32_bits : 2 ^ (f32.p - 1 + f32.ebits) * 2 = 2 ^ 32 := by decide

theorem toDbl_val {d : Dbl} (h : d.val.isNan = false) : toDbl d.val = d := by
  unfold toDbl Dbl.val at *
  rw [encF_decF f64_ok (by rw [f64_bits]; exact d.isLt) h]
  simp

theorem toSgl_val {d : Sgl} (h : d.val.isNan = false) : toSgl d.val = d := by
  unfold toSgl Sgl.val at *
  rw [encF_decF f32_ok (by rw [f32_bits]; exact d.isLt) h]
  simp

theorem encF_lt (f : FFmt) (hp : 2 ≤ f.p) (v : FVal) : encF f v < 2 ^ (f.p - 1 + f.ebits) * 2 := by
  have h1 := infMag_lt f
  cases v with
  | nan =>
    simp only [encF]
    have : 2 ^ (f.p - 2) ≤ 2 ^ (f.p - 1 + f.ebits) := Nat.pow_le_pow_right (by decide) (by omega)
    omega
  | inf s => simp only [encF]; split <;> omega
  | fin s m e =>
    have := encMag_le f m e
    simp only [encF]; split <;> omega

theorem decF_encF_fin (f : FFmt) (s : Bool) (m : Nat) (e : Int)
    (h : encMag f m e < f.infMag) :
    decF f (encF f (.fin s m e)) = .fin s (decMag f (encMag f m e)).1 (decMag f (encMag f m e)).2 := by
  have h1 := infMag_lt f
  unfold decF
  simp only [encF]
  cases s
  · simp only [Bool.false_eq_true, if_false, Nat.zero_add]
    rw [Nat.mod_eq_of_lt (by omega), if_pos h, decide_eq_false (by omega)]
  · simp only [if_true]
    rw [Nat.add_mod_left, Nat.mod_eq_of_lt (by omega), if_pos h, decide_eq_true (by omega)]

/-- Exact conversion to `double`. -/
theorem toDbl_exact {s : Bool} {m : Nat} {e : Int} (hm : m < 2 ^ 53) (he : -1074 ≤ e)
    (hov : (m.log2 : Int) + 1 + e ≤ 1024) :
    ∃ m' e', (toDbl (.fin s m e)).val = .fin s m' e' ∧ (m' : ℚ) * 2 ^ e' = (m : ℚ) * 2 ^ e := by
  obtain ⟨h1, h2⟩ := decMag_encMag_rat f64_ok (m := m) (e := e) hm he (by
    show (m.log2 : Int) + 1 + e ≤ -1074 + (53 : Nat) + (2 ^ 11 : Nat) - 3
    omega)
  refine ⟨_, _, ?_, h1⟩
  unfold toDbl Dbl.val
  rw [BitVec.toNat_ofNat, Nat.mod_eq_of_lt, decF_encF_fin _ _ _ _ h2]
  have := encF_lt f64 (by decide) (.fin s m e)
  rw [f64_bits] at this
  exact this

theorem toSgl_exact {s : Bool} {m : Nat} {e : Int} (hm : m < 2 ^ 24) (he : -149 ≤ e)
    (hov : (m.log2 : Int) + 1 + e ≤ 128) :
    ∃ m' e', (toSgl (.fin s m e)).val = .fin s m' e' ∧ (m' : ℚ) * 2 ^ e' = (m : ℚ) * 2 ^ e := by
  obtain ⟨h1, h2⟩ := decMag_encMag_rat f32_ok (m := m) (e := e) hm he (by
    show (m.log2 : Int) + 1 + e ≤ -149 + (24 : Nat) + (2 ^ 8 : Nat) - 3
    omega)
  refine ⟨_, _, ?_, h1⟩
  unfold toSgl Sgl.val
  rw [BitVec.toNat_ofNat, Nat.mod_eq_of_lt, decF_encF_fin _ _ _ _ h2]
  have := encF_lt f32 (by decide) (.fin s m e)
  rw [f32_bits] at this
  exact this

/-- Rounding to `double` depends on the value only. -/
theorem toDbl_congr {s : Bool} {m n : Nat} {e g : Int}
    (h : (m : ℚ) * 2 ^ e = (n : ℚ) * 2 ^ g) : toDbl (.fin s m e) = toDbl (.fin s n g) := by
  unfold toDbl; simp only [encF]; rw [encMag_congr f64 h]

theorem toSgl_congr {s : Bool} {m n : Nat} {e g : Int}
    (h : (m : ℚ) * 2 ^ e = (n : ℚ) * 2 ^ g) : toSgl (.fin s m e) = toSgl (.fin s n g) := by
  unfold toSgl; simp only [encF]; rw [encMag_congr f32 h]

end Sedaman
