import Verif.Lemmas.SampleFmt
import Verif.Lemmas.SegdFloat
import Verif.Lemmas.Trunc
import Mathlib.Tactic.Linarith

/-! # Rounding to double is monotone -/

namespace Sedaman

open Spec

theorem dblRat_bounds {y : Dbl} {w : ℚ} (h : dblRat y = some w) :
    ∃ (s : Bool) (n : Nat) (g : Int), n < 2 ^ 53 ∧ (-1074 : Int) ≤ g ∧
      w = (if s then -1 else 1) * ((n : ℚ) * 2 ^ g) := by
  unfold dblRat ratOf at h
  split at h
  · rename_i s n g hv
    obtain ⟨b1, b2, _⟩ := dbl_fin_bounds hv
    simp only [Option.some.injEq] at h
    exact ⟨s, n, g, b1, b2, by rw [← h]; cases s <;> simp⟩
  · cases h

/-- `y` is a double, and no double is nearer to `x`. -/
def RoundsTo (x y : ℚ) : Prop :=
  (∃ d, dblRat d = some y) ∧ ∀ d z, dblRat d = some z → |x - y| ≤ |x - z|

/-- Magnitudes far from overflow. -/
def Tame (x : ℚ) : Prop := |x| ≤ 2 ^ 100

theorem toDbl_rounds {v : FVal} {x : ℚ} (hv : ratOf v = some x) (hx : Tame x) :
    ∃ y, dblRat (toDbl v) = some y ∧ RoundsTo x y := by
  unfold Tame at hx
  unfold ratOf at hv
  split at hv
  case h_2 => cases hv
  rename_i s m e
  simp only [Option.some.injEq] at hv
  have hx' : x = (if s then -1 else 1) * ((m : ℚ) * 2 ^ e) := by rw [← hv]; ring
  have habs : |x| = (m : ℚ) * 2 ^ e := by
    rw [hx', abs_mul, abs_of_nonneg (a := (m : ℚ) * 2 ^ e) (by positivity)]
    cases s <;> simp
  have hov : encMag f64 m e < f64.infMag := by
    apply encMag_no_overflow f64_ok (by decide)
    rw [← habs]
    refine lt_of_le_of_lt hx ?_
    have e1 : f64.emin + ((2 ^ f64.ebits : Nat) : Int) - 3 = ((971 : Nat) : Int) := by decide
    have e2 : (2 : ℚ) ^ f64.p = 2 ^ 53 := rfl
    rw [e1, zpow_natCast, e2]
    have h1 : (2 : ℚ) ^ 100 ≤ 2 ^ 971 := pow_le_pow_right₀ (by norm_num) (by decide)
    have h2 : (0 : ℚ) < 2 ^ 971 := by positivity
    have h3 : (1 : ℚ) < 2 ^ 53 - 1 / 2 := by norm_num
    exact lt_of_le_of_lt h1 (lt_mul_of_one_lt_left h2 h3)
  have hval : (toDbl (.fin s m e)).val
      = .fin s (decMag f64 (encMag f64 m e)).1 (decMag f64 (encMag f64 m e)).2 := by
    unfold toDbl Dbl.val
    rw [BitVec.toNat_ofNat, Nat.mod_eq_of_lt, decF_encF_fin _ _ _ _ hov]
    have := encF_lt f64 (by decide) (.fin s m e)
    rw [f64_bits] at this
    exact this
  have hy : dblRat (toDbl (.fin s m e)) = some ((if s then -1 else 1) *
      (((decMag f64 (encMag f64 m e)).1 : ℚ) * 2 ^ (decMag f64 (encMag f64 m e)).2)) := by
    unfold dblRat
    rw [hval]
    simp only [ratOf, mul_assoc]
  refine ⟨_, hy, ⟨_, hy⟩, fun d z hz => ?_⟩
  obtain ⟨t, n, g, hn, hg, hw⟩ := dblRat_bounds hz
  rw [hx', abs_sign]
  by_cases h0 : m = 0
  · subst h0
    rw [encMag_zero]
    have : (decMag f64 0).1 = 0 := by decide
    rw [this]
    simp only [Nat.cast_zero, zero_mul, sub_zero, abs_zero]
    exact abs_nonneg _
  rw [(decMag_encMag_round f64_ok h0 hov).1]
  by_cases hst : t = s
  · subst hst
    rw [hw, abs_sign]
    exact (nearest_mag f64_ok h0 hov hn hg).1
  · have h1 := (nearest_mag f64_ok h0 hov (n := 0) (g := -1074) (by decide) (by decide)).1
    simp only [Nat.cast_zero, zero_mul, sub_zero] at h1
    have hx0 : (0 : ℚ) ≤ (m : ℚ) * 2 ^ e := by positivity
    have hn0 : (0 : ℚ) ≤ (n : ℚ) * 2 ^ g := by positivity
    have hopp : |(if s then -1 else 1) * ((m : ℚ) * 2 ^ e) - z| = (m : ℚ) * 2 ^ e + (n : ℚ) * 2 ^ g := by
      rw [hw]
      have e1 : (if t then (-1 : ℚ) else 1) = -(if s then (-1 : ℚ) else 1) := by
        cases s <;> cases t <;> simp_all
      rw [e1]
      have e2 : (if s then (-1 : ℚ) else 1) * ((m : ℚ) * 2 ^ e) -
          -(if s then (-1 : ℚ) else 1) * ((n : ℚ) * 2 ^ g)
          = (if s then (-1 : ℚ) else 1) * ((m : ℚ) * 2 ^ e + (n : ℚ) * 2 ^ g) := by ring
      rw [e2, abs_mul, abs_of_nonneg (add_nonneg hx0 hn0)]
      cases s <;> simp
    rw [hopp]
    rw [abs_of_nonneg hx0] at h1
    linarith

theorem RoundsTo.mono {x y x' y' : ℚ} (h : RoundsTo x y) (h' : RoundsTo x' y') (hlt : x < x') : y ≤ y' := by
  obtain ⟨⟨d, hd⟩, h1⟩ := h
  obtain ⟨⟨d', hd'⟩, h2⟩ := h'
  have a1 := h1 _ _ hd'
  have a2 := h2 _ _ hd
  by_contra hc
  rcases abs_cases (x - y) with ⟨b1, c1⟩ | ⟨b1, c1⟩ <;> rcases abs_cases (x - y') with ⟨b2, c2⟩ | ⟨b2, c2⟩ <;>
    rcases abs_cases (x' - y) with ⟨b3, c3⟩ | ⟨b3, c3⟩ <;> rcases abs_cases (x' - y') with ⟨b4, c4⟩ | ⟨b4, c4⟩ <;>
    linarith

theorem RoundsTo.zero {y : ℚ} (h : RoundsTo 0 y) : y = 0 := by
  have h0 : dblRat 0 = some 0 := by
    have h : Dbl.val 0 = .fin false 0 (-1074) := by decide +kernel
    unfold dblRat; rw [h]; simp [ratOf]
  have := h.2 _ _ h0
  simpa using this

/-- Rounding keeps the order. -/
theorem toDbl_mono {v w : FVal} {x x' y y' : ℚ} (hv : ratOf v = some x) (hw : ratOf w = some x') (hx : Tame x)
    (hx' : Tame x') (hy : dblRat (toDbl v) = some y) (hy' : dblRat (toDbl w) = some y') (hle : x ≤ x') : y ≤ y' := by
  obtain ⟨z, h1, h2⟩ := toDbl_rounds hv hx
  obtain ⟨z', h3, h4⟩ := toDbl_rounds hw hx'
  rw [hy] at h1
  rw [hy'] at h3
  cases h1
  cases h3
  rcases hle.lt_or_eq with h | h
  · exact h2.mono h4 h
  subst h
  by_cases h0 : x = 0
  · subst h0
    rw [h2.zero, h4.zero]
  unfold ratOf at hv hw
  split at hv
  case h_2 => cases hv
  split at hw
  case h_2 => cases hw
  rename_i s m e _ t n g
  simp only [Option.some.injEq] at hv hw
  have hp1 : (0 : ℚ) ≤ (m : ℚ) * 2 ^ e := by positivity
  have hp2 : (0 : ℚ) ≤ (n : ℚ) * 2 ^ g := by positivity
  have hst : s = t ∧ (m : ℚ) * 2 ^ e = (n : ℚ) * 2 ^ g := by
    rw [mul_assoc] at hv hw
    cases s <;> cases t <;> simp only [Bool.false_eq_true, if_false, if_true, one_mul, neg_mul] at hv hw
    · exact ⟨rfl, by linarith⟩
    · exact absurd (by linarith : x = 0) h0
    · exact absurd (by linarith : x = 0) h0
    · exact ⟨rfl, by linarith⟩
  obtain ⟨rfl, h5⟩ := hst
  rw [toDbl_congr h5, hy'] at hy
  cases hy
  exact le_refl _

/-- A bound that is a double bounds the rounded number. -/
theorem RoundsTo.abs_bound {x y b : ℚ} (h : RoundsTo x y) {d : Dbl} (hd : dblRat d = some b) {d' : Dbl}
    (hd' : dblRat d' = some (-b)) (hb : |x| ≤ b) : |y| ≤ b := by
  obtain ⟨h1, h2⟩ := abs_le.1 hb
  have a1 := h.2 _ _ hd
  have a2 := h.2 _ _ hd'
  rw [abs_le]
  constructor
  · by_contra hc
    rcases abs_cases (x - y) with ⟨b1, c1⟩ | ⟨b1, c1⟩ <;> rcases abs_cases (x - -b) with ⟨b2, c2⟩ | ⟨b2, c2⟩ <;>
      linarith
  · by_contra hc
    rcases abs_cases (x - y) with ⟨b1, c1⟩ | ⟨b1, c1⟩ <;> rcases abs_cases (x - b) with ⟨b2, c2⟩ | ⟨b2, c2⟩ <;>
      linarith

end Sedaman
