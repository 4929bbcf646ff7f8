import Verif.Lemmas.Samples

/-! # Rounding is to the nearest representable number, ties to even -/

namespace Sedaman

open Spec

theorem rne_spec (m k : Nat) :
    |(m : ℚ) / 2 ^ k - (rne m k : ℚ)| ≤ 1 / 2 ∧
    (|(m : ℚ) / 2 ^ k - (rne m k : ℚ)| = 1 / 2 → rne m k % 2 = 0) := by
  have hpos : (0 : ℚ) < 2 ^ k := by positivity
  have h1 := Nat.div_add_mod m (2 ^ k)
  have h2 := Nat.mod_lt m (Nat.two_pow_pos k)
  unfold rne
  simp only
  generalize m / 2 ^ k = q at *
  generalize m % 2 ^ k = r at *
  have h1' : (m : ℚ) / 2 ^ k = q + r / 2 ^ k := by
    rw [← h1]; push_cast; field_simp
  have hr0 : (0 : ℚ) ≤ r / 2 ^ k := by positivity
  have hr1 : (r : ℚ) / 2 ^ k < 1 := by
    rw [div_lt_one hpos]; exact_mod_cast h2
  rw [h1']
  by_cases c1 : 2 * r < 2 ^ k
  · rw [if_pos c1]
    have : (r : ℚ) / 2 ^ k < 1 / 2 := by
      rw [div_lt_iff₀ hpos]
      have : ((2 * r : Nat) : ℚ) < ((2 ^ k : Nat) : ℚ) := by exact_mod_cast c1
      push_cast at this; linarith
    have e : (q : ℚ) + r / 2 ^ k - q = r / 2 ^ k := by ring
    rw [e, abs_of_nonneg hr0]
    exact ⟨by linarith, fun h => by linarith⟩
  · rw [if_neg c1]
    by_cases c2 : 2 ^ k < 2 * r
    · rw [if_pos c2]
      have : 1 / 2 < (r : ℚ) / 2 ^ k := by
        rw [lt_div_iff₀ hpos]
        have : ((2 ^ k : Nat) : ℚ) < ((2 * r : Nat) : ℚ) := by exact_mod_cast c2
        push_cast at this; linarith
      have e : (q : ℚ) + r / 2 ^ k - ((q + 1 : Nat) : ℚ) = -(1 - r / 2 ^ k) := by push_cast; ring
      rw [e, abs_neg, abs_of_nonneg (by linarith)]
      exact ⟨by linarith, fun h => by linarith⟩
    · rw [if_neg c2]
      have hh : 2 * r = 2 ^ k := by omega
      have hhalf : (r : ℚ) / 2 ^ k = 1 / 2 := by
        have : ((2 * r : Nat) : ℚ) = ((2 ^ k : Nat) : ℚ) := by exact_mod_cast hh
        push_cast at this
        rw [← this]
        have : (r : ℚ) ≠ 0 := by
          intro h0
          rw [h0] at this
          linarith
        field_simp
      rw [hhalf]
      have hq2 : q % 2 = 0 ∨ q % 2 = 1 := by omega
      rcases hq2 with hq | hq
      · rw [hq]
        have e : (q : ℚ) + 1 / 2 - ((q + 0 : Nat) : ℚ) = 1 / 2 := by push_cast; ring
        rw [e, abs_of_nonneg (by norm_num)]
        exact ⟨le_refl _, fun _ => by omega⟩
      · rw [hq]
        have e : (q : ℚ) + 1 / 2 - ((q + 1 : Nat) : ℚ) = -(1 / 2) := by push_cast; ring
        rw [e, abs_neg, abs_of_nonneg (by norm_num)]
        exact ⟨le_refl _, fun _ => by omega⟩

/-- The rounded significand. -/
def roundSig (f : FFmt) (m : Nat) (e : Int) : Nat :=
  if quantum f m e ≤ e then m * 2 ^ (e - quantum f m e).toNat
  else rne m (quantum f m e - e).toNat

theorem roundSig_spec (f : FFmt) (m : Nat) (e : Int) :
    |(m : ℚ) * 2 ^ (e - quantum f m e) - (roundSig f m e : ℚ)| ≤ 1 / 2 ∧
    (|(m : ℚ) * 2 ^ (e - quantum f m e) - (roundSig f m e : ℚ)| = 1 / 2 → roundSig f m e % 2 = 0) := by
  unfold roundSig
  generalize quantum f m e = q
  by_cases h : q ≤ e
  · rw [if_pos h]
    obtain ⟨k, hk⟩ := Int.eq_ofNat_of_zero_le (a := e - q) (by omega)
    rw [hk]
    have : (m : ℚ) * 2 ^ (Int.ofNat k) - ((m * 2 ^ (Int.ofNat k).toNat : Nat) : ℚ) = 0 := by
      simp
    simp only [Int.ofNat_eq_natCast] at this ⊢
    rw [this, abs_zero]
    exact ⟨by norm_num, fun h => by norm_num at h⟩
  · rw [if_neg h]
    obtain ⟨k, hk⟩ := Int.eq_ofNat_of_zero_le (a := q - e) (by omega)
    have he : e - q = -(k : Int) := by omega
    rw [he, hk, zpow_neg, zpow_natCast, ← div_eq_mul_inv, Int.toNat_natCast]
    exact rne_spec m k

theorem encMag_raw (f : FFmt) {m : Nat} (e : Int) (h0 : m ≠ 0) :
    encMag f m e = min ((quantum f m e - f.emin).toNat * 2 ^ (f.p - 1) + roundSig f m e) f.infMag := by
  unfold encMag roundSig
  rw [if_neg h0]

theorem decMag_raw {f : FFmt} (hf : f.Ok) {k M : Nat} (h1 : M ≤ 2 ^ f.p)
    (h2 : k = 0 ∨ 2 ^ (f.p - 1) ≤ M) :
    ((decMag f (k * 2 ^ (f.p - 1) + M)).1 : ℚ) * 2 ^ (decMag f (k * 2 ^ (f.p - 1) + M)).2
      = (M : ℚ) * 2 ^ (f.emin + k) := by
  have hp := hf.hp
  have hP : 0 < 2 ^ (f.p - 1) := Nat.two_pow_pos _
  have hpp : 2 ^ f.p = 2 * 2 ^ (f.p - 1) := by
    rw [← Nat.pow_succ']; congr 1; omega
  rw [hpp] at h1
  unfold decMag
  generalize hPd : 2 ^ (f.p - 1) = P at *
  by_cases c1 : M < P
  · have hk : k = 0 := by omega
    subst hk
    rw [Nat.zero_mul, Nat.zero_add, if_pos (Nat.div_eq_of_lt c1)]
    simp
  · by_cases c2 : M < 2 * P
    · have e1 : k * P + M = (M - P) + P * (k + 1) := by
        have : P * (k + 1) = k * P + P := by ring
        omega
      rw [e1, Nat.add_mul_div_left _ _ hP, Nat.div_eq_of_lt (by omega), Nat.add_mul_mod_self_left,
        Nat.mod_eq_of_lt (by omega), if_neg (by omega)]
      simp only
      have e2 : P + (M - P) = M := by omega
      rw [e2]
      congr 2
      push_cast; ring
    · have hM : M = 2 * P := by omega
      have e1 : k * P + M = 0 + P * (k + 2) := by
        have : P * (k + 2) = k * P + 2 * P := by ring
        omega
      rw [e1, Nat.add_mul_div_left _ _ hP, Nat.add_mul_mod_self_left, Nat.zero_div, Nat.zero_mod,
        if_neg (by omega)]
      simp only
      rw [hM]
      push_cast
      have e3 : f.emin + (0 + ((k : Int) + 2)) - 1 = f.emin + k + 1 := by ring
      rw [e3, zpow_add₀ (by norm_num) (f.emin + k) 1]
      ring

theorem roundSig_bounds {f : FFmt} (hf : f.Ok) {m : Nat} {e : Int} (h0 : m ≠ 0) :
    roundSig f m e ≤ 2 ^ f.p ∧
    ((quantum f m e - f.emin).toNat = 0 ∨
      (2 ^ (f.p - 1) ≤ roundSig f m e ∧ (2 ^ (f.p - 1) : ℚ) ≤ (m : ℚ) * 2 ^ (e - quantum f m e))) := by
  have hp := hf.hp
  obtain ⟨hl1, hl2⟩ := log2_bounds h0
  obtain ⟨r1, r2⟩ := roundSig_spec f m e
  have hX : (m : ℚ) * 2 ^ (e - quantum f m e) < 2 ^ f.p := by
    have h1 : (m : ℚ) < 2 ^ ((m.log2 : Int) + 1) := by
      have : ((m : Nat) : ℚ) < ((2 ^ (m.log2 + 1) : Nat) : ℚ) := by exact_mod_cast hl2
      push_cast at this
      have e1 : (2 : ℚ) ^ ((m.log2 : Int) + 1) = 2 ^ (m.log2 + 1) := by
        rw [← zpow_natCast]; push_cast; rfl
      rw [e1]; exact this
    calc (m : ℚ) * 2 ^ (e - quantum f m e)
        < 2 ^ ((m.log2 : Int) + 1) * 2 ^ (e - quantum f m e) :=
          mul_lt_mul_of_pos_right h1 (by positivity)
      _ = 2 ^ ((m.log2 : Int) + 1 + (e - quantum f m e)) := (zpow_add₀ (by norm_num) _ _).symm
      _ ≤ 2 ^ (f.p : Int) := by
          apply zpow_le_zpow_right₀ (by norm_num)
          unfold quantum; omega
      _ = 2 ^ f.p := zpow_natCast _ _
  constructor
  · have := (abs_le.mp r1).1
    have h2 : (roundSig f m e : ℚ) < ((2 ^ f.p + 1 : Nat) : ℚ) := by
      push_cast; linarith
    have := Nat.cast_lt.mp h2
    omega
  · by_cases hq : quantum f m e = f.emin
    · left; rw [hq]; simp
    · right
      have hq' : quantum f m e = (m.log2 : Int) + 1 + e - f.p := by unfold quantum at *; omega
      have hge : (2 ^ (f.p - 1) : ℚ) ≤ (m : ℚ) * 2 ^ (e - quantum f m e) := by
        have h1 : (2 : ℚ) ^ (m.log2 : Int) ≤ m := by
          rw [zpow_natCast]; exact_mod_cast hl1
        calc (2 : ℚ) ^ (f.p - 1) = 2 ^ ((m.log2 : Int) + (e - quantum f m e)) := by
              rw [← zpow_natCast]; congr 1; rw [hq']; omega
          _ = 2 ^ (m.log2 : Int) * 2 ^ (e - quantum f m e) := zpow_add₀ (by norm_num) _ _
          _ ≤ _ := mul_le_mul_of_nonneg_right h1 (by positivity)
      refine ⟨?_, hge⟩
      have := (abs_le.mp r1).2
      have h2 : ((2 ^ (f.p - 1) : Nat) : ℚ) < ((roundSig f m e + 1 : Nat) : ℚ) := by
        push_cast; linarith
      have := Nat.cast_lt.mp h2
      omega

theorem quantum_ge (f : FFmt) (m : Nat) (e : Int) : f.emin ≤ quantum f m e := by
  unfold quantum; omega

/-- Value of the rounded pattern. -/
theorem decMag_encMag_round {f : FFmt} (hf : f.Ok) {m : Nat} {e : Int} (h0 : m ≠ 0)
    (hov : encMag f m e < f.infMag) :
    ((decMag f (encMag f m e)).1 : ℚ) * 2 ^ (decMag f (encMag f m e)).2
      = (roundSig f m e : ℚ) * 2 ^ quantum f m e ∧
    encMag f m e = (quantum f m e - f.emin).toNat * 2 ^ (f.p - 1) + roundSig f m e := by
  obtain ⟨b1, b2⟩ := roundSig_bounds hf (e := e) h0
  have hq := quantum_ge f m e
  have hr := encMag_raw f e h0
  have hraw : encMag f m e = (quantum f m e - f.emin).toNat * 2 ^ (f.p - 1) + roundSig f m e := by
    omega
  refine ⟨?_, hraw⟩
  rw [hraw, decMag_raw hf b1 (b2.imp id And.left)]
  congr 2
  omega

/-- Nearest among magnitudes. -/
theorem nearest_mag {f : FFmt} (hf : f.Ok) {m : Nat} {e : Int} (h0 : m ≠ 0)
    (hov : encMag f m e < f.infMag) {n : Nat} {g : Int} (hn : n < 2 ^ f.p) (hg : f.emin ≤ g) :
    |(m : ℚ) * 2 ^ e - (roundSig f m e : ℚ) * 2 ^ quantum f m e| ≤ |(m : ℚ) * 2 ^ e - (n : ℚ) * 2 ^ g| ∧
    (|(m : ℚ) * 2 ^ e - (roundSig f m e : ℚ) * 2 ^ quantum f m e| = |(m : ℚ) * 2 ^ e - (n : ℚ) * 2 ^ g| →
      (n : ℚ) * 2 ^ g ≠ (roundSig f m e : ℚ) * 2 ^ quantum f m e → encMag f m e % 2 = 0) := by
  have hp := hf.hp
  obtain ⟨b1, b2⟩ := roundSig_bounds hf (e := e) h0
  obtain ⟨r1, r2⟩ := roundSig_spec f m e
  obtain ⟨_, hraw⟩ := decMag_encMag_round hf h0 hov
  have hqmin := quantum_ge f m e
  generalize hq : quantum f m e = q at *
  generalize hM : roundSig f m e = M at *
  have hQ : (0 : ℚ) < 2 ^ q := by positivity
  have hx : (m : ℚ) * 2 ^ e = (m : ℚ) * 2 ^ (e - q) * 2 ^ q := by
    rw [mul_assoc, ← zpow_add₀ (by norm_num)]; congr 2; omega
  rw [hx]
  generalize (m : ℚ) * 2 ^ (e - q) = X at *
  have hleft : |X * 2 ^ q - (M : ℚ) * 2 ^ q| = |X - M| * 2 ^ q := by
    rw [← sub_mul, abs_mul, abs_of_pos hQ]
  -- distance to any integer other than `M`
  have hint : ∀ N : Int, N ≠ (M : Int) → |X - M| ≤ |X - N| ∧ (|X - M| = |X - N| → |X - M| = 1 / 2) := by
    intro N hN
    have h1 : (1 : ℚ) ≤ |(N : ℚ) - M| := by
      have : (1 : Int) ≤ |N - (M : Int)| := Int.one_le_abs (by omega)
      have h2 : ((1 : Int) : ℚ) ≤ ((|N - (M : Int)| : Int) : ℚ) := by exact_mod_cast this
      push_cast at h2; exact h2
    have h2 : |(N : ℚ) - M| ≤ |X - M| + |X - N| := by
      have e1 : (N : ℚ) - M = (X - M) - (X - N) := by ring
      rw [e1]
      exact abs_sub _ _
    exact ⟨by linarith, fun h => by linarith⟩
  have heven : M % 2 = 0 → encMag f m e % 2 = 0 := by
    intro h
    rw [hraw]
    have : 2 ^ (f.p - 1) = 2 * 2 ^ (f.p - 2) := by rw [← Nat.pow_succ']; congr 1; omega
    rw [this]
    have : (q - f.emin).toNat * (2 * 2 ^ (f.p - 2)) = 2 * ((q - f.emin).toNat * 2 ^ (f.p - 2)) := by ring
    rw [this]
    omega
  by_cases hgq : q ≤ g
  · obtain ⟨k, hk⟩ := Int.eq_ofNat_of_zero_le (a := g - q) (by omega)
    have hy : (n : ℚ) * 2 ^ g = (((n * 2 ^ k : Nat) : Int) : ℚ) * 2 ^ q := by
      have : g = (k : Int) + q := by omega
      rw [this, zpow_add₀ (by norm_num), zpow_natCast]
      push_cast; ring
    rw [hy]
    generalize ((n * 2 ^ k : Nat) : Int) = N
    have hr : |X * 2 ^ q - (N : ℚ) * 2 ^ q| = |X - N| * 2 ^ q := by
      rw [← sub_mul, abs_mul, abs_of_pos hQ]
    rw [hleft, hr]
    by_cases hN : N = (M : Int)
    · subst hN
      exact ⟨by simp, fun _ h => by simp at h⟩
    · obtain ⟨i1, i2⟩ := hint N hN
      refine ⟨mul_le_mul_of_nonneg_right i1 (le_of_lt hQ), ?_⟩
      intro h _
      have h' : |X - M| = |X - N| := mul_right_cancel₀ (ne_of_gt hQ) h
      exact heven (r2 (i2 h'))
  · -- the candidate lies below the binade of the number
    have hb : (2 ^ (f.p - 1) : ℚ) ≤ X := by
      rcases b2 with h | h
      · omega
      · exact h.2
    have hy : (n : ℚ) * 2 ^ g < 2 ^ (f.p - 1) * 2 ^ q := by
      have h1 : (n : ℚ) < 2 ^ f.p := by exact_mod_cast hn
      calc (n : ℚ) * 2 ^ g < 2 ^ f.p * 2 ^ g := mul_lt_mul_of_pos_right h1 (by positivity)
        _ = 2 ^ ((f.p : Int) + g) := by rw [zpow_add₀ (by norm_num), zpow_natCast]
        _ ≤ 2 ^ (((f.p - 1 : Nat) : Int) + q) := by
            apply zpow_le_zpow_right₀ (by norm_num); omega
        _ = _ := by rw [zpow_add₀ (by norm_num), zpow_natCast]
    have hstrict : |X - M| * 2 ^ q < |X * 2 ^ q - (n : ℚ) * 2 ^ g| := by
      have h1 : |X - M| ≤ X - 2 ^ (f.p - 1) := by
        by_cases hN : ((2 ^ (f.p - 1) : Nat) : Int) = (M : Int)
        · have hM' : (M : ℚ) = 2 ^ (f.p - 1) := by
            have : ((2 ^ (f.p - 1) : Nat)) = M := by exact_mod_cast hN
            rw [← this]; push_cast; rfl
          rw [hM', abs_of_nonneg (by linarith)]
        · have := (hint _ hN).1
          push_cast at this
          rw [abs_of_nonneg (a := X - 2 ^ (f.p - 1)) (by linarith)] at this
          exact this
      have h2 : X * 2 ^ q - (n : ℚ) * 2 ^ g > (X - 2 ^ (f.p - 1)) * 2 ^ q := by
        rw [sub_mul]; linarith
      calc |X - M| * 2 ^ q ≤ (X - 2 ^ (f.p - 1)) * 2 ^ q := mul_le_mul_of_nonneg_right h1 (le_of_lt hQ)
        _ < X * 2 ^ q - (n : ℚ) * 2 ^ g := h2
        _ ≤ _ := le_abs_self _
    rw [hleft]
    exact ⟨le_of_lt hstrict, fun h => absurd h (ne_of_lt hstrict)⟩

/-- A magnitude below the rounding boundary of the largest finite number does not overflow. -/
theorem encMag_no_overflow {f : FFmt} (hf : f.Ok) (h3 : 3 ≤ 2 ^ f.ebits) {m : Nat} {e : Int}
    (hx : (m : ℚ) * 2 ^ e < (2 ^ f.p - 1 / 2) * 2 ^ (f.emin + (2 ^ f.ebits : Nat) - 3)) :
    encMag f m e < f.infMag := by
  have hp := hf.hp
  have hP : 0 < 2 ^ (f.p - 1) := Nat.two_pow_pos _
  have hpp : 2 ^ f.p = 2 * 2 ^ (f.p - 1) := by
    rw [← Nat.pow_succ']; congr 1; omega
  by_cases h0 : m = 0
  · subst h0
    rw [encMag_zero]
    exact Nat.mul_pos (by omega) hP
  obtain ⟨b1, b2⟩ := roundSig_bounds hf (e := e) h0
  obtain ⟨r1, _⟩ := roundSig_spec f m e
  have hqmin := quantum_ge f m e
  rw [encMag_raw f e h0]
  apply Nat.lt_of_le_of_lt (Nat.min_le_left _ _)
  unfold FFmt.infMag
  generalize hq : quantum f m e = q at *
  generalize hM : roundSig f m e = M at *
  have hQ : (0 : ℚ) < 2 ^ q := by positivity
  have hX : (m : ℚ) * 2 ^ e = (m : ℚ) * 2 ^ (e - q) * 2 ^ q := by
    rw [mul_assoc, ← zpow_add₀ (by norm_num)]; congr 2; omega
  rw [hX] at hx
  generalize (m : ℚ) * 2 ^ (e - q) = X at *
  generalize hk : (q - f.emin).toNat = k at *
  have hqk : q = f.emin + k := by omega
  -- the exponent cannot exceed the top binade
  have hkle : k ≤ 2 ^ f.ebits - 3 := by
    by_contra hc
    have hge : (2 ^ (f.p - 1) : ℚ) ≤ X := by
      rcases b2 with h | h
      · omega
      · exact h.2
    have h1 : (2 : ℚ) ^ (f.p - 1) * 2 ^ q < 2 ^ f.p * 2 ^ (f.emin + (2 ^ f.ebits : Nat) - 3) := by
      calc (2 : ℚ) ^ (f.p - 1) * 2 ^ q ≤ X * 2 ^ q := mul_le_mul_of_nonneg_right hge (le_of_lt hQ)
        _ < (2 ^ f.p - 1 / 2) * 2 ^ (f.emin + (2 ^ f.ebits : Nat) - 3) := hx
        _ ≤ _ := mul_le_mul_of_nonneg_right (by linarith) (by positivity)
    have h2 : (2 : ℚ) ^ (((f.p - 1 : Nat) : Int) + q) < 2 ^ ((f.p : Int) + (f.emin + (2 ^ f.ebits : Nat) - 3)) := by
      rw [zpow_add₀ (by norm_num), zpow_add₀ (by norm_num), zpow_natCast, zpow_natCast]
      exact h1
    have h3 := (zpow_lt_zpow_iff_right₀ (by norm_num : (1 : ℚ) < 2)).mp h2
    omega
  by_cases hlt : k < 2 ^ f.ebits - 3
  · calc k * 2 ^ (f.p - 1) + M ≤ k * 2 ^ (f.p - 1) + 2 * 2 ^ (f.p - 1) := by omega
      _ = (k + 2) * 2 ^ (f.p - 1) := by ring
      _ < (2 ^ f.ebits - 1) * 2 ^ (f.p - 1) := Nat.mul_lt_mul_of_pos_right (by omega) hP
  · have hke : k = 2 ^ f.ebits - 3 := by omega
    have hqe : q = f.emin + (2 ^ f.ebits : Nat) - 3 := by omega
    rw [← hqe] at hx
    have hXlt : X < 2 ^ f.p - 1 / 2 := lt_of_mul_lt_mul_right hx (le_of_lt hQ)
    have hMlt : M < 2 ^ f.p := by
      have h1 := (abs_le.mp r1).1
      have : (M : ℚ) < ((2 ^ f.p : Nat) : ℚ) := by push_cast; linarith
      exact Nat.cast_lt.mp this
    have e1 : (2 ^ f.ebits - 1) = k + 2 := by omega
    rw [e1]
    have e2 : (k + 2) * 2 ^ (f.p - 1) = k * 2 ^ (f.p - 1) + 2 * 2 ^ (f.p - 1) := by ring
    omega

end Sedaman
