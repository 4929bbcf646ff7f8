import Verif.Model.FloatAny
import Verif.Spec.FloatAny
import Verif.Lemmas.RawIO
import Mathlib.Tactic.Ring
import Mathlib.Tactic.FieldSimp
import Mathlib.Tactic.Linarith
import Mathlib.Tactic.Positivity

/-! # Lemmas: floating point conversion on other hosts -/

namespace Sedaman

open Spec

/-- The format has the parameters the code uses. -/
structure AnyFmt (f : FFmt) (mant ebits : Nat) : Prop where
  p : f.p = mant + 1
  e : f.ebits = ebits
  min : f.emin = 1 - biasAny ebits - mant

theorem any32 : AnyFmt f32 23 8 := ⟨rfl, rfl, by decide⟩
theorem any64 : AnyFmt f64 52 11 := ⟨rfl, rfl, by decide⟩

theorem decAny_normal {f : FFmt} {mant ebits n : Nat} (h : AnyFmt f mant ebits) {v : ℚ} (hv : ratOf (decF f n) = some v)
    (hE : n % 2 ^ (mant + ebits) / 2 ^ mant ≠ 0) :
    decAny mant ebits n = v ∧ (2 : ℚ) ^ (1 - biasAny ebits) ≤ |v| := by
  obtain ⟨hp, he, hm⟩ := h
  unfold decF at hv
  simp only [hp, he, Nat.add_sub_cancel] at hv
  split at hv
  · simp only [ratOf, Option.some.injEq] at hv
    unfold decMag at hv
    simp only [hp, Nat.add_sub_cancel, if_neg hE, hm] at hv
    have hd : n % 2 ^ (mant + ebits) % 2 ^ mant = n % 2 ^ mant :=
      Nat.mod_mod_of_dvd _ (Nat.pow_dvd_pow 2 (by omega))
    rw [hd] at hv
    generalize hEx : n % 2 ^ (mant + ebits) / 2 ^ mant = E at hE hv
    unfold decAny
    simp only [hEx]
    generalize n % 2 ^ mant = F at hv ⊢
    have hs : (if n / 2 ^ (mant + ebits) ≠ 0 then (-1 : ℚ) else 1) =
        if decide (2 ^ (mant + ebits) ≤ n) = true then -1 else 1 := by
      simp only [decide_eq_true_eq]
      by_cases hc : 2 ^ (mant + ebits) ≤ n
      · rw [if_pos hc, if_pos]
        have := Nat.div_pos hc (Nat.two_pow_pos (mant + ebits))
        omega
      · rw [if_neg hc, if_neg (not_not_intro (Nat.div_eq_of_lt (by omega)))]
    rw [hs]
    generalize hsg : (if decide (2 ^ (mant + ebits) ≤ n) = true then (-1 : ℚ) else 1) = sg at hv ⊢
    have hsa : |sg| = 1 := by rw [← hsg]; split <;> simp
    have key : ((2 ^ mant + F : Nat) : ℚ) * (2 : ℚ) ^ (1 - biasAny ebits - (mant : Int) + (E : Int) - 1) =
        2 ^ ((E : Int) - biasAny ebits) * (1 + (F : ℚ) / 2 ^ mant) := by
      rw [show (1 - biasAny ebits - (mant : Int) + (E : Int) - 1) = ((E : Int) - biasAny ebits) - (mant : Int) by ring,
        zpow_sub₀ (by norm_num), zpow_natCast]
      have : (2 : ℚ) ^ mant ≠ 0 := by positivity
      push_cast
      field_simp
    rw [← hv, mul_assoc, mul_assoc, key]
    refine ⟨rfl, ?_⟩
    rw [abs_mul, hsa, one_mul, abs_of_pos (by positivity)]
    have h1 : (2 : ℚ) ^ (1 - biasAny ebits) ≤ 2 ^ ((E : Int) - biasAny ebits) :=
      zpow_le_zpow_right₀ (by norm_num) (by omega)
    have h2 : (0 : ℚ) ≤ (F : ℚ) / 2 ^ mant := by positivity
    have h3 : (0 : ℚ) < 2 ^ ((E : Int) - biasAny ebits) := by positivity
    nlinarith
  · split at hv <;> cases hv

theorem decAny_low {f : FFmt} {mant ebits n : Nat} (h : AnyFmt f mant ebits) {v : ℚ} (hv : ratOf (decF f n) = some v)
    (hE : n % 2 ^ (mant + ebits) / 2 ^ mant = 0) :
    |v| < (2 : ℚ) ^ (1 - biasAny ebits) ∧ decAny mant ebits n ≠ v := by
  obtain ⟨hp, he, hm⟩ := h
  unfold decF at hv
  simp only [hp, he, Nat.add_sub_cancel] at hv
  split at hv
  · simp only [ratOf, Option.some.injEq] at hv
    unfold decMag at hv
    simp only [hp, Nat.add_sub_cancel, if_pos hE, hm] at hv
    have hd : n % 2 ^ (mant + ebits) % 2 ^ mant = n % 2 ^ mant :=
      Nat.mod_mod_of_dvd _ (Nat.pow_dvd_pow 2 (by omega))
    have hlt : n % 2 ^ (mant + ebits) < 2 ^ mant := by
      rcases Nat.div_eq_zero_iff.1 hE with h | h
      · have := Nat.two_pow_pos mant; omega
      · exact h
    rw [Nat.mod_eq_of_lt hlt] at hd
    rw [hd] at hv hlt
    unfold decAny
    simp only [hE]
    generalize n % 2 ^ mant = F at hv hlt ⊢
    have hs : (if n / 2 ^ (mant + ebits) ≠ 0 then (-1 : ℚ) else 1) =
        if decide (2 ^ (mant + ebits) ≤ n) = true then -1 else 1 := by
      simp only [decide_eq_true_eq]
      by_cases hc : 2 ^ (mant + ebits) ≤ n
      · rw [if_pos hc, if_pos]
        have := Nat.div_pos hc (Nat.two_pow_pos (mant + ebits))
        omega
      · rw [if_neg hc, if_neg (not_not_intro (Nat.div_eq_of_lt (by omega)))]
    rw [hs]
    generalize hsg : (if decide (2 ^ (mant + ebits) ≤ n) = true then (-1 : ℚ) else 1) = sg at hv ⊢
    have hsa : |sg| = 1 := by rw [← hsg]; split <;> simp
    have hs0 : sg ≠ 0 := by intro c; rw [c] at hsa; simp at hsa
    have hF : (F : ℚ) < 2 ^ mant := by exact_mod_cast hlt
    have hm0 : (0 : ℚ) < 2 ^ mant := by positivity
    have hz : (2 : ℚ) ^ (1 - biasAny ebits - (mant : Int)) = 2 ^ (1 - biasAny ebits) / 2 ^ mant := by
      rw [zpow_sub₀ (by norm_num), zpow_natCast]
    have hb : (2 : ℚ) ^ (1 - biasAny ebits) = 2 * 2 ^ (0 - biasAny ebits) := by
      rw [show 1 - biasAny ebits = 1 + (0 - biasAny ebits) by ring, zpow_add₀ (by norm_num), zpow_one]
    have hb0 : (0 : ℚ) < 2 ^ (0 - biasAny ebits) := by positivity
    refine ⟨?_, ?_⟩
    · rw [← hv, mul_assoc, abs_mul, hsa, one_mul, abs_of_nonneg (by positivity), hz]
      have : (F : ℚ) * (2 ^ (1 - biasAny ebits) / 2 ^ mant) = (F / 2 ^ mant) * 2 ^ (1 - biasAny ebits) := by ring
      rw [this]
      have h1 : (F : ℚ) / 2 ^ mant < 1 := by rw [div_lt_one hm0]; exact hF
      have h2 : (0 : ℚ) < 2 ^ (1 - biasAny ebits) := by positivity
      nlinarith
    · intro c
      rw [← hv, mul_assoc, mul_assoc] at c
      have c := mul_left_cancel₀ hs0 c
      rw [hz, hb] at c
      simp only [Nat.cast_zero] at c
      have h1 : (F : ℚ) / 2 ^ mant < 1 := by rw [div_lt_one hm0]; exact hF
      have : (F : ℚ) * (2 * 2 ^ (0 - biasAny ebits) / 2 ^ mant) = 2 ^ (0 - biasAny ebits) * (2 * (F / 2 ^ mant)) := by ring
      rw [this] at c
      have c := mul_left_cancel₀ (ne_of_gt hb0) c
      linarith
  · split at hv <;> cases hv

theorem ratToU_ok {bits : Nat} {x : ℚ} (h0 : 0 ≤ x) (h1 : x < 2 ^ bits) :
    ratToU bits x = .ok ⌊x⌋.toNat ∧ ((⌊x⌋.toNat : Nat) : Int) = ⌊x⌋ := by
  refine ⟨?_, Int.toNat_of_nonneg (Int.floor_nonneg.2 h0)⟩
  unfold ratToU
  rw [if_pos ⟨by linarith, h1⟩]

theorem biasAny_eq {ebits : Nat} (h : 2 ≤ ebits) : (2 : Int) ^ ebits = 2 * biasAny ebits + 2 ∧ 1 ≤ biasAny ebits := by
  obtain ⟨k, rfl⟩ : ∃ k, ebits = k + 2 := ⟨ebits - 2, by omega⟩
  have : (0 : Int) < 2 ^ k := by positivity
  unfold biasAny
  rw [show k + 2 - 1 = k + 1 by omega, pow_succ, pow_succ]
  constructor <;> omega

theorem encAny_wrong {f : FFmt} {mant ebits : Nat} {lg : ℚ → ℚ} {val : ℚ} (h : AnyFmt f mant ebits) (hlg : LogFloorOk lg)
    (hm : 1 ≤ mant) (he : 2 ≤ ebits) (h1 : (2 : ℚ) ^ (1 - biasAny ebits) ≤ |val|) (h2 : |val| < 2 ^ biasAny ebits) :
    ∃ n v, encAny lg mant ebits val = .ok n ∧ n < 2 ^ (mant + ebits + 1) ∧ ratOf (decF f n) = some v ∧ |val| < |v| ∧
      |v| < 3 * |val| ∧ (v < 0 ↔ val < 0) := by
  obtain ⟨b1, b2⟩ := biasAny_eq he
  have hpos : 0 < |val| := lt_of_lt_of_le (by positivity) h1
  obtain ⟨g1, g2⟩ := hlg |val| hpos
  generalize hle : ⌊lg |val|⌋ = e at g1 g2
  have e1 : e < biasAny ebits := by
    by_contra c
    have : (2 : ℚ) ^ biasAny ebits ≤ 2 ^ e := zpow_le_zpow_right₀ (by norm_num) (by omega)
    linarith
  have e2 : 1 - biasAny ebits ≤ e := by
    by_contra c
    have : (2 : ℚ) ^ (e + 1) ≤ 2 ^ (1 - biasAny ebits) := zpow_le_zpow_right₀ (by norm_num) (by omega)
    linarith
  obtain ⟨l1, l2⟩ : (e : ℚ) ≤ lg |val| ∧ lg |val| < e + 1 := Int.floor_eq_iff.1 hle
  have hfl : ⌊lg |val| + 1 + (biasAny ebits : ℚ)⌋ = e + 1 + biasAny ebits := by
    rw [Int.floor_add_intCast, Int.floor_add_one, hle]
  have hbig : (2 : ℚ) ^ ebits ≤ 2 ^ (mant + ebits + 1) := pow_le_pow_right₀ (by norm_num) (by omega)
  have hbq : (2 : ℚ) ^ ebits = 2 * (biasAny ebits : ℚ) + 2 := by exact_mod_cast b1
  have e1q : (e : ℚ) + 1 ≤ biasAny ebits := by exact_mod_cast e1
  have e2q : 1 - (biasAny ebits : ℚ) ≤ e := by exact_mod_cast e2
  obtain ⟨r1, r2⟩ := ratToU_ok (bits := mant + ebits + 1) (x := lg |val| + 1 + (biasAny ebits : ℚ)) (by linarith)
    (by linarith)
  rw [hfl] at r1 r2
  generalize hE : (e + 1 + biasAny ebits).toNat = E at r1 r2
  have hE2 : E + 2 ≤ 2 ^ ebits := by
    have : ((2 ^ ebits : Nat) : Int) = 2 * biasAny ebits + 2 := by push_cast; exact b1
    omega
  have hEm : E % 2 ^ ebits = E := Nat.mod_eq_of_lt (by omega)
  have hexp : (E : Int) - biasAny ebits = e + 1 := by omega
  have hp1 : (0 : ℚ) < 2 ^ (e + 1) := by positivity
  have hpe : (2 : ℚ) ^ (e + 1) = 2 * 2 ^ e := by rw [zpow_add₀ (by norm_num), zpow_one]; ring
  have q1 : |val| / 2 ^ (e + 1) < 1 := by rw [div_lt_one hp1]; exact g2
  have q2 : 1 / 2 ≤ |val| / 2 ^ (e + 1) := by
    rw [le_div_iff₀ hp1, hpe]
    linarith
  have hmq : (2 : ℚ) ≤ 2 ^ mant := by
    have := pow_le_pow_right₀ (a := (2 : ℚ)) (by norm_num) hm
    simpa using this
  have hbig2 : (2 : ℚ) ^ mant ≤ 2 ^ (mant + ebits + 1) := pow_le_pow_right₀ (by norm_num) (by omega)
  obtain ⟨s1, s2⟩ := ratToU_ok (bits := mant + ebits + 1) (x := |val| / 2 ^ (e + 1) * 2 ^ mant - 1) (by nlinarith)
    (by nlinarith)
  have hfle := Int.floor_le (|val| / 2 ^ (e + 1) * 2 ^ mant - 1)
  generalize hFx : ⌊|val| / 2 ^ (e + 1) * 2 ^ mant - 1⌋.toNat = F at s1 s2
  rw [← s2] at hfle
  have hFq : (F : ℚ) ≤ |val| / 2 ^ (e + 1) * 2 ^ mant - 1 := by exact_mod_cast hfle
  have hFlt : F < 2 ^ mant := by
    have : (F : ℚ) < ((2 ^ mant : Nat) : ℚ) := by push_cast; nlinarith
    exact_mod_cast this
  have hFm : F % 2 ^ mant = F := Nat.mod_eq_of_lt hFlt
  have henc : encAny lg mant ebits val =
      .ok ((if val < 0 then 1 else 0) * 2 ^ (mant + ebits) + E * 2 ^ mant + F) := by
    unfold encAny
    simp only
    rw [if_neg (ne_of_gt hpos), r1, ok_bind]
    simp only [hEm, hexp, s1, ok_bind, hFm]
    rfl
  have hmag : E * 2 ^ mant + F < 2 ^ (mant + ebits) := by
    have : (E + 1) * 2 ^ mant ≤ 2 ^ ebits * 2 ^ mant := Nat.mul_le_mul_right _ (by omega)
    rw [Nat.add_mul, one_mul, ← pow_add, Nat.add_comm ebits mant] at this
    omega
  generalize hsn : (if val < 0 then 1 else 0 : Nat) = sn at henc
  have hsn1 : sn ≤ 1 := by rw [← hsn]; split <;> omega
  have hmod : (sn * 2 ^ (mant + ebits) + E * 2 ^ mant + F) % 2 ^ (mant + ebits) = E * 2 ^ mant + F := by
    rw [Nat.add_assoc, Nat.add_comm, Nat.add_mul_mod_self_right, Nat.mod_eq_of_lt hmag]
  have hdiv : (E * 2 ^ mant + F) / 2 ^ mant = E := by
    rw [Nat.add_comm, Nat.add_mul_div_right _ _ (Nat.two_pow_pos mant), Nat.div_eq_of_lt hFlt, Nat.zero_add]
  have hmF : (sn * 2 ^ (mant + ebits) + E * 2 ^ mant + F) % 2 ^ mant = F := by
    rw [← Nat.mod_mod_of_dvd _ (Nat.pow_dvd_pow 2 (show mant ≤ mant + ebits by omega)), hmod, Nat.add_comm,
      Nat.add_mul_mod_self_right, hFm]
  have hsd : (sn * 2 ^ (mant + ebits) + E * 2 ^ mant + F) / 2 ^ (mant + ebits) = sn := by
    rw [Nat.add_assoc, Nat.add_comm, Nat.add_mul_div_right _ _ (Nat.two_pow_pos _), Nat.div_eq_of_lt hmag, Nat.zero_add]
  obtain ⟨v, hv⟩ : ∃ v, ratOf (decF f (sn * 2 ^ (mant + ebits) + E * 2 ^ mant + F)) = some v := by
    obtain ⟨hp, hee, -⟩ := h
    unfold decF
    simp only [hp, hee, Nat.add_sub_cancel, hmod]
    rw [if_pos]
    · exact ⟨_, rfl⟩
    · unfold FFmt.infMag
      rw [hp, hee, Nat.add_sub_cancel]
      have : (E + 1) * 2 ^ mant ≤ (2 ^ ebits - 1) * 2 ^ mant := Nat.mul_le_mul_right _ (by omega)
      rw [Nat.add_mul, one_mul] at this
      omega
  obtain ⟨hd, -⟩ := decAny_normal h hv (by rw [hmod, hdiv]; omega)
  unfold decAny at hd
  simp only [hmod, hdiv, hmF, hsd, hexp] at hd
  have hF0 : (0 : ℚ) ≤ (F : ℚ) / 2 ^ mant := by positivity
  have hFd : (F : ℚ) / 2 ^ mant < |val| / 2 ^ (e + 1) := by
    rw [div_lt_iff₀ (by positivity)]
    linarith
  have hval : |val| / 2 ^ (e + 1) * 2 ^ (e + 1) = |val| := div_mul_cancel₀ _ (ne_of_gt hp1)
  refine ⟨_, v, henc, ?_, hv, ?_, ?_, ?_⟩
  · rw [pow_succ]
    have : sn * 2 ^ (mant + ebits) ≤ 1 * 2 ^ (mant + ebits) := Nat.mul_le_mul_right _ hsn1
    omega
  all_goals
    have habs : |v| = 2 ^ (e + 1) * (1 + (F : ℚ) / 2 ^ mant) := by
      rw [← hd, mul_assoc, abs_mul]
      rw [abs_of_pos (a := 2 ^ (e + 1) * (1 + (F : ℚ) / 2 ^ mant)) (by positivity)]
      split <;> simp
  · rw [habs]; nlinarith
  · rw [habs]; nlinarith
  · rw [← hd]
    have hpp : (0 : ℚ) < 2 ^ (e + 1) * (1 + (F : ℚ) / 2 ^ mant) := by positivity
    by_cases hneg : val < 0
    · rw [if_pos hneg] at hsn
      subst hsn
      simp only [ne_eq, one_ne_zero, not_false_eq_true, if_true, hneg, iff_true]
      linarith
    · rw [if_neg hneg] at hsn
      subst hsn
      simp only [ne_eq, not_true_eq_false, if_false, hneg, iff_false, not_lt]
      linarith

end Sedaman
