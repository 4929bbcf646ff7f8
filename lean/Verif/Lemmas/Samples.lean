import Verif.Model.Samples
import Verif.Lemmas.RawIO
import Verif.Lemmas.Float

/-! # Lemmas about samples -/

namespace Sedaman

open Spec

theorem decMag_bounds {f : FFmt} (hf : f.Ok) {b : Nat} (hb : b < f.infMag) :
    (decMag f b).1 < 2 ^ f.p ∧ f.emin ≤ (decMag f b).2 ∧
    (decMag f b).2 ≤ f.emin + (2 ^ f.ebits : Nat) - 3 + (if (2 : Nat) ^ f.ebits = 2 then 1 else 0) := by
  have hp := hf.hp
  have hP : 0 < 2 ^ (f.p - 1) := Nat.two_pow_pos _
  have hpp : 2 ^ f.p = 2 * 2 ^ (f.p - 1) := by
    rw [← Nat.pow_succ']; congr 1; omega
  have hE2 : 2 ≤ 2 ^ f.ebits := by
    calc 2 = 2 ^ 1 := rfl
      _ ≤ 2 ^ f.ebits := Nat.pow_le_pow_right (by decide) hf.he
  have hmod := Nat.mod_lt b hP
  have hdiv : b / 2 ^ (f.p - 1) < 2 ^ f.ebits - 1 := by
    rw [Nat.div_lt_iff_lt_mul hP]; exact hb
  unfold decMag
  split
  · rename_i h
    have hlt := (Nat.div_eq_zero_iff_lt hP).mp h
    simp only
    refine ⟨by omega, by omega, ?_⟩
    split <;> omega
  · generalize b / 2 ^ (f.p - 1) = E at *
    simp only
    refine ⟨by omega, by omega, ?_⟩
    split <;> omega

/-- The double `d` is finite with sign `s` and magnitude `n * 2^g`. -/
def Is (d : Dbl) (s : Bool) (n : Nat) (g : Int) : Prop :=
  ∃ m e, d.val = .fin s m e ∧ (m : ℚ) * 2 ^ e = (n : ℚ) * 2 ^ g

theorem dbl_fin_bounds {d : Dbl} {s : Bool} {m : Nat} {e : Int} (h : d.val = .fin s m e) :
    m < 2 ^ 53 ∧ -1074 ≤ e ∧ e ≤ 971 := by
  unfold Dbl.val decF at h
  simp only at h
  split at h
  · rename_i hb
    have := decMag_bounds f64_ok hb
    simp only [FVal.fin.injEq] at h
    obtain ⟨_, h2, h3⟩ := h
    rw [h2, h3] at this
    obtain ⟨t1, t2, t3⟩ := this
    exact ⟨t1, t2, by simpa [f64] using t3⟩
  · split at h <;> simp at h

theorem sgl_fin_bounds {d : Sgl} {s : Bool} {m : Nat} {e : Int} (h : d.val = .fin s m e) :
    m < 2 ^ 24 ∧ -149 ≤ e ∧ e ≤ 104 := by
  unfold Sgl.val decF at h
  simp only at h
  split at h
  · rename_i hb
    have := decMag_bounds f32_ok hb
    simp only [FVal.fin.injEq] at h
    obtain ⟨_, h2, h3⟩ := h
    rw [h2, h3] at this
    obtain ⟨t1, t2, t3⟩ := this
    exact ⟨t1, t2, by simpa [f32] using t3⟩
  · split at h <;> simp at h

theorem log2_lt_of_lt {m k : Nat} (h : m < 2 ^ k) (hk : 1 ≤ k) : m.log2 + 1 ≤ k := by
  by_cases h0 : m = 0
  · subst h0; simpa using hk
  · exact (Nat.log2_lt h0).mpr h

theorem Is.congr {d : Dbl} {s : Bool} {n n' : Nat} {g g' : Int} (h : Is d s n g)
    (e : (n : ℚ) * 2 ^ g = (n' : ℚ) * 2 ^ g') : Is d s n' g' := by
  obtain ⟨m, e', h1, h2⟩ := h
  exact ⟨m, e', h1, by rw [h2, e]⟩

theorem is_toDbl {s : Bool} {n : Nat} {g : Int} (hm : n < 2 ^ 53) (he : -1074 ≤ g)
    (hov : (n.log2 : Int) + 1 + g ≤ 1024) : Is (toDbl (.fin s n g)) s n g :=
  toDbl_exact hm he hov

/-- A double is determined by sign and magnitude. -/
theorem Is.eq {d : Dbl} {s : Bool} {n : Nat} {g : Int} (h : Is d s n g) : d = toDbl (.fin s n g) := by
  obtain ⟨m, e, h1, h2⟩ := h
  rw [← toDbl_congr h2, ← h1, toDbl_val]
  rw [h1]; rfl

theorem is_ofInt {n : Int} (h : n.natAbs < 2 ^ 53) : Is (dblOfInt n) (decide (n < 0)) n.natAbs 0 := by
  apply is_toDbl h (by decide)
  have := log2_lt_of_lt h (by decide)
  omega

theorem is_pow2 {k : Int} (h1 : -1074 ≤ k) (h2 : k ≤ 1023) : Is (pow2 k) false 1 k := by
  apply is_toDbl (by decide) h1
  have : Nat.log2 1 = 0 := by decide
  rw [this]; omega

/-- Multiplication whose exact result is representable. -/
theorem Is.mul {a b : Dbl} {s t : Bool} {n n' : Nat} {g g' : Int} (ha : Is a s n g) (hb : Is b t n' g')
    (hm : n * n' < 2 ^ 53) (he : -1074 ≤ g + g') (hov : ((n * n').log2 : Int) + 1 + (g + g') ≤ 1024) :
    Is (dmul a b) (s != t) (n * n') (g + g') := by
  obtain ⟨m, e, h1, h2⟩ := ha
  obtain ⟨m', e', h3, h4⟩ := hb
  have e1 : dmul a b = toDbl (.fin (s != t) (n * n') (g + g')) := by
    unfold dmul
    rw [h1, h3]
    simp only [FVal.mul]
    apply toDbl_congr
    push_cast
    rw [zpow_add₀ (by norm_num), zpow_add₀ (by norm_num)]
    calc (m : ℚ) * m' * (2 ^ e * 2 ^ e') = (m * 2 ^ e) * (m' * 2 ^ e') := by ring
      _ = (n * 2 ^ g) * (n' * 2 ^ g') := by rw [h2, h4]
      _ = _ := by ring
  rw [e1]
  exact is_toDbl hm he hov

/-- Scaling by a power of two. -/
theorem Is.scale {a : Dbl} {s : Bool} {n : Nat} {g k : Int} (ha : Is a s n g)
    (hk1 : -1074 ≤ k) (hk2 : k ≤ 1023)
    (hm : n < 2 ^ 53) (he : -1074 ≤ g + k) (hov : (n.log2 : Int) + 1 + (g + k) ≤ 1024) :
    Is (dmul a (pow2 k)) s n (g + k) := by
  have := ha.mul (is_pow2 hk1 hk2) (by simpa using hm) he (by simpa using hov)
  simpa using this

/-! ## Truncation -/

theorem trunc_fin (s : Bool) (m : Nat) (e : Int) :
    ∃ a : Nat, (FVal.fin s m e).trunc = some (if s then -(a : Int) else a) ∧
      (a : ℚ) ≤ (m : ℚ) * 2 ^ e ∧ (m : ℚ) * 2 ^ e < a + 1 := by
  refine ⟨if 0 ≤ e then m * 2 ^ e.toNat else m / 2 ^ (-e).toNat, rfl, ?_⟩
  by_cases he : 0 ≤ e
  · rw [if_pos he]
    obtain ⟨k, rfl⟩ := Int.eq_ofNat_of_zero_le he
    simp
  · rw [if_neg he]
    obtain ⟨k, hk⟩ := Int.eq_ofNat_of_zero_le (a := -e) (by omega)
    have he' : e = -(k : Int) := by omega
    subst he'
    have hpos : (0 : ℚ) < 2 ^ k := by positivity
    rw [neg_neg, Int.toNat_natCast, zpow_neg, zpow_natCast, ← div_eq_mul_inv]
    have h1 := Nat.div_add_mod m (2 ^ k)
    have h2 := Nat.mod_lt m (Nat.two_pow_pos k)
    generalize m / 2 ^ k = q at *
    generalize m % 2 ^ k = r at *
    have h1' : (m : ℚ) = 2 ^ k * q + r := by rw [← h1]; push_cast; ring
    have h2' : (r : ℚ) < 2 ^ k := by exact_mod_cast h2
    have h3' : (0 : ℚ) ≤ r := by positivity
    constructor
    · rw [le_div_iff₀ hpos]; nlinarith
    · rw [div_lt_iff₀ hpos]; nlinarith

theorem Is.trunc {d : Dbl} {s : Bool} {n : Nat} (h : Is d s n 0) :
    d.val.trunc = some (if s then -(n : Int) else n) := by
  obtain ⟨m, e, h1, h2⟩ := h
  obtain ⟨a, h3, h4, h5⟩ := trunc_fin s m e
  rw [h1, h3]
  rw [h2] at h4 h5
  simp only [zpow_zero, mul_one] at h4 h5
  have h4' : a ≤ n := by exact_mod_cast h4
  have h5' : n < a + 1 := by exact_mod_cast h5
  have : a = n := by omega
  rw [this]

theorem Is.toU {d : Dbl} {n k : Nat} (h : Is d false n 0) (hn : n < 256 ^ k) :
    dblToU k d = .ok (n : Int) := by
  unfold dblToU dblToInt
  rw [h.trunc]
  simp only [Bool.false_eq_true, if_false]
  have : (n : Int) < ((256 ^ k : Nat) : Int) := by exact_mod_cast hn
  rw [if_pos (by omega)]

/-- A value of at most minus one cannot be converted to an unsigned type. -/
theorem dblToU_neg {d : Dbl} {k : Nat} {r : ℚ} (h : dblRat d = some r) (hr : r ≤ -1) :
    dblToU k d = isUb .floatToInt := by
  unfold dblRat ratOf at h
  split at h
  · rename_i s m e hv
    obtain ⟨a, h3, h4, h5⟩ := trunc_fin s m e
    unfold dblToU dblToInt
    rw [hv, h3]
    have hpos : (0 : ℚ) ≤ (m : ℚ) * 2 ^ e := by positivity
    simp only [Option.some.injEq] at h
    cases s
    · simp only [Bool.false_eq_true, if_false, one_mul] at h
      linarith
    · simp only [if_true] at h ⊢
      have : (1 : ℚ) < a + 1 + 0 := by
        have : (m : ℚ) * 2 ^ e = -r := by rw [← h]; ring
        linarith
      have ha : 0 < a := by
        have : (0 : ℚ) < a := by linarith
        exact_mod_cast this
      rw [if_neg (by omega)]
  · simp at h

/-! ## Conversions that do not fit -/

theorem LogEst.toU_ok {est : LogEst} {n : Nat} {d : Dbl} {v : Int} (h : dblToU n d = .ok v) :
    est.toU n d = .ok v := by
  unfold LogEst.toU
  rw [h]

theorem LogEst.unfit_strict {est : LogEst} (hs : est.Strict) (n : Nat) (d : Dbl) :
    est.unfit n d = isUb .floatToInt := by
  unfold LogEst.unfit
  rw [hs n d]

theorem LogEst.toU_ub {est : LogEst} (hs : est.Strict) {n : Nat} {d : Dbl} (h : dblToU n d = isUb .floatToInt) :
    est.toU n d = isUb .floatToInt := by
  unfold LogEst.toU
  rw [h, est.unfit_strict hs]
  rfl

theorem LogEst.strict_strict (f : Dbl → Int) : (LogEst.strict f).Strict := fun _ _ => rfl

/-- Two platforms that say nothing about undefined conversions agree on all conversions. -/
theorem LogEst.toU_strict {est est' : LogEst} (h : est.Strict) (h' : est'.Strict) (n : Nat) (d : Dbl) :
    est.toU n d = est'.toU n d := by
  unfold LogEst.toU
  rw [est.unfit_strict h, est'.unfit_strict h']

/-! ## Integers read back -/

/-- A double that holds the integer `n` (other than minus zero) is the conversion of `n`. -/
theorem dbl_of_int_value {d : Dbl} {n : Int} (h : dblRat d = some (n : ℚ)) (hz : d ≠ 0x8000000000000000) :
    d = dblOfInt n ∧ Is d (decide (n < 0)) n.natAbs 0 := by
  unfold dblRat ratOf at h
  split at h
  · rename_i s m e hv
    simp only [Option.some.injEq] at h
    have hpos : (0 : ℚ) < 2 ^ e := by positivity
    have key : s = decide (n < 0) ∧ (m : ℚ) * 2 ^ e = (n.natAbs : ℚ) * 2 ^ (0 : Int) := by
      rw [zpow_zero, mul_one]
      by_cases hm : m = 0
      · subst hm
        have hn : n = 0 := by
          have : (n : ℚ) = 0 := by rw [← h]; simp
          exact_mod_cast this
        subst hn
        refine ⟨?_, by simp⟩
        cases s
        · rfl
        · exfalso
          apply hz
          have h1 : toDbl d.val = d := toDbl_val (by rw [hv]; rfl)
          rw [hv] at h1
          rw [← h1]
          unfold toDbl encF
          simp only [encMag_zero]
          rfl
      · have hm' : (0 : ℚ) < m := by exact_mod_cast Nat.pos_of_ne_zero hm
        have hmp : (0 : ℚ) < m * 2 ^ e := mul_pos hm' hpos
        cases s
        · simp only [Bool.false_eq_true, if_false, one_mul] at h
          have hn : (0 : ℚ) < n := by rw [← h]; exact hmp
          have hn' : 0 < n := by exact_mod_cast hn
          refine ⟨by simp; omega, ?_⟩
          rw [h]
          obtain ⟨k, rfl⟩ := Int.eq_ofNat_of_zero_le (Int.le_of_lt hn')
          simp
        · simp only [if_true] at h
          have hn : (n : ℚ) < 0 := by rw [← h]; linarith
          have hn' : n < 0 := by exact_mod_cast hn
          refine ⟨by simp; omega, ?_⟩
          obtain ⟨k, hk⟩ := Int.eq_ofNat_of_zero_le (a := -n) (by omega)
          have : n = -(k : Int) := by omega
          subst this
          have : (m : ℚ) * 2 ^ e = (k : ℚ) := by push_cast at h; linarith
          rw [this]; simp
    obtain ⟨k1, k2⟩ := key
    have his : Is d (decide (n < 0)) n.natAbs 0 := ⟨m, e, by rw [hv, k1], k2⟩
    exact ⟨his.eq, his⟩
  · simp at h

theorem dblRat_ofInt {n : Int} (h : n.natAbs ≤ 2 ^ 53) : dblRat (dblOfInt n) = some (n : ℚ) := by
  have his : Is (dblOfInt n) (decide (n < 0)) n.natAbs 0 := by
    by_cases h' : n.natAbs = 2 ^ 53
    · have e1 : dblOfInt n = toDbl (.fin (decide (n < 0)) 1 53) := by
        unfold dblOfInt
        apply toDbl_congr
        rw [h']; norm_num
      rw [e1]
      apply (is_toDbl (by decide) (by decide) (by decide +kernel)).congr
      rw [h']; norm_num
    · exact is_ofInt (by omega)
  obtain ⟨m, e, h1, h2⟩ := his
  unfold dblRat
  rw [h1]
  simp only [ratOf, Option.some.injEq]
  rw [mul_assoc, h2, zpow_zero, mul_one]
  by_cases hn : n < 0
  · simp only [hn, decide_true, if_true]
    have : (n.natAbs : ℚ) = -(n : ℚ) := by
      have : ((n.natAbs : Int) : ℚ) = ((-n : Int) : ℚ) := by congr 1; omega
      push_cast at this
      simpa using this
    rw [this]; ring
  · simp only [hn, decide_false, Bool.false_eq_true, if_false, one_mul]
    have : ((n.natAbs : Int) : ℚ) = (n : ℚ) := by congr 1; omega
    simpa using this

/-! ## Singles -/

theorem val_inf {s : Bool} : (toDbl (.inf s)).val = .inf s ∧ (toSgl (.inf s)).val = .inf s := by
  cases s <;> decide +kernel

/-- A single converted to double and back. -/
theorem dblToSgl_sglToDbl {x : Sgl} (h : x.val.isNan = false) : dblToSgl (sglToDbl x) = x := by
  unfold dblToSgl sglToDbl
  cases hv : x.val with
  | nan => rw [hv] at h; simp [FVal.isNan] at h
  | inf s => rw [val_inf.1, ← hv, toSgl_val h]
  | fin s m e =>
    obtain ⟨b1, b2, b3⟩ := sgl_fin_bounds hv
    have hl := log2_lt_of_lt b1 (by decide)
    obtain ⟨m', e', h1, h2⟩ := toDbl_exact (s := s) (m := m) (e := e)
      (Nat.lt_trans b1 (by decide)) (by omega) (by omega)
    rw [h1, toSgl_congr h2, ← hv, toSgl_val h]

/-- The rational value of a single is unchanged by conversion to double. -/
theorem dblRat_sglToDbl {x : Sgl} {r : ℚ} (h : sglRat x = some r) : dblRat (sglToDbl x) = some r := by
  unfold sglRat at h
  cases hv : x.val with
  | nan => rw [hv] at h; simp [ratOf] at h
  | inf s => rw [hv] at h; simp [ratOf] at h
  | fin s m e =>
    obtain ⟨b1, b2, b3⟩ := sgl_fin_bounds hv
    have hl := log2_lt_of_lt b1 (by decide)
    obtain ⟨m', e', h1, h2⟩ := toDbl_exact (s := s) (m := m) (e := e)
      (Nat.lt_trans b1 (by decide)) (by omega) (by omega)
    unfold dblRat sglToDbl
    rw [hv, h1]
    rw [hv] at h
    simp only [ratOf, Option.some.injEq] at h ⊢
    rw [← h, mul_assoc, h2]; ring

end Sedaman
