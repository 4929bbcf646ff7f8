import Verif.Lemmas.SampleOrder
import Verif.Lemmas.Comes

/-!
# Order of IBM samples
-/

namespace Sedaman

open Spec

/-- What an IBM sample becomes. -/
theorem comes_ibm {est : LogEst} {bo : ByteOrder} {x y : Dbl} (h : ComesBack est 1 bo x y) :
    ∃ w, ibmEncode est x = .ok w ∧ w < 2 ^ 32 ∧ y = ibmDecode w := by
  obtain ⟨w, r, bs, h1, h2, h3, h4⟩ := h
  cases h1
  cases h2
  simp only [writeIbm] at h3
  cases hw : ibmEncode est x with
  | error e => rw [hw] at h3; cases h3
  | ok v =>
    rw [hw] at h3
    obtain ⟨q, hq, hv, -⟩ := ibmEncode_parts hw
    have hlt : v < 2 ^ 32 := by rw [← hv]; split <;> omega
    refine ⟨v, rfl, hlt, ?_⟩
    simp only [ok_bind, pure_eq_ok, Except.ok.injEq] at h3
    have := h4 []
    rw [← h3] at this
    simp only [readIbm, writeU32_eq, readU32_eq, rd_bind, rdNat_encInt] at this
    rw [toU_word (n := 4) (k := v) hlt] at this
    simp only [rd_pure, ok_bind, Except.ok.injEq, Prod.mk.injEq] at this
    exact this.1.symm

theorem ibm_comes {est : LogEst} {bo : ByteOrder} {x : Dbl} {w : Nat} (h : ibmEncode est x = .ok w) :
    ComesBack est 1 bo x (ibmDecode w) := by
  obtain ⟨q, hq, hv, -⟩ := ibmEncode_parts h
  have hlt : w < 2 ^ 32 := by rw [← hv]; split <;> omega
  refine ⟨_, _, writeU32 bo w, rfl, rfl, ?_, fun rest => ?_⟩
  · simp only [writeIbm, h]; rfl
  · simp only [readIbm, writeU32_eq, readU32_eq, rd_bind, rdNat_encInt]
    rw [toU_word (n := 4) (k := w) hlt]
    rfl

/-- Truncated fractions keep the order. -/
theorem fractions_le {X Y : ℚ} {a b : Nat} {t u : Int} (ha : 2 ^ 20 ≤ a) (ha' : a < 2 ^ 24) (hb : 2 ^ 20 ≤ b)
    (hb' : b < 2 ^ 24) (h1 : (a : ℚ) * 16 ^ t ≤ X) (h2 : X < ((a : ℚ) + 1) * 16 ^ t)
    (h3 : (b : ℚ) * 16 ^ u ≤ Y) (h4 : Y < ((b : ℚ) + 1) * 16 ^ u) (h : X ≤ Y) :
    (a : ℚ) * 16 ^ t ≤ (b : ℚ) * 16 ^ u := by
  have pt : (0 : ℚ) < 16 ^ t := by positivity
  have pu : (0 : ℚ) < 16 ^ u := by positivity
  have qa : (2 ^ 20 : ℚ) ≤ a := by exact_mod_cast ha
  have qa' : (a : ℚ) ≤ 2 ^ 24 := by exact_mod_cast ha'.le
  have qb : (2 ^ 20 : ℚ) ≤ b := by exact_mod_cast hb
  have qb' : (b : ℚ) + 1 ≤ 2 ^ 24 := by exact_mod_cast hb'
  rcases lt_trichotomy t u with c | c | c
  · have e : (16 : ℚ) ^ (t + 1) ≤ 16 ^ u := zpow_le_zpow_right₀ (by norm_num) (by omega)
    rw [zpow_add₀ (by norm_num), zpow_one] at e
    nlinarith
  · subst c
    have h5 : (a : ℚ) * 16 ^ t < ((b : ℚ) + 1) * 16 ^ t := by linarith
    have h6 : (a : ℚ) < (b : ℚ) + 1 := lt_of_mul_lt_mul_right h5 pt.le
    have h7 : a < b + 1 := by exact_mod_cast h6
    have h8 : (a : ℚ) ≤ b := by exact_mod_cast (by omega : a ≤ b)
    exact mul_le_mul_of_nonneg_right h8 pt.le
  · have e : (16 : ℚ) ^ (u + 1) ≤ 16 ^ t := zpow_le_zpow_right₀ (by norm_num) (by omega)
    rw [zpow_add₀ (by norm_num), zpow_one] at e
    exfalso
    nlinarith

/-- The number an IBM sample becomes: the sign stays, and the magnitude is truncated. -/
theorem ibm_truncated {est : LogEst} {d : Dbl} {s : Bool} {m : Nat} {e : Int}
    (hd : d.val = .fin s m e) (hm0 : m ≠ 0) (hest : EstExact est (dblAbs d))
    (ht0 : 0 ≤ est (dblAbs d)) (ht1 : est (dblAbs d) ≤ 127) {w : Nat} (hw : ibmEncode est d = .ok w) :
    ∃ F : Nat, 2 ^ 20 ≤ F ∧ F < 2 ^ 24 ∧ (F : ℚ) * 16 ^ (est (dblAbs d) - 70) ≤ (m : ℚ) * 2 ^ e ∧
      (m : ℚ) * 2 ^ e < ((F : ℚ) + 1) * 16 ^ (est (dblAbs d) - 70) ∧
      dblRat (ibmDecode w) = some (if s then -((F : ℚ) * 16 ^ (est (dblAbs d) - 70)) else (F : ℚ) * 16 ^ (est (dblAbs d) - 70)) := by
  obtain ⟨F, f1, f2, f3, f4, f5⟩ := ibmEncode_spec hd hm0 hest ht0 ht1
  rw [f5] at hw
  cases hw
  generalize est (dblAbs d) = t at *
  have hp : (16 : ℚ) ^ (t - 70) = 2 ^ (4 * t - 280) := by
    rw [show (16 : ℚ) = 2 ^ (4 : Int) by norm_num, ← zpow_mul]; congr 1; ring
  have hu : (0 : ℚ) < 2 ^ (4 * t - 280) := by positivity
  have hx : (m : ℚ) * 2 ^ e = (m : ℚ) * 2 ^ (e - 4 * t + 280) * 2 ^ (4 * t - 280) := by
    rw [mul_assoc, ← zpow_add₀ (by norm_num)]; congr 2; ring
  refine ⟨F, f1, f2, ?_, ?_, ?_⟩
  · rw [hp, hx]; exact mul_le_mul_of_nonneg_right f3 hu.le
  · rw [hp, hx]; exact mul_lt_mul_of_pos_right f4 hu
  · obtain ⟨n, hn⟩ := Int.eq_ofNat_of_zero_le ht0
    have hn' : n < 128 := by omega
    subst hn
    rw [Int.toNat_natCast]
    have his := ibmDecode_is (w := (if s then 1 else 0) * 2 ^ 31 + n * 2 ^ 24 + F) (by split <;> omega)
    rw [show ((if s then 1 else 0) * 2 ^ 31 + n * 2 ^ 24 + F) % 2 ^ 24 = F by split <;> omega,
      show ((if s then 1 else 0) * 2 ^ 31 + n * 2 ^ 24 + F) / 2 ^ 24 % 128 = n by split <;> omega] at his
    have hs : decide (2 ^ 31 ≤ (if s then 1 else 0) * 2 ^ 31 + n * 2 ^ 24 + F) = s := by
      cases s
      · simp only [Bool.false_eq_true, if_false, decide_eq_false_iff_not]; omega
      · simp only [if_true, decide_eq_true_eq]; omega
    rw [hs] at his
    obtain ⟨m', e', g1, g2⟩ := his
    unfold dblRat
    rw [g1]
    simp only [ratOf]
    rw [mul_assoc, g2, hp]
    cases s <;> simp

theorem number_of_rat {d : Dbl} {q : ℚ} (hq : dblRat d = some q) :
    dblNumber d = some ((q : WithTop ℚ) : WithBot (WithTop ℚ)) := by
  unfold dblRat at hq
  unfold dblNumber
  cases hv : d.val with
  | nan => rw [hv] at hq; cases hq
  | inf s => rw [hv] at hq; cases hq
  | fin s m e => rw [hv] at hq; simp only; rw [hq]; rfl

/-- IBM samples with exact exponents keep their order. -/
theorem ibm_le {est : LogEst} {x y : Dbl} {a b : ℚ} (hx : dblRat x = some a) (hy : dblRat y = some b) (h : a ≤ b)
    (a0 : a ≠ 0) (b0 : b ≠ 0) (ea : EstExact est (dblAbs x)) (eb : EstExact est (dblAbs y))
    (ta : 0 ≤ est (dblAbs x) ∧ est (dblAbs x) ≤ 127) (tb : 0 ≤ est (dblAbs y) ∧ est (dblAbs y) ≤ 127)
    {v w : Nat} (hv : ibmEncode est x = .ok v) (hw : ibmEncode est y = .ok w) :
    AtMost (ibmDecode v) (ibmDecode w) := by
  have key : ∀ {z : Dbl} {c : ℚ}, dblRat z = some c → c ≠ 0 →
      ∃ s m e, z.val = .fin s m e ∧ m ≠ 0 ∧ (if s then -1 else 1) * (m : ℚ) * 2 ^ e = c := by
    intro z c hz hc
    unfold dblRat at hz
    cases hv : z.val with
    | nan => rw [hv] at hz; cases hz
    | inf s => rw [hv] at hz; cases hz
    | fin s m e =>
      rw [hv] at hz
      simp only [ratOf, Option.some.injEq] at hz
      refine ⟨s, m, e, rfl, ?_, hz⟩
      rintro rfl
      apply hc
      rw [← hz]
      simp
  obtain ⟨s, m, e, x1, x2, x3⟩ := key hx a0
  obtain ⟨s', m', e', y1, y2, y3⟩ := key hy b0
  obtain ⟨F, f1, f2, f3, f4, f5⟩ := ibm_truncated x1 x2 ea ta.1 ta.2 hv
  obtain ⟨G, g1, g2, g3, g4, g5⟩ := ibm_truncated y1 y2 eb tb.1 tb.2 hw
  refine ⟨_, _, number_of_rat f5, number_of_rat g5, ?_⟩
  rw [WithBot.coe_le_coe, WithTop.coe_le_coe]
  rw [← x3, ← y3] at h
  have pF : (0 : ℚ) ≤ (F : ℚ) * 16 ^ (est (dblAbs x) - 70) := by positivity
  have pG : (0 : ℚ) ≤ (G : ℚ) * 16 ^ (est (dblAbs y) - 70) := by positivity
  rcases fin_le h with ⟨rfl, rfl, h'⟩ | ⟨rfl, rfl, h'⟩ | ⟨rfl, rfl⟩ | ⟨rfl, rfl, c, -⟩
  · simp only [Bool.false_eq_true, if_false]
    exact fractions_le f1 f2 g1 g2 f3 f4 g3 g4 h'
  · simp only [if_true]
    exact neg_le_neg (fractions_le g1 g2 f1 f2 g3 g4 f3 f4 h')
  · simp only [Bool.false_eq_true, if_false, if_true]
    linarith
  · exact absurd c x2

end Sedaman
