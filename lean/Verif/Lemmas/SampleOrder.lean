import Verif.Spec.SampleOrder
import Verif.Lemmas.FloatMono
import Verif.Lemmas.Ibm

/-!
# Order and sign of samples
-/

namespace Sedaman

open Spec

/-- A value with the other sign. -/
def flipF : FVal → FVal
  | .nan => .nan
  | .inf s => .inf (!s)
  | .fin s m e => .fin (!s) m e

theorem opposite_toNat (d : Dbl) :
    (opposite d).toNat = if 2 ^ 63 ≤ d.toNat then d.toNat - 2 ^ 63 else d.toNat + 2 ^ 63 := by
  unfold opposite
  rw [BitVec.toNat_add]
  have := d.isLt
  have e : (0x8000000000000000#64).toNat = 2 ^ 63 := by decide
  rw [e]
  split <;> omega

theorem opposite_val (d : Dbl) : (opposite d).val = flipF d.val := by
  unfold Dbl.val decF
  have e : 2 ^ (f64.p - 1 + f64.ebits) = 2 ^ 63 := by decide
  have h := opposite_toNat d
  have hl := d.isLt
  simp only [e]
  have e1 : (opposite d).toNat % 2 ^ 63 = d.toNat % 2 ^ 63 := by
    rw [h]; split <;> omega
  have e2 : decide (2 ^ 63 ≤ (opposite d).toNat) = !decide (2 ^ 63 ≤ d.toNat) := by
    rw [h]
    by_cases c : 2 ^ 63 ≤ d.toNat
    · rw [if_pos c]; simp only [c, decide_true, Bool.not_true, decide_eq_false_iff_not]; omega
    · rw [if_neg c]; simp only [c, decide_false, Bool.not_false, decide_eq_true_eq]; omega
  rw [e1, e2]
  split
  · rfl
  · split <;> rfl

theorem opposite_abs (d : Dbl) : dblAbs (opposite d) = dblAbs d := by
  have hl := d.isLt
  have e : (opposite d).toNat % 2 ^ 63 = d.toNat % 2 ^ 63 := by
    rw [opposite_toNat]
    split <;> omega
  unfold dblAbs
  rw [e]

theorem toDbl_flip {v : FVal} (h : v.isNan = false) : toDbl (flipF v) = opposite (toDbl v) := by
  have e : 2 ^ (f64.p - 1 + f64.ebits) = 2 ^ 63 := by decide
  have hi : f64.infMag = 9218868437227405312 := by decide
  apply BitVec.eq_of_toNat_eq
  rw [opposite_toNat]
  cases v with
  | nan => cases h
  | inf s =>
    unfold toDbl flipF encF
    simp only [BitVec.toNat_ofNat, e, hi]
    cases s <;> decide
  | fin s m g =>
    have := encMag_le f64 m g
    unfold toDbl flipF encF
    simp only [BitVec.toNat_ofNat, e]
    rw [hi] at this
    generalize encMag f64 m g = M at *
    cases s
    · simp only [Bool.not_false, if_true, Bool.false_eq_true, if_false]
      rw [Nat.mod_eq_of_lt (by omega), Nat.mod_eq_of_lt (by omega), if_neg (by omega)]
      omega
    · simp only [Bool.not_true, if_true, Bool.false_eq_true, if_false]
      rw [Nat.mod_eq_of_lt (by omega), Nat.mod_eq_of_lt (by omega), if_pos (by omega)]
      omega

theorem toSgl_flip_nat {v : FVal} (h : v.isNan = false) : (toSgl (flipF v)).toNat =
    if 2 ^ 31 ≤ (toSgl v).toNat then (toSgl v).toNat - 2 ^ 31 else (toSgl v).toNat + 2 ^ 31 := by
  have e : 2 ^ (f32.p - 1 + f32.ebits) = 2 ^ 31 := by decide
  have hi : f32.infMag < 2 ^ 31 := by decide
  cases v with
  | nan => cases h
  | inf s => cases s <;> decide +kernel
  | fin s m g =>
    have := encMag_le f32 m g
    unfold flipF
    rw [toSgl_val_of_fin, toSgl_val_of_fin]
    generalize encMag f32 m g = M at *
    cases s
    · simp only [Bool.not_false, if_true, Bool.false_eq_true, if_false]
      rw [if_neg (by omega)]
      omega
    · simp only [Bool.not_true, if_true, Bool.false_eq_true, if_false]
      rw [if_pos (by omega)]
      omega

theorem toSgl_flip_val {v : FVal} (h : v.isNan = false) : (toSgl (flipF v)).val = flipF (toSgl v).val := by
  unfold Sgl.val decF
  have e : 2 ^ (f32.p - 1 + f32.ebits) = 2 ^ 31 := by decide
  have h := toSgl_flip_nat h
  have hl := (toSgl v).isLt
  simp only [e]
  have e1 : (toSgl (flipF v)).toNat % 2 ^ 31 = (toSgl v).toNat % 2 ^ 31 := by
    rw [h]; split <;> omega
  have e2 : decide (2 ^ 31 ≤ (toSgl (flipF v)).toNat) = !decide (2 ^ 31 ≤ (toSgl v).toNat) := by
    rw [h]
    by_cases c : 2 ^ 31 ≤ (toSgl v).toNat
    · rw [if_pos c]; simp only [c, decide_true, Bool.not_true, decide_eq_false_iff_not]; omega
    · rw [if_neg c]; simp only [c, decide_false, Bool.not_false, decide_eq_true_eq]; omega
  rw [e1, e2]
  split
  · rfl
  · split <;> rfl

theorem single_opposite {x : Dbl} (h : x.val.isNan = false) :
    sglToDbl (dblToSgl (opposite x)) = opposite (sglToDbl (dblToSgl x)) := by
  unfold sglToDbl dblToSgl
  rw [opposite_val, toSgl_flip_val h, toDbl_flip]
  cases hv : x.val with
  | nan => rw [hv] at h; cases h
  | inf s => rw [val_inf.2]; rfl
  | fin s m e =>
    rcases Nat.lt_or_ge (encMag f32 m e) f32.infMag with c | c
    · unfold toSgl Sgl.val
      rw [BitVec.toNat_ofNat, Nat.mod_eq_of_lt (by
        have := encF_lt f32 (by decide) (.fin s m e)
        rw [f32_bits] at this
        exact this), decF_encF_fin _ _ _ _ c]
      rfl
    · have e1 : toSgl (.fin s m e) = toSgl (.inf s) := by
        have : encMag f32 m e = f32.infMag := Nat.le_antisymm (encMag_le _ _ _) c
        unfold toSgl; simp only [encF, this]
      rw [e1, val_inf.2]
      rfl

/-! ## IBM words -/

theorem ibmDecode_flip {r : Nat} (h : r < 2 ^ 31) : ibmDecode (2 ^ 31 + r) = opposite (ibmDecode r) := by
  have e1 := ibmDecode_is (w := 2 ^ 31 + r) (by omega)
  have e2 := ibmDecode_is (w := r) (by omega)
  have d1 : decide (2 ^ 31 ≤ 2 ^ 31 + r) = true := by simp
  have d2 : decide (2 ^ 31 ≤ r) = false := by simp only [decide_eq_false_iff_not]; omega
  rw [d1, show (2 ^ 31 + r) % 2 ^ 24 = r % 2 ^ 24 by omega,
    show (2 ^ 31 + r) / 2 ^ 24 % 128 = r / 2 ^ 24 % 128 by omega] at e1
  rw [d2] at e2
  obtain ⟨m, e, h1, h2⟩ := e1
  obtain ⟨n, g, h3, h4⟩ := e2
  have a1 : ibmDecode (2 ^ 31 + r) = toDbl (.fin true m e) := by
    rw [← h1, toDbl_val (by rw [h1]; rfl)]
  have a2 : ibmDecode r = toDbl (.fin false n g) := by
    rw [← h3, toDbl_val (by rw [h3]; rfl)]
  rw [a1, a2, ← toDbl_flip rfl]
  exact toDbl_congr (h2.trans h4.symm)

theorem opposite_opposite (d : Dbl) : opposite (opposite d) = d := by
  apply BitVec.eq_of_toNat_eq
  have := d.isLt
  rw [opposite_toNat, opposite_toNat]
  split <;> split <;> omega

theorem ibmExp_lt {est : LogEst} {a : Dbl} {e : Nat} (h : ibmExp est a = .ok e) : e < 128 := by
  have key : ∀ (o : Out Nat), (do pure ((← o) &&& 0x7f) : Out Nat) = .ok e → e < 128 := by
    intro o ho
    cases o with
    | error x => cases ho
    | ok v =>
      simp only [ok_bind, pure_eq_ok, Except.ok.injEq] at ho
      rw [← ho, and_7f]
      exact Nat.mod_lt _ (by decide)
  unfold ibmExp at h
  split at h
  · split at h
    · exact key _ h
    · split at h
      · simp only [Except.ok.injEq] at h
        rw [← h, and_7f]
        exact Nat.mod_lt _ (by decide)
      · exact key _ h
  · exact key _ h

theorem word_parts {ex : Nat} (hex : ex < 128) (F : Nat) : ∃ r, r < 2 ^ 31 ∧
    ∀ b : Nat, b <<< 31 ||| ex <<< 24 ||| (F &&& 0x00ffffff) = b * 2 ^ 31 + r := by
  have hf : F &&& 0x00ffffff < 2 ^ 24 := by rw [and_ffffff]; exact Nat.mod_lt _ (by decide)
  generalize F &&& 0x00ffffff = f at *
  have hr : ex <<< 24 + f < 2 ^ 31 := by rw [Nat.shiftLeft_eq]; omega
  refine ⟨ex <<< 24 + f, hr, fun b => ?_⟩
  rw [Nat.lor_assoc, ← Nat.shiftLeft_add_eq_or_of_lt hf, ← Nat.shiftLeft_add_eq_or_of_lt hr, Nat.shiftLeft_eq b]

theorem flip_word {s : Bool} {r w : Nat} (hr : r < 2 ^ 31) (hw : (if s then 1 else 0) * 2 ^ 31 + r = w) :
    w < 2 ^ 32 ∧ (if !s then 1 else 0) * 2 ^ 31 + r < 2 ^ 32 ∧
      ibmDecode ((if !s then 1 else 0) * 2 ^ 31 + r) = opposite (ibmDecode w) := by
  subst hw
  cases s
  · simp only [Bool.not_false, if_true, Bool.false_eq_true, if_false, Nat.zero_mul, Nat.zero_add, Nat.one_mul]
    exact ⟨by omega, by omega, ibmDecode_flip hr⟩
  · simp only [Bool.not_true, if_true, Bool.false_eq_true, if_false, Nat.zero_mul, Nat.zero_add, Nat.one_mul]
    exact ⟨by omega, by omega, by rw [ibmDecode_flip hr, opposite_opposite]⟩

theorem ibmEncode_parts {est : LogEst} {d : Dbl} {w : Nat} (hw : ibmEncode est d = .ok w) :
    ∃ r, r < 2 ^ 31 ∧ (if dblNeg d then 1 else 0) * 2 ^ 31 + r = w ∧
      ∀ c, dblAbs c = dblAbs d → ibmEncode est c = .ok ((if dblNeg c then 1 else 0) * 2 ^ 31 + r) := by
  unfold ibmEncode at hw ⊢
  simp only at hw ⊢
  cases hE : ibmExp est (dblAbs d) with
  | error e => rw [hE] at hw; cases hw
  | ok ex =>
    rw [hE] at hw
    simp only [ok_bind] at hw
    cases hF : est.toU 4 (dmul (ddivPow2 (dblAbs d) (4 * ((ex : Int) - 64))) (pow2 24)) with
    | error e => rw [hF] at hw; cases hw
    | ok F =>
      rw [hF] at hw
      simp only [ok_bind, pure_eq_ok, Except.ok.injEq] at hw
      have hex : ex < 128 := ibmExp_lt hE
      obtain ⟨r, hr, key⟩ := word_parts hex F.toNat
      rw [key] at hw
      refine ⟨r, hr, hw, fun c hc => ?_⟩
      rw [hc, hE]
      simp only [ok_bind]
      rw [hF]
      simp only [ok_bind, pure_eq_ok]
      rw [key]

/-- `dblNeg` of a value. -/
def negF : FVal → Bool
  | .fin s m _ => s && decide (m ≠ 0)
  | .inf s => s
  | .nan => false

theorem dblNeg_val (d : Dbl) : dblNeg d = negF d.val := by
  unfold dblNeg
  generalize d.val = v
  cases v <;> rfl

theorem negF_flip {v : FVal} (h : ∀ s e, v ≠ .fin s 0 e) (hn : v ≠ .nan) : negF (flipF v) = !negF v := by
  cases v with
  | nan => exact absurd rfl hn
  | inf s => rfl
  | fin s m e =>
    have hm : m ≠ 0 := by rintro rfl; exact h s e rfl
    simp [flipF, negF, hm]

theorem nonzero_val {d : Dbl} (hd : Nonzero d) : (∀ s e, d.val ≠ .fin s 0 e) ∧ d.val ≠ .nan := by
  obtain ⟨a, h1, h2⟩ := hd
  unfold dblNumber at h1
  generalize d.val = v at *
  constructor
  · rintro s e rfl
    apply h2
    simp only [ratOf, Option.map_some, Option.some.injEq] at h1
    rw [← h1]
    simp
  · rintro rfl
    cases h1

theorem opposite_neg {d : Dbl} (hd : Nonzero d) : dblNeg (opposite d) = !dblNeg d := by
  rw [dblNeg_val, dblNeg_val, opposite_val, negF_flip (nonzero_val hd).1 (nonzero_val hd).2]

theorem ibmEncode_opposite {est : LogEst} {d : Dbl} (hd : Nonzero d) {w : Nat} (hw : ibmEncode est d = .ok w) :
    ∃ w', ibmEncode est (opposite d) = .ok w' ∧ w < 2 ^ 32 ∧ w' < 2 ^ 32 ∧
      ibmDecode w' = opposite (ibmDecode w) := by
  have hn := opposite_neg hd
  obtain ⟨r, hr, h1, h2⟩ := ibmEncode_parts hw
  refine ⟨_, h2 (opposite d) (opposite_abs d), ?_⟩
  rw [hn]
  exact flip_word hr h1

end Sedaman
