import Verif.Lemmas.Nearest
import Verif.Lemmas.ValueOrder
import Verif.Lemmas.Samples
import Verif.Lemmas.SampleFmt

/-!
# Rounding to `float` and `double` keeps the order and the sign
-/

namespace Sedaman

open Spec

theorem rne_mono {m n : Nat} (k : Nat) (h : m ≤ n) : rne m k ≤ rne n k := by
  have hk : 0 < 2 ^ k := Nat.two_pow_pos k
  unfold rne
  simp only
  have hm := Nat.div_add_mod m (2 ^ k)
  have hn := Nat.div_add_mod n (2 ^ k)
  have hm' := Nat.mod_lt m hk
  have hn' := Nat.mod_lt n hk
  have hd := Nat.div_le_div_right (c := 2 ^ k) h
  generalize 2 ^ k = P at *
  rcases Nat.lt_or_ge (m / P) (n / P) with hq | hq
  · split
    · split
      · omega
      · split <;> omega
    · split
      · split
        · omega
        · split <;> omega
      · split
        · omega
        · split <;> omega
  · have e : m / P = n / P := by omega
    rw [e] at hm ⊢
    have : m % P ≤ n % P := by omega
    split
    · split
      · omega
      · split <;> omega
    · split
      · split
        · omega
        · split <;> omega
      · split
        · omega
        · split <;> omega

theorem quantum_mono (f : FFmt) {m n : Nat} (e : Int) (h : m ≤ n) : quantum f m e ≤ quantum f n e := by
  have : m.log2 ≤ n.log2 := by
    by_cases h0 : m = 0
    · subst h0; simp
    · exact (Nat.le_log2 (by omega)).2 (le_trans (log2_bounds h0).1 h)
  unfold quantum
  omega

theorem encMag_mono_left {f : FFmt} (hf : f.Ok) {m n : Nat} (e : Int) (h : m ≤ n) : encMag f m e ≤ encMag f n e := by
  by_cases h0 : m = 0
  · subst h0; rw [encMag_zero]; exact Nat.zero_le _
  have h1 : n ≠ 0 := by omega
  rw [encMag_raw f e h0, encMag_raw f e h1]
  refine min_le_min_right _ ?_
  have hq := quantum_mono f e h
  obtain ⟨a1, a2⟩ := roundSig_bounds hf (e := e) h0
  obtain ⟨b1, b2⟩ := roundSig_bounds hf (e := e) h1
  have g1 := quantum_ge f m e
  have hpp : 2 ^ f.p = 2 * 2 ^ (f.p - 1) := by
    have := hf.hp
    rw [← Nat.pow_succ']; congr 1; omega
  rcases eq_or_lt_of_le hq with hq | hq
  · rw [← hq]
    refine Nat.add_le_add_left ?_ _
    unfold roundSig
    rw [← hq]
    split
    · exact Nat.mul_le_mul_right _ h
    · exact rne_mono _ h
  · have k2 : (quantum f m e - f.emin).toNat + 1 ≤ (quantum f n e - f.emin).toNat := by omega
    rcases b2 with b2 | ⟨b2, -⟩
    · omega
    · rw [hpp] at a1
      have := Nat.mul_le_mul_right (2 ^ (f.p - 1)) k2
      rw [Nat.add_mul, Nat.one_mul] at this
      omega

/-- Rounding keeps the order of magnitudes. -/
theorem encMag_mono {f : FFmt} (hf : f.Ok) {m n : Nat} {e g : Int} (h : (m : ℚ) * 2 ^ e ≤ (n : ℚ) * 2 ^ g) :
    encMag f m e ≤ encMag f n g := by
  have key : ∀ (m : Nat) (e c : Int), c ≤ e →
      encMag f m e = encMag f (m * 2 ^ (e - c).toNat) c ∧
        ((m * 2 ^ (e - c).toNat : Nat) : ℚ) * 2 ^ c = (m : ℚ) * 2 ^ e := by
    intro m e c hc
    have e1 : ((m * 2 ^ (e - c).toNat : Nat) : ℚ) * 2 ^ c = (m : ℚ) * 2 ^ e := by
      push_cast
      rw [mul_assoc, ← zpow_natCast (2 : ℚ) (e - c).toNat, ← zpow_add₀ (by norm_num)]
      congr 2
      omega
    exact ⟨encMag_congr f e1.symm, e1⟩
  obtain ⟨a1, a2⟩ := key m e (min e g) (min_le_left _ _)
  obtain ⟨b1, b2⟩ := key n g (min e g) (min_le_right _ _)
  rw [a1, b1]
  apply encMag_mono_left hf
  rw [← a2, ← b2] at h
  have hp : (0 : ℚ) < 2 ^ (min e g) := by positivity
  exact_mod_cast le_of_mul_le_mul_right h hp

/-! ## The number after rounding -/

/-- The number of a rounded value: sign and magnitude pattern. -/
def roundedNumber (f : FFmt) (s : Bool) (b : Nat) : WithBot (WithTop ℚ) :=
  if b < f.infMag then (((if s then -magRat f b else magRat f b : ℚ) : WithTop ℚ) : WithBot (WithTop ℚ))
  else if s then ⊥ else ((⊤ : WithTop ℚ) : WithBot (WithTop ℚ))

theorem magRat_le (f : FFmt) {a b : Nat} (h : a ≤ b) : magRat f a ≤ magRat f b := by
  rcases eq_or_lt_of_le h with h | h
  · rw [h]
  · exact (magRat_mono f h).le

theorem roundedNumber_pos (f : FFmt) {a b : Nat} (h : a ≤ b) : roundedNumber f false a ≤ roundedNumber f false b := by
  unfold roundedNumber
  simp only [Bool.false_eq_true, if_false]
  split
  · split
    · exact WithBot.coe_le_coe.2 (WithTop.coe_le_coe.2 (magRat_le f h))
    · exact WithBot.coe_le_coe.2 le_top
  · rw [if_neg (by omega)]

theorem roundedNumber_neg (f : FFmt) {a b : Nat} (h : a ≤ b) : roundedNumber f true b ≤ roundedNumber f true a := by
  unfold roundedNumber
  simp only [if_true]
  split
  · rw [if_pos (by omega)]
    exact WithBot.coe_le_coe.2 (WithTop.coe_le_coe.2 (neg_le_neg (magRat_le f h)))
  · exact bot_le

theorem roundedNumber_mixed (f : FFmt) (a b : Nat) : roundedNumber f true a ≤ roundedNumber f false b := by
  unfold roundedNumber
  simp only [if_true, Bool.false_eq_true, if_false]
  split
  · split
    · refine WithBot.coe_le_coe.2 (WithTop.coe_le_coe.2 ?_)
      have := magRat_nonneg f a
      have := magRat_nonneg f b
      linarith
    · exact WithBot.coe_le_coe.2 le_top
  · exact bot_le

theorem toDbl_number (s : Bool) (m : Nat) (e : Int) :
    dblNumber (toDbl (.fin s m e)) = some (roundedNumber f64 s (encMag f64 m e)) := by
  unfold toDbl dblNumber Dbl.val
  rw [BitVec.toNat_ofNat, Nat.mod_eq_of_lt (by
    have := encF_lt f64 (by decide) (.fin s m e)
    rw [f64_bits] at this
    exact this)]
  rcases Nat.lt_or_ge (encMag f64 m e) f64.infMag with h | h
  · rw [decF_encF_fin _ _ _ _ h]
    simp only [ratOf, Option.map_some, roundedNumber, if_pos h, magRat]
    cases s
    · simp
    · simp only [if_true]
      congr 3
      ring
  · have h' : encMag f64 m e = f64.infMag := Nat.le_antisymm (encMag_le _ _ _) h
    have e1 : encF f64 (.fin s m e) = encF f64 (.inf s) := by simp only [encF, h']
    have e2 : decF f64 (encF f64 (.inf s)) = .inf s := by cases s <;> decide +kernel
    rw [e1, e2]
    simp only [roundedNumber, if_neg (show ¬ encMag f64 m e < f64.infMag by omega)]

theorem toSgl_number (s : Bool) (m : Nat) (e : Int) :
    dblNumber (sglToDbl (toSgl (.fin s m e))) = some (roundedNumber f32 s (encMag f32 m e)) := by
  have hb : encF f32 (.fin s m e) < 2 ^ 32 := by
    have := encF_lt f32 (by decide) (.fin s m e)
    rw [f32_bits] at this
    exact this
  rcases Nat.lt_or_ge (encMag f32 m e) f32.infMag with h | h
  · have hv : (toSgl (.fin s m e)).val = .fin s (decMag f32 (encMag f32 m e)).1 (decMag f32 (encMag f32 m e)).2 := by
      unfold toSgl Sgl.val
      rw [BitVec.toNat_ofNat, Nat.mod_eq_of_lt hb, decF_encF_fin _ _ _ _ h]
    have hr : sglRat (toSgl (.fin s m e)) = some (if s then -magRat f32 (encMag f32 m e) else magRat f32 (encMag f32 m e)) := by
      unfold sglRat
      rw [hv]
      simp only [ratOf, magRat]
      cases s
      · simp
      · simp only [if_true]
        congr 1
        ring
    have hd := dblRat_sglToDbl hr
    have : ∀ (d : Dbl) (q : ℚ), dblRat d = some q → dblNumber d = some ((q : WithTop ℚ) : WithBot (WithTop ℚ)) := by
      intro d q hq
      unfold dblRat at hq
      unfold dblNumber
      cases hv : d.val with
      | nan => rw [hv] at hq; cases hq
      | inf s => rw [hv] at hq; cases hq
      | fin s m e => rw [hv] at hq; simp only; rw [hq]; rfl
    rw [this _ _ hd]
    simp only [roundedNumber, if_pos h]
  · have h' : encMag f32 m e = f32.infMag := Nat.le_antisymm (encMag_le _ _ _) h
    have e1 : toSgl (.fin s m e) = toSgl (.inf s) := by unfold toSgl; simp only [encF, h']
    rw [e1]
    simp only [roundedNumber, if_neg (show ¬ encMag f32 m e < f32.infMag by omega)]
    cases s <;> decide +kernel

/-- Numbers with sign, in the order of their magnitudes. -/
theorem fin_le {s t : Bool} {m n : Nat} {e g : Int}
    (h : (if s then -1 else 1) * (m : ℚ) * 2 ^ e ≤ (if t then -1 else 1) * (n : ℚ) * 2 ^ g) :
    (s = false ∧ t = false ∧ (m : ℚ) * 2 ^ e ≤ (n : ℚ) * 2 ^ g) ∨
    (s = true ∧ t = true ∧ (n : ℚ) * 2 ^ g ≤ (m : ℚ) * 2 ^ e) ∨
    (s = true ∧ t = false) ∨ (s = false ∧ t = true ∧ m = 0 ∧ n = 0) := by
  cases s <;> cases t
  · left; refine ⟨rfl, rfl, ?_⟩; simpa using h
  · right; right; right
    refine ⟨rfl, rfl, ?_⟩
    simp only [Bool.false_eq_true, if_false, if_true, one_mul, neg_mul] at h
    have h1 : (0 : ℚ) ≤ (m : ℚ) * 2 ^ e := by positivity
    have h2 : (0 : ℚ) ≤ (n : ℚ) * 2 ^ g := by positivity
    have h3 : (m : ℚ) * 2 ^ e = 0 := by linarith
    have h4 : (n : ℚ) * 2 ^ g = 0 := by linarith
    have p1 : (2 : ℚ) ^ e ≠ 0 := by positivity
    have p2 : (2 : ℚ) ^ g ≠ 0 := by positivity
    constructor
    · exact_mod_cast (mul_eq_zero.1 h3).resolve_right p1
    · exact_mod_cast (mul_eq_zero.1 h4).resolve_right p2
  · exact .inr (.inr (.inl ⟨rfl, rfl⟩))
  · right; left; refine ⟨rfl, rfl, ?_⟩
    simp only [if_true, neg_mul, one_mul] at h
    linarith

theorem infMag_pos {f : FFmt} (hf : f.Ok) : 0 < f.infMag := by
  unfold FFmt.infMag
  have h1 : 2 ^ 1 ≤ 2 ^ f.ebits := Nat.pow_le_pow_right (by decide) hf.he
  have h2 : 0 < 2 ^ (f.p - 1) := Nat.two_pow_pos _
  exact Nat.mul_pos (by omega) h2

theorem rounded_le {f : FFmt} (hf : f.Ok) {s t : Bool} {m n : Nat} {e g : Int}
    (h : (if s then -1 else 1) * (m : ℚ) * 2 ^ e ≤ (if t then -1 else 1) * (n : ℚ) * 2 ^ g) :
    roundedNumber f s (encMag f m e) ≤ roundedNumber f t (encMag f n g) := by
  rcases fin_le h with ⟨rfl, rfl, h'⟩ | ⟨rfl, rfl, h'⟩ | ⟨rfl, rfl⟩ | ⟨rfl, rfl, rfl, rfl⟩
  · exact roundedNumber_pos f (encMag_mono hf h')
  · exact roundedNumber_neg f (encMag_mono hf h')
  · exact roundedNumber_mixed f _ _
  · rw [encMag_zero, encMag_zero]
    unfold roundedNumber
    simp only [Bool.false_eq_true, if_false, if_true, magRat_zero, neg_zero]
    split
    · exact le_refl _
    · rename_i h0
      exact absurd (infMag_pos hf) h0

/-- Rounding a `double` to `float` keeps the order. -/
theorem single_le {x y : Dbl} {a b : WithBot (WithTop ℚ)} (hx : dblNumber x = some a) (hy : dblNumber y = some b)
    (h : a ≤ b) : ∃ a' b', dblNumber (sglToDbl (dblToSgl x)) = some a' ∧ dblNumber (sglToDbl (dblToSgl y)) = some b' ∧
      a' ≤ b' := by
  unfold dblNumber at hx hy
  unfold dblToSgl
  have hinf : ∀ s, dblNumber (sglToDbl (toSgl (.inf s))) =
      some (if s then ⊥ else ((⊤ : WithTop ℚ) : WithBot (WithTop ℚ))) := by
    intro s; cases s <;> decide +kernel
  cases hv : x.val with
  | nan => rw [hv] at hx; cases hx
  | inf s =>
    rw [hv] at hx
    simp only [Option.some.injEq] at hx
    cases s
    · simp only [Bool.false_eq_true, if_false] at hx
      cases hw : y.val with
      | nan => rw [hw] at hy; cases hy
      | inf t => 
        rw [hw] at hy
        simp only [Option.some.injEq] at hy
        exact ⟨_, _, hinf _, hinf _, by rw [← hx, ← hy] at h; simpa using h⟩
      | fin t n g =>
        rw [hw] at hy
        simp only [ratOf, Option.map_some, Option.some.injEq] at hy
        rw [← hx, ← hy, WithBot.coe_le_coe, top_le_iff] at h
        exact absurd h (WithTop.coe_ne_top)
    · cases hw : y.val with
      | nan => rw [hw] at hy; cases hy
      | inf t => exact ⟨_, _, hinf _, hinf _, bot_le⟩
      | fin t n g => exact ⟨_, _, hinf _, toSgl_number t n g, bot_le⟩
  | fin s m e =>
    rw [hv] at hx
    simp only [ratOf, Option.map_some, Option.some.injEq] at hx
    cases hw : y.val with
    | nan => rw [hw] at hy; cases hy
    | inf t =>
      rw [hw] at hy
      simp only [Option.some.injEq] at hy
      cases t
      · refine ⟨_, _, toSgl_number s m e, hinf false, ?_⟩
        have : ∀ q : WithBot (WithTop ℚ), q ≤ ((⊤ : WithTop ℚ) : WithBot (WithTop ℚ)) := fun q => le_top
        exact this _
      · simp only [if_true] at hy
        rw [← hx, ← hy, le_bot_iff] at h
        exact absurd h WithBot.coe_ne_bot
    | fin t n g =>
      rw [hw] at hy
      simp only [ratOf, Option.map_some, Option.some.injEq] at hy
      rw [← hx, ← hy, WithBot.coe_le_coe, WithTop.coe_le_coe] at h
      exact ⟨_, _, toSgl_number s m e, toSgl_number t n g, rounded_le f32_ok h⟩

/-- Rounding an integer to `double` keeps the order. -/
theorem ofInt_le {a b : Int} (h : a ≤ b) : ∃ a' b', dblNumber (dblOfInt a) = some a' ∧
    dblNumber (dblOfInt b) = some b' ∧ a' ≤ b' := by
  refine ⟨_, _, toDbl_number _ _ _, toDbl_number _ _ _, rounded_le f64_ok ?_⟩
  have key : ∀ v : Int, (if decide (v < 0) then -1 else 1) * (v.natAbs : ℚ) * 2 ^ (0 : Int) = (v : ℚ) := by
    intro v
    have e1 : ((v.natAbs : Nat) : ℚ) = ((v.natAbs : Int) : ℚ) := by simp
    rw [zpow_zero, mul_one, e1]
    by_cases hv : v < 0
    · simp only [hv, decide_true, if_true]
      rw [show (v.natAbs : Int) = -v by omega]; push_cast; ring
    · simp only [hv, decide_false, Bool.false_eq_true, if_false, one_mul]
      rw [show (v.natAbs : Int) = v by omega]
  rw [key, key]
  exact_mod_cast h

end Sedaman
