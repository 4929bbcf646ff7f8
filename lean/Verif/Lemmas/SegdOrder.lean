import Verif.Spec.SegdOrder
import Verif.Lemmas.SegdLossy
import Verif.Lemmas.FloatMono
import Verif.Lemmas.SampleOrder
import Verif.Lemmas.LogLib
import Verif.Props.SegdSample

/-! # Lemmas about order and sign of SEG-D samples -/

namespace Sedaman

open Spec Props

/-! ## Rounding to `double` keeps the order -/

/-- The number a value stands for. -/
def numF : FVal → Option (WithBot (WithTop ℚ))
  | .nan => none
  | .inf s => some (if s then ⊥ else ((⊤ : WithTop ℚ) : WithBot (WithTop ℚ)))
  | .fin s m e => some ((((if s then -1 else 1) * (m : ℚ) * 2 ^ e : ℚ) : WithTop ℚ) : WithBot (WithTop ℚ))

theorem number_numF (d : Dbl) : dblNumber d = numF d.val := by
  unfold dblNumber
  generalize d.val = v
  cases v <;> rfl

theorem toDbl_inf (s : Bool) : dblNumber (toDbl (.inf s)) =
    some (if s then ⊥ else ((⊤ : WithTop ℚ) : WithBot (WithTop ℚ))) := by
  cases s <;> decide +kernel

theorem toDbl_le {u v : FVal} {a b : WithBot (WithTop ℚ)} (hx : numF u = some a) (hy : numF v = some b)
    (h : a ≤ b) : ∃ a' b', dblNumber (toDbl u) = some a' ∧ dblNumber (toDbl v) = some b' ∧ a' ≤ b' := by
  have top : ∀ q : WithBot (WithTop ℚ), q ≤ ((⊤ : WithTop ℚ) : WithBot (WithTop ℚ)) := fun q => le_top
  cases u with
  | nan => cases hx
  | inf s =>
    cases s
    · cases v with
      | nan => cases hy
      | inf t =>
        cases t
        · exact ⟨_, _, toDbl_inf _, toDbl_inf _, le_refl _⟩
        · cases hx
          cases hy
          exact absurd h (by simp)
      | fin t n g =>
        cases hx
        cases hy
        simp only [Bool.false_eq_true, if_false] at h
        rw [WithBot.coe_le_coe, top_le_iff] at h
        exact absurd h WithTop.coe_ne_top
    · cases v with
      | nan => cases hy
      | inf t => exact ⟨_, _, toDbl_inf _, toDbl_inf _, bot_le⟩
      | fin t n g => exact ⟨_, _, toDbl_inf _, toDbl_number t n g, bot_le⟩
  | fin s m e =>
    cases v with
    | nan => cases hy
    | inf t =>
      cases t
      · exact ⟨_, _, toDbl_number s m e, toDbl_inf _, top _⟩
      · cases hx
        cases hy
        simp only [if_true] at h
        rw [le_bot_iff] at h
        exact absurd h WithBot.coe_ne_bot
    | fin t n g =>
      cases hx
      cases hy
      rw [WithBot.coe_le_coe, WithTop.coe_le_coe] at h
      exact ⟨_, _, toDbl_number s m e, toDbl_number t n g, rounded_le f64_ok h⟩

/-! ## Multiplication and division by a positive number keep the order -/

theorem positive_val {c : Dbl} {w : ℚ} (hc : dblRat c = some w) (h0 : 0 < w) :
    ∃ n g, c.val = .fin false n g ∧ n ≠ 0 := by
  unfold dblRat at hc
  generalize c.val = v at *
  cases v with
  | nan => cases hc
  | inf s => cases hc
  | fin s m e =>
    simp only [ratOf, Option.some.injEq] at hc
    have hp : (0 : ℚ) < 2 ^ e := by positivity
    have hm : m ≠ 0 := by
      rintro rfl
      simp at hc
      rw [← hc] at h0
      exact lt_irrefl _ h0
    cases s with
    | false => exact ⟨m, e, rfl, hm⟩
    | true =>
      exfalso
      have hm' : (0 : ℚ) < m := by exact_mod_cast Nat.pos_of_ne_zero hm
      have : 0 < (m : ℚ) * 2 ^ e := mul_pos hm' hp
      simp only [if_true] at hc
      linarith

/-- What multiplication by a positive value does to the two values. -/
theorem mulF_le {u v : FVal} {n : Nat} {g : Int} (hn : n ≠ 0) {a b : WithBot (WithTop ℚ)} (hx : numF u = some a)
    (hy : numF v = some b) (h : a ≤ b) :
    ∃ a' b', numF (u.mul (.fin false n g)) = some a' ∧ numF (v.mul (.fin false n g)) = some b' ∧ a' ≤ b' := by
  have top : ∀ q : WithBot (WithTop ℚ), q ≤ ((⊤ : WithTop ℚ) : WithBot (WithTop ℚ)) := fun q => le_top
  have hp : (0 : ℚ) < n * 2 ^ g := mul_pos (by exact_mod_cast Nat.pos_of_ne_zero hn) (by positivity)
  have i : ∀ s, (FVal.inf s).mul (.fin false n g) = .inf s := by
    intro s
    simp only [FVal.mul, if_neg hn]
    cases s <;> rfl
  have f : ∀ s m e, (FVal.fin s m e).mul (.fin false n g) = .fin s (m * n) (e + g) := by
    intro s m e
    simp only [FVal.mul]
    cases s <;> rfl
  have val : ∀ (s : Bool) (m : Nat) (e : Int), (if s then -1 else 1) * ((m * n : Nat) : ℚ) * 2 ^ (e + g) =
      ((if s then -1 else 1) * (m : ℚ) * 2 ^ e) * (n * 2 ^ g) := by
    intro s m e
    rw [zpow_add₀ (by norm_num)]
    push_cast
    ring
  cases u with
  | nan => cases hx
  | inf s =>
    rw [i]
    cases v with
    | nan => cases hy
    | inf t => rw [i]; exact ⟨_, _, rfl, rfl, by cases hx; cases hy; exact h⟩
    | fin t k e =>
      rw [f]
      cases s
      · cases hx
        cases hy
        simp only [Bool.false_eq_true, if_false] at h
        rw [WithBot.coe_le_coe, top_le_iff] at h
        exact absurd h WithTop.coe_ne_top
      · exact ⟨_, _, rfl, rfl, bot_le⟩
  | fin s m e =>
    rw [f]
    cases v with
    | nan => cases hy
    | inf t =>
      rw [i]
      cases t
      · exact ⟨_, _, rfl, rfl, top _⟩
      · cases hx
        cases hy
        simp only [if_true] at h
        rw [le_bot_iff] at h
        exact absurd h WithBot.coe_ne_bot
    | fin t k e' =>
      rw [f]
      cases hx
      cases hy
      rw [WithBot.coe_le_coe, WithTop.coe_le_coe] at h
      refine ⟨_, _, rfl, rfl, ?_⟩
      rw [WithBot.coe_le_coe, WithTop.coe_le_coe, val, val]
      exact mul_le_mul_of_nonneg_right h hp.le

theorem dmul_le {x y c : Dbl} {w : ℚ} (hc : dblRat c = some w) (h0 : 0 < w) (h : AtMost x y) :
    AtMost (dmul x c) (dmul y c) := by
  obtain ⟨n, g, hv, hn⟩ := positive_val hc h0
  obtain ⟨a, b, h1, h2, h3⟩ := h
  rw [number_numF] at h1 h2
  obtain ⟨a', b', k1, k2, k3⟩ := mulF_le (g := g) hn h1 h2 h3
  unfold dmul
  rw [hv]
  exact toDbl_le k1 k2 k3

/-- The digits of a quotient, the last one telling whether there is a remainder. -/
def quotDigits (m k n : Nat) : Nat := 2 * (m * 2 ^ k / n) + if m * 2 ^ k % n = 0 then 0 else 1

theorem quotDigits_mono {m m' k n : Nat} (h : m ≤ m') : quotDigits m k n ≤ quotDigits m' k n := by
  unfold quotDigits
  have h1 : m * 2 ^ k ≤ m' * 2 ^ k := Nat.mul_le_mul_right _ h
  generalize m * 2 ^ k = A at *
  generalize m' * 2 ^ k = B at *
  have h2 := Nat.div_le_div_right (c := n) h1
  have a1 := Nat.div_add_mod A n
  have a2 := Nat.div_add_mod B n
  rcases eq_or_lt_of_le h2 with e | e
  · rw [e] at a1 ⊢
    split <;> split <;> omega
  · split <;> split <;> omega

/-- With a smaller exponent there are fewer digits. -/
theorem quotDigits_shift {m m' k n d : Nat} (hn : 0 < n) (hk : n * 4 ≤ 2 ^ k) (hm : m < 2 ^ 53) (hm' : 2 ^ 52 ≤ m')
    (hd : 1 ≤ d) : quotDigits m k n ≤ quotDigits m' k n * 2 ^ d := by
  have key : m * 2 ^ k / n + 1 ≤ m' * 2 ^ k / n * 2 ^ d := by
    have h1 : m * 2 ^ k ≤ (2 ^ 53 - 1) * 2 ^ k := Nat.mul_le_mul_right _ (by omega)
    have h2 : 2 ^ 52 * 2 ^ k ≤ m' * 2 ^ k := Nat.mul_le_mul_right _ hm'
    generalize 2 ^ k = K at *
    generalize m * K = A at *
    generalize m' * K = B at *
    have a1 := Nat.div_mul_le_self A n
    have a2 := Nat.div_add_mod B n
    have a3 := Nat.mod_lt B hn
    have a4 : 2 ≤ 2 ^ d := by
      calc 2 = 2 ^ 1 := rfl
        _ ≤ 2 ^ d := Nat.pow_le_pow_right (by decide) hd
    have a5 : B / n * 2 ≤ B / n * 2 ^ d := Nat.mul_le_mul_left _ a4
    refine le_trans ?_ a5
    refine Nat.le_of_mul_le_mul_left (c := n) ?_ hn
    rw [Nat.mul_add, Nat.mul_one, Nat.mul_comm n (A / n), ← Nat.mul_assoc]
    omega
  unfold quotDigits
  rw [Nat.add_mul, Nat.mul_assoc]
  have : (if m * 2 ^ k % n = 0 then 0 else 1) ≤ 1 := by split <;> omega
  omega

/-- A finite number has all its digits, or the lowest exponent. -/
theorem dbl_fin_digits {d : Dbl} {s : Bool} {m : Nat} {e : Int} (h : d.val = .fin s m e) :
    m < 2 ^ 53 ∧ -1074 ≤ e ∧ (2 ^ 52 ≤ m ∨ e = -1074) := by
  refine ⟨(dbl_fin_bounds h).1, (dbl_fin_bounds h).2.1, ?_⟩
  unfold Dbl.val decF at h
  simp only at h
  split at h
  · simp only [FVal.fin.injEq] at h
    obtain ⟨_, h2, h3⟩ := h
    unfold decMag at h2 h3
    split at h2
    · rename_i c
      rw [if_pos c] at h3
      right
      rw [← h3]
      rfl
    · left
      rw [← h2]
      exact Nat.le_add_right _ _
  · split at h <;> simp at h

theorem quot_le {x y : Dbl} {s t : Bool} {m m' n : Nat} {e e' : Int} (hx : x.val = .fin s m e) (hy : y.val = .fin t m' e')
    (hn : n ≠ 0) (h : (m : ℚ) * 2 ^ e ≤ (m' : ℚ) * 2 ^ e') (c : Int) :
    (quotDigits m (n.log2 + 65) n : ℚ) * 2 ^ (e - c) ≤ (quotDigits m' (n.log2 + 65) n : ℚ) * 2 ^ (e' - c) := by
  obtain ⟨a1, a2, a3⟩ := dbl_fin_digits hx
  obtain ⟨b1, b2, b3⟩ := dbl_fin_digits hy
  have hn' : 0 < n := Nat.pos_of_ne_zero hn
  have hk : n * 4 ≤ 2 ^ (n.log2 + 65) := by
    have := (log2_bounds hn).2
    rw [show n.log2 + 65 = n.log2 + 1 + 64 by omega, Nat.pow_add]
    calc n * 4 ≤ 2 ^ (n.log2 + 1) * 4 := Nat.mul_le_mul_right _ this.le
      _ ≤ _ := Nat.mul_le_mul_left _ (by decide)
  generalize n.log2 + 65 = k at *
  have p : ∀ z : Int, (0 : ℚ) < 2 ^ z := fun z => by positivity
  rcases lt_trichotomy e e' with hlt | heq | hgt
  · obtain ⟨d, hd⟩ : ∃ d : Nat, e' = e + d := ⟨(e' - e).toNat, by omega⟩
    have hq := quotDigits_shift (k := k) hn' hk a1 (b3.resolve_right (by omega)) (d := d) (by omega)
    have hq' : (quotDigits m k n : ℚ) ≤ quotDigits m' k n * 2 ^ d := by exact_mod_cast hq
    rw [show e' - c = (e - c) + d by omega, zpow_add₀ (by norm_num), zpow_natCast, ← mul_assoc,
      mul_right_comm]
    exact mul_le_mul_of_nonneg_right hq' (p _).le
  · subst heq
    have hm : m ≤ m' := by
      have := le_of_mul_le_mul_right h (p e)
      exact_mod_cast this
    have : (quotDigits m k n : ℚ) ≤ quotDigits m' k n := by exact_mod_cast quotDigits_mono (k := k) hm
    exact mul_le_mul_of_nonneg_right this (p _).le
  · exfalso
    obtain ⟨d, hd⟩ : ∃ d : Nat, e = e' + 1 + d := ⟨(e - e' - 1).toNat, by omega⟩
    have hm := a3.resolve_right (by omega)
    rw [hd, add_assoc, zpow_add₀ (by norm_num), mul_comm ((2 : ℚ) ^ e'), ← mul_assoc] at h
    have h' := le_of_mul_le_mul_right h (p e')
    rw [show (1 : Int) + d = ((1 + d : Nat) : Int) by push_cast; rfl, zpow_natCast] at h'
    have h'' : m * 2 ^ (1 + d) ≤ m' := by exact_mod_cast h'
    have : m * 2 ^ 1 ≤ m * 2 ^ (1 + d) := Nat.mul_le_mul_left _ (Nat.pow_le_pow_right (by decide) (by omega))
    omega

theorem divF_fin {s : Bool} {m n : Nat} {e g : Int} (hn : n ≠ 0) : (FVal.fin s m e).div (.fin false n g) =
    .fin s (quotDigits m (n.log2 + 65) n) (e - (g + (n.log2 + 65 : Nat) + 1)) := by
  simp only [FVal.div, if_neg hn, quotDigits]
  rw [show (s != false) = s by cases s <;> rfl]
  congr 1
  omega

theorem divF_inf {s : Bool} {n : Nat} {g : Int} : (FVal.inf s).div (.fin false n g) = .inf s := by
  cases s <;> rfl

theorem ddiv_le {x y c : Dbl} {w : ℚ} (hc : dblRat c = some w) (h0 : 0 < w) (h : AtMost x y) :
    AtMost (ddiv x c) (ddiv y c) := by
  have top : ∀ q : WithBot (WithTop ℚ), q ≤ ((⊤ : WithTop ℚ) : WithBot (WithTop ℚ)) := fun q => le_top
  obtain ⟨n, g, hv, hn⟩ := positive_val hc h0
  obtain ⟨a, b, h1, h2, h3⟩ := h
  rw [number_numF] at h1 h2
  unfold ddiv
  rw [hv]
  cases hx : x.val with
  | nan => rw [hx] at h1; cases h1
  | inf s =>
    rw [hx] at h1
    cases hy : y.val with
    | nan => rw [hy] at h2; cases h2
    | inf t => rw [hy] at h2; rw [divF_inf, divF_inf]; exact toDbl_le h1 h2 h3
    | fin t m' e' =>
      rw [hy] at h2
      rw [divF_inf, divF_fin hn]
      cases s
      · cases h1
        cases h2
        simp only [Bool.false_eq_true, if_false] at h3
        rw [WithBot.coe_le_coe, top_le_iff] at h3
        exact absurd h3 WithTop.coe_ne_top
      · exact toDbl_le (u := .inf true) rfl rfl bot_le
  | fin s m e =>
    rw [hx] at h1
    rw [divF_fin hn]
    cases hy : y.val with
    | nan => rw [hy] at h2; cases h2
    | inf t =>
      rw [hy] at h2
      rw [divF_inf]
      cases t
      · exact toDbl_le (v := .inf false) rfl rfl (top _)
      · cases h1
        cases h2
        simp only [if_true] at h3
        rw [le_bot_iff] at h3
        exact absurd h3 WithBot.coe_ne_bot
    | fin t m' e' =>
      rw [hy] at h2
      rw [divF_fin hn]
      cases h1
      cases h2
      rw [WithBot.coe_le_coe, WithTop.coe_le_coe] at h3
      refine toDbl_le rfl rfl (WithBot.coe_le_coe.2 (WithTop.coe_le_coe.2 ?_))
      have zero : ∀ k, quotDigits 0 k n = 0 := fun k => by unfold quotDigits; simp
      have g1 := fun h' => quot_le (n := n) hx hy hn h' (g + (n.log2 + 65 : Nat) + 1)
      have g2 := fun h' => quot_le (n := n) hy hx hn h' (g + (n.log2 + 65 : Nat) + 1)
      have p : ∀ (a : Nat) (z : Int), (0 : ℚ) ≤ (a : ℚ) * 2 ^ z := fun a z => by positivity
      clear hx hy hv
      generalize g + (n.log2 + 65 : Nat) + 1 = c at *
      generalize n.log2 + 65 = k at *
      rcases fin_le h3 with ⟨rfl, rfl, h'⟩ | ⟨rfl, rfl, h'⟩ | ⟨rfl, rfl⟩ | ⟨rfl, rfl, rfl, rfl⟩
      · simp only [Bool.false_eq_true, if_false, one_mul]
        exact g1 h'
      · simp only [if_true, neg_mul, one_mul]
        exact neg_le_neg (g2 h')
      · simp only [if_true, Bool.false_eq_true, if_false, one_mul, neg_mul]
        exact le_trans (neg_nonpos.2 (p _ _)) (p _ _)
      · rw [zero]; simp

/-! ## Lists of samples -/

/-- A list of samples, each of which comes back as something, with any descale factor. -/
theorem samples_back {est : PackEst} {fmt : Int} {c : Dbl} {xs : List Dbl} {P : Dbl → Dbl → Prop}
    (hf : fmt ∈ segdByteFormats)
    (hx : ∀ x ∈ xs, ∃ y, SampleBack est fmt (ddiv x c) y ∧ P x (dmul y c))
    (hl : xs.length * segdBits fmt < 2 ^ 32) :
    ∃ ys, SamplesBack est fmt c xs ys ∧ List.Forall₂ P xs ys := by
  unfold SamplesBack
  have hmem : fmt ∈ segdFormats := by
    revert fmt; intro fmt hf _ _
    simp only [segdByteFormats, List.mem_cons, List.not_mem_nil, or_false] at hf
    rcases hf with h | h | h | h | h | h | h | h <;> subst h <;> decide
  obtain ⟨r, hr⟩ := segdReader_bits hmem
  obtain ⟨w, hw⟩ := segdWriter_bytes est hf
  obtain ⟨n, hn⟩ : ∃ n, segdBits fmt = 8 * n := by
    simp only [segdByteFormats, List.mem_cons, List.not_mem_nil, or_false] at hf
    rcases hf with h | h | h | h | h | h | h | h <;> subst h
    exacts [⟨3, rfl⟩, ⟨4, rfl⟩, ⟨4, rfl⟩, ⟨8, rfl⟩, ⟨3, rfl⟩, ⟨4, rfl⟩, ⟨4, rfl⟩, ⟨8, rfl⟩]
  have hx' : ∀ x, ∃ y bs, x ∈ xs → P x (dmul y c) ∧ w (ddiv x c) = .ok bs ∧
      bs.length = n ∧ ∀ rest, r (bs ++ rest) = .ok (y, rest) := by
    intro x
    by_cases hm : x ∈ xs
    · obtain ⟨y, ⟨w', r', bs, e1, e2, e3, e4, e5⟩, hp⟩ := hx x hm
      rw [hw] at e1; rw [hr] at e2
      simp only [Except.ok.injEq, Prod.mk.injEq, true_and, SampleWr.bytes.injEq] at e1 e2
      subst e1 e2
      exact ⟨y, bs, fun _ => ⟨hp, e3, by omega, e5⟩⟩
    · exact ⟨x, [], fun h => absurd h hm⟩
  choose v f hv using hx'
  have hlen : (xs.flatMap f).length = xs.length * n := by
    clear hl hx
    induction xs with
    | nil => simp
    | cons x t ih =>
      rw [List.flatMap_cons, List.length_append, (hv x (by simp)).2.2.1,
        ih (fun y hy => hv y (by simp [hy])), List.length_cons, Nat.add_mul]
      omega
  have hsz : xs.length * segdBits fmt / 8 = xs.length * n := by
    rw [hn, ← Nat.mul_assoc, Nat.mul_comm xs.length 8, Nat.mul_assoc, Nat.mul_div_cancel_left _ (by decide)]
  refine ⟨xs.map fun x => dmul (v x) c, ⟨xs.flatMap f, fun m => ⟨⟨m.pending, xs.flatMap f⟩, ?_⟩,
    fun rest => ?_⟩, ?_⟩
  · unfold writeSamplesD
    rw [hw, ok_bind]
    simp only
    rw [hsz, wrSamples_ok (f := f) n xs m.pending [] _ (fun x hm => ?_)
      (by rw [resizeTo_length]), ok_bind]
    · simp only [List.drop_of_length_le (Nat.le_of_eq (resizeTo_length (xs.length * n) m.buf)), pure_eq_ok,
        List.nil_append, List.append_nil]
    · obtain ⟨-, d3, d4, -⟩ := hv x hm
      exact ⟨d3, d4⟩
  · unfold readSamplesD
    rw [hr, ok_bind]
    simp only
    rw [Nat.mod_eq_of_lt hl, hsz, if_pos (by rw [List.length_append, hlen]; omega), ok_bind]
    simp only
    rw [List.take_left' hlen, List.drop_left' hlen]
    have := rdSamples_map (r := r) (f := f) (v := v) (descale := c) xs []
      (fun x hm => (hv x hm).2.2.2)
    rw [List.append_nil] at this
    rw [this, ok_bind]; rfl
  · rw [List.forall₂_map_right_iff, List.forall₂_same]
    exact fun x hm => (hv x hm).1

theorem samplesBack_unique {est : PackEst} {fmt : Int} {c : Dbl} {xs ys zs : List Dbl}
    (h1 : SamplesBack est fmt c xs ys) (h2 : SamplesBack est fmt c xs zs) : ys = zs := by
  obtain ⟨bs, w1, r1⟩ := h1
  obtain ⟨cs, w2, r2⟩ := h2
  obtain ⟨m1, e1⟩ := w1 {}
  obtain ⟨m2, e2⟩ := w2 {}
  rw [e1] at e2
  cases e2
  have := r1 []
  rw [r2 []] at this
  cases this
  rfl

theorem orderKept_of {P : Dbl → Dbl → Prop} {xs ys : List Dbl} (h : List.Forall₂ P xs ys)
    (hp : ∀ x ∈ xs, ∀ y ∈ xs, ∀ x' y', P x x' → P y y' → AtMost x y → AtMost x' y') : OrderKept xs ys := by
  refine ⟨h.length_eq.symm, fun i j x y x' y' h1 h2 h3 h4 h5 => ?_⟩
  have key : ∀ (i : Nat) (x x' : Dbl), xs[i]? = some x → ys[i]? = some x' → P x x' := by
    intro i x x' h1 h2
    obtain ⟨a1, rfl⟩ := List.getElem?_eq_some_iff.1 h1
    obtain ⟨a2, rfl⟩ := List.getElem?_eq_some_iff.1 h2
    exact h.get a1 a2
  exact hp x (List.mem_of_getElem? h1) y (List.mem_of_getElem? h2) x' y' (key i x x' h1 h3) (key j y y' h2 h4) h5

/-! ## Sign -/

theorem mulF_flip (u : FVal) (n : Nat) (g : Int) : (flipF u).mul (.fin false n g) = flipF (u.mul (.fin false n g)) := by
  cases u with
  | nan => rfl
  | inf s => simp only [flipF, FVal.mul]; split <;> cases s <;> rfl
  | fin s m e => simp only [flipF, FVal.mul]; cases s <;> rfl

theorem mulF_nan {u : FVal} {n : Nat} {g : Int} (hn : n ≠ 0) (h : u.isNan = false) :
    (u.mul (.fin false n g)).isNan = false := by
  cases u with
  | nan => cases h
  | inf s => simp only [FVal.mul, if_neg hn]; rfl
  | fin s m e => rfl

theorem divF_flip {u : FVal} {n : Nat} {g : Int} (hn : n ≠ 0) :
    (flipF u).div (.fin false n g) = flipF (u.div (.fin false n g)) := by
  cases u with
  | nan => rfl
  | inf s => cases s <;> rfl
  | fin s m e => simp only [flipF, divF_fin hn]

theorem divF_nan {u : FVal} {n : Nat} {g : Int} (hn : n ≠ 0) (h : u.isNan = false) :
    (u.div (.fin false n g)).isNan = false := by
  cases u with
  | nan => cases h
  | inf s => rw [divF_inf]; rfl
  | fin s m e => rw [divF_fin hn]; rfl

theorem notNan_iff (d : Dbl) : d.val.isNan = false ↔ dblNumber d ≠ none := by
  rw [number_numF]
  generalize d.val = v
  cases v <;> simp [FVal.isNan, numF]

theorem atMost_refl {x : Dbl} (h : dblNumber x ≠ none) : AtMost x x := by
  obtain ⟨a, ha⟩ := Option.ne_none_iff_exists'.1 h
  exact ⟨a, a, ha, ha, le_refl _⟩

theorem Spec.AtMost.number {x y : Dbl} (h : AtMost x y) : dblNumber x ≠ none := by
  obtain ⟨a, b, h1, -, -⟩ := h
  rw [h1]
  exact Option.some_ne_none _

theorem ddiv_opposite {x c : Dbl} {w : ℚ} (hc : dblRat c = some w) (h0 : 0 < w) (h : dblNumber x ≠ none) :
    ddiv (opposite x) c = opposite (ddiv x c) := by
  obtain ⟨n, g, hv, hn⟩ := positive_val hc h0
  unfold ddiv
  rw [hv, opposite_val, divF_flip hn, toDbl_flip (divF_nan hn ((notNan_iff x).2 h))]

theorem dmul_opposite {x c : Dbl} {w : ℚ} (hc : dblRat c = some w) (h0 : 0 < w) (h : dblNumber x ≠ none) :
    dmul (opposite x) c = opposite (dmul x c) := by
  obtain ⟨n, g, hv, hn⟩ := positive_val hc h0
  unfold dmul
  rw [hv, opposite_val, mulF_flip, toDbl_flip (mulF_nan hn ((notNan_iff x).2 h))]

theorem ofInt_opposite {n : Int} (h : n ≠ 0) : dblOfInt (-n) = opposite (dblOfInt n) := by
  unfold dblOfInt
  rw [← toDbl_flip rfl]
  unfold flipF
  rw [Int.natAbs_neg]
  congr 2
  by_cases c : n < 0
  · simp only [c, decide_true, Bool.not_true, decide_eq_false_iff_not]; omega
  · simp only [c, decide_false, Bool.not_false, decide_eq_true_eq]; omega

end Sedaman
