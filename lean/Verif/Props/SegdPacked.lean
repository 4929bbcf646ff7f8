import Verif.Lemmas.SegdPacked
import Mathlib.Algebra.Order.Archimedean.Basic
import Mathlib.Data.Rat.Floor

/-!
# C68: SEG-D samples with packed exponents
-/

namespace Sedaman.Props

open Spec

/-! ## Exact estimates exist

The theorems below assume `PackEstOk`. It is satisfiable: every positive number has a truncated
logarithm. -/

theorem logTrunc_exists {b : ℚ} (hb : 1 < b) (k : Int) {r : ℚ} (hr : 0 < r) : ∃ t, LogTrunc b k r t := by
  obtain ⟨n, h1, h2⟩ := exists_mem_Ico_zpow hr hb
  have lt : ∀ i j : Int, i < j → b ^ i < b ^ j := fun i j h => zpow_lt_zpow_right₀ hb h
  have le : ∀ i j : Int, i ≤ j → b ^ i ≤ b ^ j := fun i j h => zpow_le_zpow_right₀ hb.le h
  rcases lt_trichotomy (n + 1 + k) 0 with hL | hL | hL
  · rcases h1.eq_or_lt with he | he
    · refine ⟨n + 1 + k, fun h => by omega, fun h => by omega, fun _ => ?_⟩
      rw [show n + 1 + k - 1 - k = n by omega]
      exact ⟨he ▸ lt _ _ (by omega), he.ge⟩
    · refine ⟨n + 1 + k + 1, fun h => by omega, fun h => ?_, fun h => ?_⟩
      · rw [show -2 - k = n by omega]
        exact ⟨he, h2.trans_le (le _ _ (by omega))⟩
      · rw [show n + 1 + k + 1 - 2 - k = n by omega, show n + 1 + k + 1 - 1 - k = n + 1 by omega]
        exact ⟨he, h2.le⟩
  · refine ⟨0, fun h => by omega, fun _ => ?_, fun h => by omega⟩
    rw [show -k = n + 1 by omega]
    exact ⟨(lt _ _ (by omega)).trans_le h1, h2⟩
  · refine ⟨n + 1 + k, fun _ => ?_, fun h => by omega, fun h => by omega⟩
    rw [show n + 1 + k - 1 - k = n by omega, show n + 1 + k - k = n + 1 by omega]
    exact ⟨h1, h2⟩

theorem packEst_exists : ∃ est, PackEstOk est := by
  have key : ∀ (fmt : Int) (a : Dbl), ∃ t : Int, ∀ r, dblRat a = some r → 0 < r →
      LogTrunc (if fmt = 8015 ∨ fmt = 8022 ∨ fmt = 8024 then 2 else 16)
        (if fmt = 8015 then 15 else if fmt = 8022 then 4 else if fmt = 8024 then 12 else 0) r t := by
    intro fmt a
    by_cases h : ∃ r, dblRat a = some r ∧ 0 < r
    · obtain ⟨r, h1, h2⟩ := h
      obtain ⟨t, ht⟩ := logTrunc_exists (b := if fmt = 8015 ∨ fmt = 8022 ∨ fmt = 8024 then 2 else 16)
        (by split <;> norm_num)
        (if fmt = 8015 then 15 else if fmt = 8022 then 4 else if fmt = 8024 then 12 else 0) h2
      refine ⟨t, fun r' h3 _ => ?_⟩
      rw [h1] at h3
      rwa [← Option.some.inj h3]
    · exact ⟨0, fun r h1 h2 => absurd ⟨r, h1, h2⟩ h⟩
  choose est hest using key
  refine ⟨est, fun a r h1 h2 => ⟨?_, ?_, ?_, ?_, ?_, ?_⟩⟩
  · simpa using hest 8015 a r h1 h2
  · simpa using hest 8022 a r h1 h2
  · simpa using hest 8024 a r h1 h2
  · simpa using hest 8042 a r h1 h2
  · simpa using hest 8044 a r h1 h2
  · simpa using hest 8048 a r h1 h2

/-- A few numbers for the examples. -/
theorem rat_1_5 : dblRat (ddiv 0x3FF8000000000000 0x3FF0000000000000) = some (3 / 2) := by
  unfold dblRat
  rw [show Dbl.val (ddiv 0x3FF8000000000000 0x3FF0000000000000) = .fin false 6755399441055744 (-52)
    by decide +kernel]
  simp only [ratOf, Bool.false_eq_true, if_false, Option.some.injEq]; norm_num

theorem rat_m100 : dblRat (ddiv 0xC059100000000000 0x3FF0000000000000) = some (-(401 / 4)) := by
  unfold dblRat
  rw [show Dbl.val (ddiv 0xC059100000000000 0x3FF0000000000000) = .fin true 7054466603810816 (-46)
    by decide +kernel]
  simp only [ratOf, if_true, Option.some.injEq]; norm_num

theorem rat_half : dblRat (ddiv 0x3FE0000000000000 0x3FF0000000000000) = some (1 / 2) := by
  unfold dblRat
  rw [show Dbl.val (ddiv 0x3FE0000000000000 0x3FF0000000000000) = .fin false 4503599627370496 (-53)
    by decide +kernel]
  simp only [ratOf, Bool.false_eq_true, if_false, Option.some.injEq]; norm_num

theorem rat_mhalf : dblRat (ddiv 0xBFE0000000000000 0x3FF0000000000000) = some (-(1 / 2)) := by
  unfold dblRat
  rw [show Dbl.val (ddiv 0xBFE0000000000000 0x3FF0000000000000) = .fin true 4503599627370496 (-53)
    by decide +kernel]
  simp only [ratOf, if_true, Option.some.injEq]; norm_num

theorem rat_zero : dblRat (ddiv 0 0x3FF0000000000000) = some 0 := by
  unfold dblRat
  rw [show Dbl.val (ddiv 0 0x3FF0000000000000) = .fin false 0 (-1074) by decide +kernel]
  simp only [ratOf, Bool.false_eq_true, if_false, Option.some.injEq]; norm_num

/-- One unit of the fraction at the smallest sufficient exponent: from the fields of the word. -/
theorem represents_of {f : PackFmt} {x : ℚ} {t F : Nat} (hb : f.base = 16) (hbias : f.bias = 0)
    (htc : t < 2 ^ f.c) (hF : F < 2 ^ f.q) (hlo : 0 < t → (16 : ℚ) ^ (t - 1) ≤ |x|)
    (h1 : (F : ℚ) ≤ |x| * 2 ^ f.q / 16 ^ t) (h2 : |x| * 2 ^ f.q / 16 ^ t < F + 1) :
    f.Represents x (packWord f.c f.q (if x < 0 then 1 else 0, t, F)) := by
  intro e he hx
  rw [packFmt_value (by split <;> decide) htc hF, hb, hbias]
  rw [hb, hbias] at hx
  simp only [Nat.cast_zero, sub_zero, Nat.cast_ofNat, zpow_natCast] at hx ⊢
  have hte : t ≤ e := by
    by_contra hlt
    have h3 : (16 : ℚ) ^ e ≤ 16 ^ (t - 1) := pow_le_pow_right₀ (by norm_num) (by omega)
    linarith [hlo (by omega)]
  have hp : (0 : ℚ) < 16 ^ t := by positivity
  have hq : (0 : ℚ) < 2 ^ f.q := by positivity
  have hmono : (16 : ℚ) ^ t ≤ 16 ^ e := pow_le_pow_right₀ (by norm_num) hte
  rw [le_div_iff₀ hp] at h1
  rw [div_lt_iff₀ hp] at h2
  have key : |(|x| - (F : ℚ) / 2 ^ f.q * 16 ^ t)| < 16 ^ e / 2 ^ f.q := by
    rw [abs_lt, lt_div_iff₀ hq, neg_lt, lt_div_iff₀ hq]
    have e1 : (|x| - (F : ℚ) / 2 ^ f.q * 16 ^ t) * 2 ^ f.q = |x| * 2 ^ f.q - F * 16 ^ t := by
      field_simp
    rw [neg_mul, e1]
    constructor <;> nlinarith [pow_pos (show (0 : ℚ) < 16 by norm_num) e]
  by_cases hneg : x < 0
  · rw [if_pos hneg]
    simp only [if_true]
    rw [abs_of_neg hneg] at key
    rw [← abs_neg]
    have e2 : -(x - -1 * ((F : ℚ) / 2 ^ f.q) * 16 ^ t) = -x - (F : ℚ) / 2 ^ f.q * 16 ^ t := by ring
    rw [e2]; exact key
  · rw [if_neg hneg]
    simp only [zero_ne_one, if_false, one_mul]
    rw [abs_of_nonneg (not_lt.mp hneg)] at key
    exact key

/-- **C68 (part).** Format 8044: a trace whose scaled samples lie between 1/256 and 4096 in magnitude is
written as one big-endian 16-bit word per sample, in order, and each word stands for its sample.
Missing: samples closer to zero, and zero itself, whose logarithm cannot be converted
(`C68_small_undefined`, `C68_small_undefined`), and the other formats, see below. -/
theorem C68_hexadecimal_partial (est : PackEst) (hest : PackEstOk est) (descale : Dbl) (xs : List Dbl)
    (hx : ∀ x ∈ xs, ∃ v, dblRat (ddiv x descale) = some v ∧ 1 / 256 < |v| ∧ |v| < 4096) :
    ∃ ws : List Nat, List.Forall₂ (fun x w => w < 2 ^ 16 ∧
        ∃ v, dblRat (ddiv x descale) = some v ∧ (packFmt 8044).Represents v w) xs ws ∧
      ∀ m, ∃ m', writeSamplesD est 8044 descale xs m = .ok (ws.flatMap fun w : Nat => encInt .be 2 (w : Int), m') := by
  have step : ∀ x, ∃ w : Nat, x ∈ xs → (w < 2 ^ 16 ∧
      (∃ v, dblRat (ddiv x descale) = some v ∧ (packFmt 8044).Represents v w) ∧
      (do pure (writeU16 .be (packWord 2 13 (← packHex (est 8044) 2 13 (ddiv x descale)) : Nat)) : Out Bytes)
        = .ok (encInt .be 2 w)) := by
    intro x
    by_cases hm : x ∈ xs
    swap
    · exact ⟨0, fun h => absurd h hm⟩
    obtain ⟨v, hv, h1, h2⟩ := hx x hm
    have hv0 : v ≠ 0 := by rintro rfl; norm_num at h1
    obtain ⟨-, -, -, -, hL, -⟩ := hest (dblAbs (ddiv x descale)) |v| (abs_rat hv) (abs_pos.mpr hv0)
    obtain ⟨l1, l2, l3⟩ := hL
    generalize ht : est 8044 (dblAbs (ddiv x descale)) = t at *
    have ht0 : 0 ≤ t := by
      by_contra hneg
      obtain ⟨-, l4⟩ := l3 (by omega)
      have : (16 : ℚ) ^ (t - 1 - 0) ≤ 16 ^ (-2 : Int) := zpow_le_zpow_right₀ (by norm_num) (by omega)
      exact absurd (lt_of_lt_of_le h1 (l4.trans this)) (by norm_num)
    have ht3 : t ≤ 3 := by
      by_contra hgt
      obtain ⟨l4, -⟩ := l1 (by omega)
      have : (16 : ℚ) ^ (3 : Int) ≤ 16 ^ (t - 1 - 0) := zpow_le_zpow_right₀ (by norm_num) (by omega)
      exact absurd (lt_of_le_of_lt (this.trans l4) h2) (by norm_num)
    obtain ⟨n, rfl⟩ := Int.eq_ofNat_of_zero_le ht0
    have hlo : 0 < n → (16 : ℚ) ^ (n - 1) ≤ |v| := by
      intro hn
      obtain ⟨l4, -⟩ := l1 (by omega)
      rw [show ((n : Int) - 1 - 0) = ((n - 1 : Nat) : Int) by omega, zpow_natCast] at l4
      exact l4
    have hhi : |v| < 16 ^ n := by
      rcases Nat.eq_zero_or_pos n with rfl | hn
      · have := (l2 rfl).2; simpa using this
      · have := (l1 (by omega)).2
        rw [sub_zero, zpow_natCast] at this; exact this
    obtain ⟨F, f1, f2, f3, f4⟩ := packHex_spec (c := 2) (q := 13) hv hv0 (by decide) (by decide) n ht
      (by norm_num; omega) (fun hn => le_trans (one_le_pow₀ (by norm_num)) (hlo hn)) hhi
    refine ⟨packWord 2 13 (if v < 0 then 1 else 0, n, F), fun _ => ⟨?_, ⟨v, hv, ?_⟩, ?_⟩⟩
    · exact (packWord_fields (c := 2) (q := 13) (by split <;> decide) (by norm_num; omega) f1).2.2.2
    · exact represents_of (f := packFmt 8044) rfl rfl (by norm_num [packFmt]; omega) f1 hlo f2 f3
    · rw [f4, ok_bind, pure_eq_ok, writeU16_eq]
  choose g hg using step
  refine ⟨xs.map g, ?_, fun m => ⟨⟨m.pending, (xs.map g).flatMap fun w : Nat => encInt .be 2 (w : Int)⟩, ?_⟩⟩
  · rw [List.forall₂_map_right_iff, List.forall₂_same]
    exact fun x hm => ⟨(hg x hm).1, (hg x hm).2.1⟩
  · unfold writeSamplesD
    rw [show segdWriter est 8044 = .ok (16, .bytes fun d => do
      pure (writeU16 .be (packWord 2 13 (← packHex (est 8044) 2 13 d) : Nat))) from rfl, ok_bind]
    simp only
    rw [show xs.length * 16 / 8 = xs.length * 2 by omega,
      wrSamples_ok (f := fun x => encInt .be 2 (g x)) 2 xs m.pending [] _
        (fun x hm => ⟨(hg x hm).2.2, encInt_length _ _ _⟩) (by rw [resizeTo_length]), ok_bind]
    simp only [List.drop_of_length_le (Nat.le_of_eq (resizeTo_length (xs.length * 2) m.buf)), pure_eq_ok,
      List.nil_append, List.append_nil, List.flatMap_map]

example (est : PackEst) (hest : PackEstOk est) :
    ∃ ws : List Nat, ws.length = 2 ∧ ∀ m, ∃ m', writeSamplesD est 8044 0x3FF0000000000000
      [0x3FF8000000000000, 0xC059100000000000] m = .ok (ws.flatMap fun w : Nat => encInt .be 2 (w : Int), m') := by
  obtain ⟨ws, h1, h2⟩ := C68_hexadecimal_partial est hest 0x3FF0000000000000
    [0x3FF8000000000000, 0xC059100000000000] (by
      intro x hx
      rcases List.mem_cons.mp hx with rfl | hx
      · exact ⟨_, rat_1_5, by norm_num [abs_of_pos], by norm_num [abs_of_pos]⟩
      · rw [List.mem_singleton.mp hx]
        exact ⟨_, rat_m100, by norm_num [abs_of_pos], by norm_num [abs_of_pos]⟩)
  exact ⟨ws, h1.length_eq.symm, h2⟩

/-! ## What the code does instead -/

/-- The largest magnitude too small for the exponent estimate of a format. -/
def tooSmall : Int → ℚ
  | 8022 => 1 / 2 ^ 6
  | 8024 => 1 / 2 ^ 14
  | _ => 1 / 16 ^ 2

/-- An estimate below zero. -/
theorem logTrunc_neg {b : ℚ} {k : Int} {r : ℚ} {t : Int} (hb : 1 < b) (h : LogTrunc b k r t)
    (hr : r ≤ b ^ (-2 - k)) : t < 0 := by
  obtain ⟨h1, h2, -⟩ := h
  by_contra ht
  rcases Int.lt_or_eq_of_le (not_lt.mp ht) with h0 | h0
  · have := (h1 h0).1
    have h3 : b ^ (-2 - k) < b ^ (t - 1 - k) := zpow_lt_zpow_right₀ hb (by omega)
    linarith
  · have := (h2 h0.symm).1
    linarith

theorem packExp_neg {est : Dbl → Int} {a : Dbl} (h : est a < 0) (n bits : Nat) :
    ∃ u, packExp est n bits a = isUb u := by
  rcases onlyUb_packExp est n bits a with ⟨r, e⟩ | h'
  · unfold packExp at e
    split at e
    · split at e
      · cases e
      · rw [if_neg (by omega)] at e; cases e
    · cases e
  · exact h'

/-- **C68 (counterexample).** A trace with a zero sample, or one close to zero, cannot be written in the
formats 8022, 8024, 8042, 8044 and 8048: its logarithm is converted to an unsigned type, which is
undefined. -/
theorem C68_small_undefined (est : PackEst) (hest : PackEstOk est) (fmt : Int)
    (hf : fmt ∈ [8022, 8024, 8042, 8044, 8048]) (descale : Dbl) (xs : List Dbl) (m : SampMem) (x : Dbl)
    (hx : x ∈ xs) (v : ℚ) (hv : dblRat (ddiv x descale) = some v) (hs : |v| ≤ tooSmall fmt) :
    ∃ u, writeSamplesD est fmt descale xs m = isUb u := by
  have hexp : ∃ u, packExp (est fmt) 4 (packFmt fmt).c (dblAbs (ddiv x descale)) = isUb u := by
    have ha := abs_rat hv
    rcases eq_or_ne v 0 with rfl | hv0
    · rw [abs_zero] at ha
      exact ⟨_, packExp_zero ha⟩
    · obtain ⟨-, l1, l2, l3, l4, l5⟩ := hest _ _ ha (abs_pos.mpr hv0)
      apply packExp_neg
      simp only [List.mem_cons, List.not_mem_nil, or_false] at hf
      rcases hf with rfl | rfl | rfl | rfl | rfl <;> simp only [tooSmall] at hs
      · exact logTrunc_neg (by norm_num) l1 (le_trans hs (by norm_num))
      · exact logTrunc_neg (by norm_num) l2 (le_trans hs (by norm_num))
      · exact logTrunc_neg (by norm_num) l3 (le_trans hs (by norm_num))
      · exact logTrunc_neg (by norm_num) l4 (le_trans hs (by norm_num))
      · exact logTrunc_neg (by norm_num) l5 (le_trans hs (by norm_num))
  obtain ⟨u, hu⟩ := hexp
  have h6 : fmt ∈ [8015, 8022, 8024, 8042, 8044, 8048] := List.mem_cons_of_mem _ hf
  have hmem : fmt ∈ segdFormats := by
    simp only [List.mem_cons, List.not_mem_nil, or_false] at hf
    rcases hf with rfl | rfl | rfl | rfl | rfl <;> decide
  obtain ⟨w, hw⟩ := segdWriter_bits est hmem
  have hput : ∀ p c, ∃ u, w.put p (ddiv x descale) c = isUb u := by
    intro p c
    simp only [List.mem_cons, List.not_mem_nil, or_false] at hf
    rcases hf with rfl | rfl | rfl | rfl | rfl <;> cases hw <;> simp only [packFmt] at hu <;> refine ⟨u, ?_⟩
    · unfold SampleWr.put writeAtStart packBin
      simp only [hu]; rfl
    · unfold SampleWr.put packBin
      simp only [hu]; rfl
    · unfold SampleWr.put writeAtStart packHex
      simp only [hu]; rfl
    · unfold SampleWr.put packHex
      simp only [hu]; rfl
    · unfold SampleWr.put packHex
      simp only [hu]; rfl
  obtain ⟨u', e⟩ := wrSamples_ub (fun p d c => onlyUb_put h6 hw p d c) hput xs m.pending
    ⟨[], resizeTo (xs.length * segdBits fmt / 8) m.buf⟩ hx
  refine ⟨u', ?_⟩
  unfold writeSamplesD
  rw [hw, ok_bind]
  simp only [e]
  rfl

example (est : PackEst) (hest : PackEstOk est) (m : SampMem) :
    ∃ u, writeSamplesD est 8048 0x3FF0000000000000 [0x3FF8000000000000, 0] m = isUb u :=
  C68_small_undefined est hest 8048 (by decide) _ _ m 0 (by simp) 0 rat_zero
    (by rw [abs_zero]; unfold tooSmall; norm_num)

/-- A fraction of zero stands for no sample that is at least one unit of the fraction large. -/
theorem not_represents_zero {f : PackFmt} {v : ℚ} {s e : Nat} (hs : s < 2) (he : e < 2 ^ f.c)
    (hb : 1 < f.base) (hbq : f.base ≤ 2 ^ f.q) (hbias : f.bias = 0) (hlo : 1 / 2 ^ f.q ≤ |v|)
    (hin : f.InRange v) : ¬ f.Represents v (packWord f.c f.q (s, e, 0)) := by
  intro hR
  have hb1 : (1 : ℚ) < f.base := by exact_mod_cast hb
  have hbq' : (f.base : ℚ) ≤ 2 ^ f.q := by exact_mod_cast hbq
  -- the smallest sufficient exponent
  obtain ⟨e0, h1, h2⟩ := hin
  rw [hbias] at h2
  simp only [Nat.cast_zero, sub_zero, zpow_natCast] at h2
  have hex : ∃ e, |v| < (f.base : ℚ) ^ e := ⟨e0, h2⟩
  classical
  have hmin := Nat.find_spec hex
  have hle : Nat.find hex ≤ e0 := Nat.find_min' hex h2
  have := hR (Nat.find hex) (by omega) (by
    rw [hbias]; simp only [Nat.cast_zero, sub_zero, zpow_natCast]; exact hmin)
  rw [packFmt_value hs he (Nat.two_pow_pos _), hbias] at this
  simp only [Nat.cast_zero, zero_div, mul_zero, zero_mul, sub_zero, zpow_natCast] at this
  have hq : (0 : ℚ) < 2 ^ f.q := by positivity
  rcases hn : Nat.find hex with _ | n
  · rw [hn, pow_zero] at this
    linarith
  · have hnot := Nat.find_min hex (m := n) (by omega)
    rw [hn, lt_div_iff₀ hq] at this
    have hn' : (f.base : ℚ) ^ n ≤ |v| := not_lt.mp hnot
    have hp : (0 : ℚ) < (f.base : ℚ) ^ n := by positivity
    rw [pow_succ] at this
    nlinarith

/-- A trace of one sample. -/
theorem writeOne {est : PackEst} {fmt : Int} {n : Nat} {w : Dbl → Out Bytes} {descale x : Dbl} {bs : Bytes}
    (hw : segdWriter est fmt = .ok (8 * n, .bytes w)) (hx : w (ddiv x descale) = .ok bs) (hl : bs.length = n)
    (m : SampMem) : writeSamplesD est fmt descale [x] m = .ok (bs, ⟨m.pending, bs⟩) := by
  have e : [x].length * (8 * n) / 8 = n := by simp
  unfold writeSamplesD
  rw [hw, ok_bind]
  simp only
  rw [e, wrSamples_ok (f := fun _ => bs) n [x] m.pending [] _
    (fun y hy => by rw [List.mem_singleton.mp hy]; exact ⟨hx, hl⟩) (by rw [resizeTo_length]; simp), ok_bind]
  simp only [List.length_singleton, Nat.one_mul,
    List.drop_of_length_le (Nat.le_of_eq (resizeTo_length n m.buf)), pure_eq_ok, List.nil_append,
    List.append_nil, List.flatMap_cons, List.flatMap_nil]

/-- **C68 (counterexample).** Format 8024 never keeps a fraction: every sample between 2^-14 and 4^7 is
written as a word with fraction zero, which does not stand for it unless it is less than one unit. -/
theorem C68_8024_no_fraction (est : PackEst) (hest : PackEstOk est) (descale x : Dbl) (v : ℚ)
    (hv : dblRat (ddiv x descale) = some v) (h1 : 1 / 2 ^ 12 ≤ |v|) (h2 : |v| < 4 ^ 7) (m : SampMem) :
    ∃ w m', writeSamplesD est 8024 descale [x] m = .ok (encInt .be 2 (w : Nat), m') ∧
      w % 2 ^ 12 = 0 ∧ ¬ (packFmt 8024).Represents v w := by
  have hv0 : v ≠ 0 := by rintro rfl; norm_num at h1
  obtain ⟨-, -, hL, -, -, -⟩ := hest _ _ (abs_rat hv) (abs_pos.mpr hv0)
  obtain ⟨l1, l2, l3⟩ := hL
  have ht0 : 0 ≤ est 8024 (dblAbs (ddiv x descale)) := by
    by_contra hneg
    obtain ⟨-, l4⟩ := l3 (by omega)
    have := zpow_le_zpow_right₀ (show (1 : ℚ) ≤ 2 by norm_num)
      (show est 8024 (dblAbs (ddiv x descale)) - 1 - 12 ≤ -14 by omega)
    exact absurd (h1.trans (l4.trans this)) (by norm_num)
  have ht1 : est 8024 (dblAbs (ddiv x descale)) < 256 ^ 4 := by
    by_contra hgt
    obtain ⟨l4, -⟩ := l1 (by omega)
    have := zpow_le_zpow_right₀ (show (1 : ℚ) ≤ 2 by norm_num)
      (show 14 ≤ est 8024 (dblAbs (ddiv x descale)) - 1 - 12 by omega)
    exact absurd (lt_of_le_of_lt (this.trans l4) h2) (by norm_num)
  have hp := packBin_wrap (q := 12) hv hv0 ht0 ht1 (by omega)
  generalize hse : (est 8024 (dblAbs (ddiv x descale))).toNat % 8 = ex at hp
  have hex : ex < 2 ^ 3 := by omega
  refine ⟨packWord 3 12 (if v < 0 then 1 else 0, ex, 0), _, writeOne (n := 2) rfl ?_ (encInt_length _ _ _) m,
    ?_, ?_⟩
  · simp only [hp, ok_bind, pure_eq_ok, writeU16_eq]
  · exact (packWord_fields (by split <;> decide) hex (Nat.two_pow_pos _)).1
  · refine not_represents_zero (f := packFmt 8024) (by split <;> decide) hex (by decide) (by decide) rfl h1
      ⟨7, by decide, ?_⟩
    simpa [packFmt] using h2

example (est : PackEst) (hest : PackEstOk est) :=
  C68_8024_no_fraction est hest _ _ _ rat_1_5 (by norm_num [abs_of_pos]) (by norm_num [abs_of_pos]) {}

/-- **C68 (counterexample).** Format 8022: every sample between 1/16 and 128 is written as a byte with
fraction zero, which does not stand for it. -/
theorem C68_8022_no_fraction (est : PackEst) (hest : PackEstOk est) (descale x : Dbl) (v : ℚ)
    (hv : dblRat (ddiv x descale) = some v) (h1 : 1 / 2 ^ 4 ≤ |v|) (h2 : |v| < 2 ^ 7) (m : SampMem) :
    ∃ w m', writeSamplesD est 8022 descale [x] m = .ok ([BitVec.ofNat 8 w], m') ∧ w < 2 ^ 8 ∧
      w % 2 ^ 4 = 0 ∧ ¬ (packFmt 8022).Represents v w := by
  have hv0 : v ≠ 0 := by rintro rfl; norm_num at h1
  have ha := abs_rat hv
  obtain ⟨-, hL, -, -, -, -⟩ := hest _ _ ha (abs_pos.mpr hv0)
  obtain ⟨l1, l2, l3⟩ := hL
  generalize ht : est 8022 (dblAbs (ddiv x descale)) = t at *
  have ht0 : 0 ≤ t := by
    by_contra hneg
    obtain ⟨-, l4⟩ := l3 (by omega)
    have := zpow_le_zpow_right₀ (show (1 : ℚ) ≤ 2 by norm_num) (show t - 1 - 4 ≤ -6 by omega)
    exact absurd (h1.trans (l4.trans this)) (by norm_num)
  have ht1 : t < 12 := by
    by_contra hgt
    obtain ⟨l4, -⟩ := l1 (by omega)
    have := zpow_le_zpow_right₀ (show (1 : ℚ) ≤ 2 by norm_num) (show 7 ≤ t - 1 - 4 by omega)
    exact absurd (lt_of_le_of_lt (this.trans l4) h2) (by norm_num)
  have hp : packBin (est 8022) 4 (ddiv x descale) = .ok (if v < 0 then 1 else 0, t.toNat % 8, 0) := by
    by_cases hw : t.toNat % 8 < 4
    · have := packBin_wrap (est := est 8022) (q := 4) hv hv0 (by rw [ht]; exact ht0)
        (by rw [ht]; norm_num; omega) (by rw [ht]; exact hw)
      rwa [ht] at this
    · have ht8 : t < 8 := by omega
      have ht4 : 4 ≤ t := by omega
      have he : t.toNat % 8 = t.toNat := Nat.mod_eq_of_lt (by omega)
      have hpe := packExp_ok (est := est 8022) (n := 4) (bits := 3) ha (abs_pos.mpr hv0)
        (by rw [ht]; exact ht0) (by rw [ht]; norm_num; omega)
      rw [ht, show (2 : Nat) ^ 3 = 8 from rfl, he] at hpe
      have hdiv : dblToU 4 (ddiv (dblAbs (ddiv x descale)) (pow2 ((t.toNat - 4 : Nat) : Int))) = .ok (0 : Nat) := by
        have e : ((t.toNat - 4 : Nat) : Int) = t - 4 := by omega
        rw [e]
        refine div_trunc ha (le_trans ?_ h1) (by omega) (by omega) (by simp; positivity) ?_ (by norm_num) (by decide)
        · rw [show (1 : ℚ) / 2 ^ 4 = 2 ^ (-4 : Int) by norm_num]
          exact zpow_le_zpow_right₀ (by norm_num) (by norm_num)
        · rw [div_lt_iff₀ (by positivity)]
          simpa using (l1 (by omega)).2
      unfold packBin powWrap
      simp only [hpe, ok_bind, if_pos (show 4 ≤ t.toNat by omega), hdiv, pure_eq_ok, he, dblNeg_rat hv hv0,
        decide_eq_true_eq]
      simp
  have hex : t.toNat % 8 < 2 ^ 3 := by omega
  generalize t.toNat % 8 = ex at hp hex
  obtain ⟨f1, -, -, f4⟩ := packWord_fields (c := 3) (q := 4) (s := if v < 0 then 1 else 0)
    (by split <;> decide) hex (Nat.two_pow_pos _)
  refine ⟨packWord 3 4 (if v < 0 then 1 else 0, ex, 0),
    ⟨m.pending, [BitVec.ofNat 8 (packWord 3 4 (if v < 0 then 1 else 0, ex, 0))]⟩, ?_, f4, f1, ?_⟩
  · unfold writeSamplesD
    rw [show segdWriter est 8022 = .ok (8, .own (writeAtStart fun d => do
      pure (packWord 3 4 (← packBin (est 8022) 4 d)))) from rfl, ok_bind]
    simp only [wrSamples, SampleWr.put, writeAtStart, wrLift, wr_bind, hp, ok_bind, pure_eq_ok, wr_pure]
    obtain ⟨b, hb⟩ := List.length_eq_one_iff.mp ((resizeTo_length ([x].length * 8 / 8) m.buf).trans (by simp))
    rw [hb]
    rfl
  · refine not_represents_zero (f := packFmt 8022) (by split <;> decide) hex (by decide) (by decide) rfl h1
      ⟨7, by decide, ?_⟩
    simp only [packFmt, Nat.cast_ofNat, Nat.cast_zero, sub_zero]
    exact lt_trans h2 (by norm_num)

example (est : PackEst) (hest : PackEstOk est) :=
  C68_8022_no_fraction est hest _ _ _ rat_m100 (by norm_num [abs_of_pos]) (by norm_num [abs_of_pos]) {}

/-- **C68 (counterexample).** Format 8048: the exponent is stored without the 64 of the format. Every
sample of the range is written as a word that stands for another number, smaller by a factor of
16^64. -/
theorem C68_8048_no_bias (est : PackEst) (hest : PackEstOk est) (descale x : Dbl) (v : ℚ)
    (hv : dblRat (ddiv x descale) = some v) (h1 : 1 / 256 < |v|) (h2 : |v| < 16 ^ 63) (m : SampMem) :
    ∃ w m', writeSamplesD est 8048 descale [x] m = .ok (encInt .be 4 (w : Nat), m') ∧
      |(packFmt 8048).value w| ≤ |v| / 16 ^ 64 ∧ ¬ (packFmt 8048).Represents v w := by
  have hv0 : v ≠ 0 := by rintro rfl; norm_num at h1
  have hvp := abs_pos.mpr hv0
  obtain ⟨-, -, -, -, -, hL⟩ := hest _ _ (abs_rat hv) hvp
  obtain ⟨l1, l2, l3⟩ := hL
  generalize ht : est 8048 (dblAbs (ddiv x descale)) = t at *
  have ht0 : 0 ≤ t := by
    by_contra hneg
    obtain ⟨-, l4⟩ := l3 (by omega)
    have := zpow_le_zpow_right₀ (show (1 : ℚ) ≤ 16 by norm_num) (show t - 1 - 0 ≤ -2 by omega)
    exact absurd (lt_of_lt_of_le h1 (l4.trans this)) (by norm_num)
  have ht1 : t ≤ 63 := by
    by_contra hgt
    obtain ⟨l4, -⟩ := l1 (by omega)
    have := zpow_le_zpow_right₀ (show (1 : ℚ) ≤ 16 by norm_num) (show 63 ≤ t - 1 - 0 by omega)
    exact absurd (lt_of_le_of_lt (this.trans l4) h2) (by norm_num)
  obtain ⟨n, rfl⟩ := Int.eq_ofNat_of_zero_le ht0
  have hlo : 0 < n → (16 : ℚ) ^ (n - 1) ≤ |v| := by
    intro hn
    obtain ⟨l4, -⟩ := l1 (by omega)
    rw [show ((n : Int) - 1 - 0) = ((n - 1 : Nat) : Int) by omega, zpow_natCast] at l4
    exact l4
  have hhi : |v| < 16 ^ n := by
    rcases Nat.eq_zero_or_pos n with rfl | hn
    · have := (l2 rfl).2; simpa using this
    · have := (l1 (by omega)).2
      rw [sub_zero, zpow_natCast] at this; exact this
  obtain ⟨F, f1, f2, f3, f4⟩ := packHex_spec (c := 7) (q := 24) hv hv0 (by decide) (by decide) n ht
    (by norm_num; omega) (fun hn => le_trans (one_le_pow₀ (by norm_num)) (hlo hn)) hhi
  have hs : (if v < 0 then 1 else 0) < 2 := by split <;> decide
  have hval := packFmt_value (f := packFmt 8048) hs (show n < 2 ^ 7 by omega) f1
  have h16 : (16 : ℚ) ^ ((n : Int) - 64) = 16 ^ n / 16 ^ 64 := by
    rw [zpow_sub₀ (by norm_num), zpow_natCast]; norm_num
  have habs : |(packFmt 8048).value (packWord 7 24 (if v < 0 then 1 else 0, n, F))| ≤ |v| / 16 ^ 64 := by
    change |(packFmt 8048).value (packWord (packFmt 8048).c (packFmt 8048).q _)| ≤ _
    rw [hval, abs_mul, abs_mul]
    have e1 : |(if (if v < 0 then 1 else 0) = 1 then (-1 : ℚ) else 1)| = 1 := by split <;> norm_num
    have hp : (0 : ℚ) < 16 ^ n := by positivity
    rw [le_div_iff₀ hp] at f2
    simp only [packFmt, Nat.cast_ofNat]
    rw [e1, one_mul, abs_of_nonneg (by positivity), abs_of_nonneg (by positivity), h16]
    rw [div_mul_div_comm, div_le_div_iff₀ (by positivity) (by positivity)]
    nlinarith [show (0 : ℚ) < 16 ^ 64 by positivity]
  refine ⟨packWord 7 24 (if v < 0 then 1 else 0, n, F), _, writeOne (n := 4) rfl ?_ (encInt_length _ _ _) m,
    habs, fun hR => ?_⟩
  · simp only [f4, ok_bind, pure_eq_ok, writeU32_eq]
  · have := hR (n + 64) (by simp only [packFmt]; omega) (by
      simp only [packFmt, Nat.cast_ofNat, Nat.cast_add, add_sub_cancel_right, zpow_natCast]; exact hhi)
    simp only [packFmt, Nat.cast_ofNat, Nat.cast_add, add_sub_cancel_right, zpow_natCast] at this
    simp only [packFmt] at habs
    have h3 := abs_sub_abs_le_abs_sub v (PackFmt.value ⟨16, 64, 7, 24⟩ (packWord 7 24 (if v < 0 then 1 else 0, n, F)))
    have h4 : |v| - |v| / 16 ^ 64 < 16 ^ n / 2 ^ 24 := by linarith
    have h5 : |v| / 2 < 16 ^ n / 2 ^ 24 := by
      have : |v| / 16 ^ 64 ≤ |v| / 2 := div_le_div_of_nonneg_left hvp.le (by norm_num) (by norm_num)
      linarith
    rcases Nat.eq_zero_or_pos n with rfl | hn
    · norm_num at h5; linarith
    · have h6 := hlo hn
      obtain ⟨k, rfl⟩ : ∃ k, n = k + 1 := ⟨n - 1, by omega⟩
      rw [pow_succ] at h5
      simp only [Nat.add_sub_cancel] at h6
      have : (0 : ℚ) < 16 ^ k := by positivity
      norm_num at h5
      linarith

example (est : PackEst) (hest : PackEstOk est) :=
  C68_8048_no_bias est hest _ _ _ rat_m100 (by norm_num [abs_of_pos]) (by norm_num [abs_of_pos]) {}

/-- **C68 (counterexample).** Formats 8022 and 8042 store every sample at the start of the buffer:
behind the first byte the file gets what the buffer held before, which is zero for a new writer. -/
theorem C68_one_byte (est : PackEst) (fmt : Int) (hf : fmt = 8022 ∨ fmt = 8042) (descale : Dbl) (xs : List Dbl)
    (m m' : SampMem) (bs : Bytes) (h : writeSamplesD est fmt descale xs m = .ok (bs, m')) :
    bs.length = xs.length ∧ bs.drop 1 = (resizeTo xs.length m.buf).drop 1 := by
  have key : ∀ (word : Dbl → Out Nat) (xs p : List Dbl) (r : Bytes) (q : List Dbl) (c : Cur),
      wrSamples (.own (writeAtStart word)) descale xs p ⟨[], r⟩ = .ok (q, c) →
      c.done = [] ∧ c.rest.length = r.length ∧ c.rest.drop 1 = r.drop 1 := by
    intro word xs
    induction xs with
    | nil =>
      intro p r q c h
      simp only [wrSamples, wr_pure, Except.ok.injEq, Prod.mk.injEq] at h
      obtain ⟨-, rfl⟩ := h
      exact ⟨rfl, rfl, rfl⟩
    | cons x t ih =>
      intro p r q c h
      simp only [wrSamples, SampleWr.put, writeAtStart, wrLift, wr_bind] at h
      cases hw : word (ddiv x descale) with
      | error e => rw [hw] at h; cases h
      | ok v =>
        rw [hw] at h
        simp only [ok_bind, pure_eq_ok] at h
        cases r with
        | nil => cases h
        | cons b r =>
          simp only [wrPoke, ok_bind, wr_pure] at h
          obtain ⟨a1, a2, a3⟩ := ih _ _ _ _ h
          exact ⟨a1, a2, a3⟩
  have hlen : xs.length * 8 / 8 = xs.length := by omega
  have fin : ∀ word, segdWriter est fmt = .ok (8, .own (writeAtStart word)) →
      bs.length = xs.length ∧ bs.drop 1 = (resizeTo xs.length m.buf).drop 1 := by
    intro word hw
    unfold writeSamplesD at h
    rw [hw, ok_bind] at h
    simp only [hlen] at h
    rcases he : wrSamples (.own (writeAtStart word)) descale xs m.pending ⟨[], resizeTo xs.length m.buf⟩
      with _ | ⟨q, c⟩
    · rw [he] at h; cases h
    · rw [he] at h
      obtain ⟨a1, a2, a3⟩ := key _ _ _ _ _ _ he
      simp only [ok_bind, pure_eq_ok, a1, List.nil_append, Except.ok.injEq, Prod.mk.injEq] at h
      obtain ⟨rfl, -⟩ := h
      exact ⟨by rw [a2, resizeTo_length], a3⟩
  rcases hf with rfl | rfl
  · exact fin _ rfl
  · exact fin _ rfl

/-- **C68 (counterexample).** Format 8015 collects four samples, across traces: the one to three samples
of a short trace are not written with it. The file gets what the buffer held before, and the samples
are kept for the next trace. -/
theorem C68_8015_short (est : PackEst) (descale : Dbl) (xs : List Dbl) (hl : xs.length < 4) (m : SampMem)
    (hm : m.pending = []) :
    writeSamplesD est 8015 descale xs m = .ok (resizeTo (xs.length * 20 / 8) m.buf,
      ⟨xs.map (ddiv · descale), resizeTo (xs.length * 20 / 8) m.buf⟩) := by
  unfold writeSamplesD
  rw [show segdWriter est 8015 = .ok (20, .own (write8015 (est 8015))) from rfl, ok_bind, hm]
  match xs, hl with
  | [], _ => rfl
  | [a], _ => rfl
  | [a, b], _ => rfl
  | [a, b, c], _ => rfl

/-- **C68 (counterexample).** Format 8015: after a trace of three samples, the first sample of the next
trace of three completes a group of ten bytes, for which its buffer of seven bytes has no room. -/
theorem C68_8015_overflow (est : PackEst) (descale : Dbl) (xs : List Dbl) (hl : xs.length = 3) (m : SampMem)
    (hm : m.pending.length = 3) : ∃ u, writeSamplesD est 8015 descale xs m = isUb u := by
  obtain ⟨x, y, z, rfl⟩ := List.length_eq_three.mp hl
  obtain ⟨a, b, c, hp⟩ := List.length_eq_three.mp hm
  have hb : ∀ v : Int, (writeI16 .be v).length = 2 := fun v => by rw [writeI16_eq, encInt_length]
  have key : ∀ r : Bytes, r.length = 7 →
      ∃ u, write8015 (est 8015) [a, b, c] (ddiv x descale) ⟨[], r⟩ = isUb u := by
    intro r hr
    unfold write8015
    simp only [wr_bind, wrLift]
    rcases onlyUb_pack8015 (est 8015) a with ⟨p0, e0⟩ | ⟨u, e⟩
    swap; · rw [e]; exact ⟨u, rfl⟩
    rcases onlyUb_pack8015 (est 8015) b with ⟨p1, e1⟩ | ⟨u, e⟩
    swap; · rw [e0, e]; exact ⟨u, rfl⟩
    rcases onlyUb_pack8015 (est 8015) c with ⟨p2, e2⟩ | ⟨u, e⟩
    swap; · rw [e0, e1, e]; exact ⟨u, rfl⟩
    rcases onlyUb_pack8015 (est 8015) (ddiv x descale) with ⟨p3, e3⟩ | ⟨u, e⟩
    swap; · rw [e0, e1, e2, e]; exact ⟨u, rfl⟩
    simp only [e0, e1, e2, e3, ok_bind, pure_eq_ok]
    rw [wrPut_any _ _ (by simp; omega), ok_bind]
    simp only
    rw [wrPut_any _ _ (by simp; omega), ok_bind]
    simp only
    rw [wrPut_any _ _ (by rw [hb]; simp; omega), ok_bind]
    simp only
    rw [wrPut_any _ _ (by rw [hb, hb]; simp; omega), ok_bind]
    simp only
    refine ⟨.outOfBounds, ?_⟩
    have : ∀ (bs : Bytes) (d r : Bytes), ¬ bs.length ≤ r.length → wrPut bs ⟨d, r⟩ = isUb .outOfBounds :=
      fun bs d r h => if_neg h
    rw [this _ _ _ (by simp only [hb, List.length_drop, List.length_singleton]; omega)]
    rfl
  obtain ⟨u, hu⟩ := key (resizeTo 7 m.buf) (resizeTo_length _ _)
  refine ⟨u, ?_⟩
  unfold writeSamplesD
  rw [show segdWriter est 8015 = .ok (20, .own (write8015 (est 8015))) from rfl, ok_bind, hp]
  simp only [show [x, y, z].length * 20 / 8 = 7 by simp, wrSamples, SampleWr.put, wr_bind, hu]
  rfl

/-- Two traces of three samples, one after the other. -/
example (est : PackEst) (descale x y z : Dbl) : ∃ m u,
    writeSamplesD est 8015 descale [x, y, z] {} = .ok (List.replicate 7 0, m) ∧
      writeSamplesD est 8015 descale [x, y, z] m = isUb u := by
  have h := C68_8015_short est descale [x, y, z] (by simp) {} rfl
  obtain ⟨u, hu⟩ := C68_8015_overflow est descale [x, y, z] rfl
    ⟨[x, y, z].map (ddiv · descale), resizeTo ([x, y, z].length * 20 / 8) []⟩ rfl
  exact ⟨_, u, h.trans (by rw [show [x, y, z].length * 20 / 8 = 7 by simp]; rfl), hu⟩

/-- Exponent and fraction of a sample below 1 in format 8015. -/
theorem pack8015_small {est : PackEst} (hest : PackEstOk est) {d : Dbl} {v : ℚ} (hv : dblRat d = some v)
    (h1 : 1 / 2 ^ 16 ≤ |v|) (h2 : |v| < 1) : ∃ e < 16, pack8015 (est 8015) d = .ok (e, 0) := by
  have hv0 : v ≠ 0 := by rintro rfl; norm_num at h1
  have ha := abs_rat hv
  obtain ⟨hL, -⟩ := hest _ _ ha (abs_pos.mpr hv0)
  obtain ⟨l1, l2, l3⟩ := hL
  generalize ht : est 8015 (dblAbs d) = t at *
  have ht0 : 0 ≤ t := by
    by_contra hneg
    obtain ⟨-, l4⟩ := l3 (by omega)
    have := zpow_le_zpow_right₀ (show (1 : ℚ) ≤ 2 by norm_num) (show t - 1 - 15 ≤ -17 by omega)
    exact absurd (h1.trans (l4.trans this)) (by norm_num)
  have ht1 : t ≤ 15 := by
    by_contra hgt
    obtain ⟨l4, -⟩ := l1 (by omega)
    have := zpow_le_zpow_right₀ (show (1 : ℚ) ≤ 2 by norm_num) (show 0 ≤ t - 1 - 15 by omega)
    exact absurd (lt_of_le_of_lt (this.trans l4) h2) (by norm_num)
  have hlt : |v| < 2 ^ (t - 15) := by
    rcases Int.lt_or_eq_of_le ht0 with h | h
    · exact (l1 h).2
    · have := (l2 h.symm).2
      rw [← h]; exact this
  have hpe := packExp_ok (est := est 8015) (n := 2) (bits := 4) ha (abs_pos.mpr hv0)
    (by rw [ht]; exact ht0) (by rw [ht]; norm_num; omega)
  rw [ht, show (2 : Nat) ^ 4 = 16 from rfl, Nat.mod_eq_of_lt (by omega : t.toNat < 16)] at hpe
  have hdiv : dblToU 2 (ddiv (dblAbs d) (pow2 ((t.toNat : Int) - 15))) = .ok (0 : Nat) := by
    rw [Int.toNat_of_nonneg ht0]
    refine div_trunc ha (le_trans ?_ h1) (by omega) (by omega) (by simp; positivity) ?_ (by norm_num) (by decide)
    · rw [show (1 : ℚ) / 2 ^ 16 = 2 ^ (-16 : Int) by norm_num]
      exact zpow_le_zpow_right₀ (by norm_num) (by norm_num)
    · rw [div_lt_iff₀ (by positivity)]
      simpa using hlt
  refine ⟨t.toNat, by omega, ?_⟩
  unfold pack8015
  simp only [hpe, ok_bind, hdiv, pure_eq_ok]
  rfl

/-- **C68 (counterexample).** Format 8015: of four samples below 1, only the exponents and the sign of
the fourth are written. -/
theorem C68_8015_no_fraction (est : PackEst) (hest : PackEstOk est) (descale x0 x1 x2 x3 : Dbl) (v3 : ℚ)
    (h : ∀ x ∈ [x0, x1, x2, x3], ∃ v, dblRat (ddiv x descale) = some v ∧ 1 / 2 ^ 16 ≤ |v| ∧ |v| < 1)
    (h3 : dblRat (ddiv x3 descale) = some v3) (m : SampMem) (hm : m.pending = []) :
    ∃ b0 b1 m', writeSamplesD est 8015 descale [x0, x1, x2, x3] m = .ok ([b0, b1] ++
      (List.replicate 4 (if v3 < 0 then [0x80, 0x00] else [0x00, 0x00])).flatten, m') := by
  have step : ∀ x ∈ [x0, x1, x2, x3], ∃ e < 16, pack8015 (est 8015) (ddiv x descale) = .ok (e, 0) := by
    intro x hx
    obtain ⟨v, a1, a2, a3⟩ := h x hx
    exact pack8015_small hest a1 a2 a3
  obtain ⟨e0, -, p0⟩ := step x0 (by simp)
  obtain ⟨e1, -, p1⟩ := step x1 (by simp)
  obtain ⟨e2, -, p2⟩ := step x2 (by simp)
  obtain ⟨e3, -, p3⟩ := step x3 (by simp)
  obtain ⟨v, a1, a2, -⟩ := h x3 (by simp)
  have : v = v3 := by rw [h3] at a1; exact (Option.some.inj a1).symm
  subst this
  have hv0 : v ≠ 0 := by rintro rfl; norm_num at a2
  have hw : (writeI16 .be (((0 ||| (if dblNeg (ddiv x3 descale) then 1 else 0) <<< 15 : Nat)) : Int))
      = if v < 0 then [0x80, 0x00] else [0x00, 0x00] := by
    rw [dblNeg_rat h3 hv0]
    by_cases hn : v < 0
    · rw [if_pos hn, if_pos (decide_eq_true hn)]; decide +kernel
    · rw [if_neg hn, if_neg (by simpa using hn)]; decide +kernel
  generalize hwe : (if v < 0 then [0x80, 0x00] else [0x00, 0x00] : Bytes) = bs at hw
  have hbs : bs.length = 2 := by rw [← hw, writeI16_eq, encInt_length]
  have hrl := resizeTo_length 10 m.buf
  generalize hr : resizeTo 10 m.buf = r at hrl
  refine ⟨BitVec.ofNat 8 (e0 <<< 4 ||| e1), BitVec.ofNat 8 (e2 <<< 4 ||| e3), ⟨[],
    [BitVec.ofNat 8 (e0 <<< 4 ||| e1), BitVec.ofNat 8 (e2 <<< 4 ||| e3)] ++ (List.replicate 4 bs).flatten⟩, ?_⟩
  unfold writeSamplesD
  rw [show segdWriter est 8015 = .ok (20, .own (write8015 (est 8015))) from rfl, ok_bind, hm]
  simp only [show [x0, x1, x2, x3].length * 20 / 8 = 10 by simp, hr]
  have hput : write8015 (est 8015) [ddiv x0 descale, ddiv x1 descale, ddiv x2 descale] (ddiv x3 descale) ⟨[], r⟩
      = .ok ([], ⟨[BitVec.ofNat 8 (e0 <<< 4 ||| e1), BitVec.ofNat 8 (e2 <<< 4 ||| e3)] ++
        (List.replicate 4 bs).flatten, []⟩) := by
    unfold write8015
    simp only [wr_bind, wrLift, p0, p1, p2, p3, ok_bind, pure_eq_ok, hw]
    rw [wrPut_any _ _ (by simp; omega), ok_bind]
    simp only
    rw [wrPut_any _ _ (by simp; omega), ok_bind]
    simp only
    rw [wrPut_any _ _ (by simp; omega), ok_bind]
    simp only
    rw [wrPut_any _ _ (by simp; omega), ok_bind]
    simp only
    rw [wrPut_any _ _ (by simp; omega), ok_bind]
    simp only
    rw [wrPut_any _ _ (by simp; omega), ok_bind, wr_pure]
    have : (((((List.drop 1 r).drop 1).drop bs.length).drop bs.length).drop bs.length).drop bs.length = [] := by
      rw [List.drop_drop, List.drop_drop, List.drop_drop, List.drop_drop, List.drop_drop]
      exact List.drop_of_length_le (by omega)
    simp only [List.length_singleton, this]
    simp [List.replicate]
  simp only [wrSamples, SampleWr.put, wr_bind]
  rw [show write8015 (est 8015) [] (ddiv x0 descale) ⟨[], r⟩ = .ok ([ddiv x0 descale], ⟨[], r⟩) from rfl, ok_bind]
  simp only
  rw [show write8015 (est 8015) [ddiv x0 descale] (ddiv x1 descale) ⟨[], r⟩
    = .ok ([ddiv x0 descale, ddiv x1 descale], ⟨[], r⟩) from rfl, ok_bind]
  simp only
  rw [show write8015 (est 8015) [ddiv x0 descale, ddiv x1 descale] (ddiv x2 descale) ⟨[], r⟩
    = .ok ([ddiv x0 descale, ddiv x1 descale, ddiv x2 descale], ⟨[], r⟩) from rfl, ok_bind]
  simp only [hput, ok_bind, wr_pure, pure_eq_ok, List.append_nil]

/-- Three samples of -0.5 followed by 0.5, all written with the sign of the last. -/
example (est : PackEst) (hest : PackEstOk est) : ∃ b0 b1 m', writeSamplesD est 8015 0x3FF0000000000000
    [0xBFE0000000000000, 0xBFE0000000000000, 0xBFE0000000000000, 0x3FE0000000000000] {} =
    .ok ([b0, b1, 0, 0, 0, 0, 0, 0, 0, 0], m') := by
  obtain ⟨b0, b1, m', h⟩ := C68_8015_no_fraction est hest 0x3FF0000000000000 0xBFE0000000000000
    0xBFE0000000000000 0xBFE0000000000000 0x3FE0000000000000 _ (by
      intro x hx
      have : x = 0xBFE0000000000000 ∨ x = 0x3FE0000000000000 := by simpa using hx
      rcases this with rfl | rfl
      · exact ⟨_, rat_mhalf, by norm_num [abs_of_pos], by norm_num [abs_of_pos]⟩
      · exact ⟨_, rat_half, by norm_num [abs_of_pos], by norm_num [abs_of_pos]⟩) rat_half {} rfl
  refine ⟨b0, b1, m', ?_⟩
  rw [h, if_neg (by norm_num)]
  rfl

/-- **C68 (counterexample).** Format 8015, samples of 1 and above, with an estimate that is exact for them: 1, 3, 5 and 14
are written with the exponents 0, 1, 2, 3, and their fractions, in this order, reach into the sign bit. All four are
negative numbers for a reader. -/
theorem C68_8015_sign_bit :
    (writeSamplesD (fun _ d => ((d.toNat / 2 ^ 52 : Nat) : Int) - 1023 + 16) 8015 (dblOfInt 1)
      [dblOfInt 1, dblOfInt 3, dblOfInt 5, dblOfInt 14] {}).map Prod.fst =
    .ok [0x01, 0x23, 0x80, 0x00, 0xC0, 0x00, 0xA0, 0x00, 0xE0, 0x00] := by
  decide +kernel

end Sedaman.Props
