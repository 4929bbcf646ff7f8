import Verif.Lemmas.LogIbm
import Verif.Lemmas.LogExists
import Verif.Lemmas.LogWitness
import Verif.Spec.IbmFile
import Verif.Props.E2EAuto
import Verif.Props.Stable

/-!
# Properties C12 and C99: IBM floating point with an accurate logarithm
-/

namespace Sedaman.Props

open Spec

/-! ## C12 -/

/-- There are accurate logarithms: the theorems below are not empty. -/
theorem C12_accurate_exists (conv : Nat → Dbl → Option Nat) : ∃ est : LogEst, UsesLog est ∧ est.conv = conv := by
  obtain ⟨log, h⟩ := accurate_exists
  exact ⟨⟨ibmEstimate log, conv⟩, ⟨log, h, fun _ => rfl⟩, rfl⟩

/-- **C12.** With an accurate logarithm the exponent is right, except next to a power of 16: for numbers
that are less than one part in 2^24 below one, and, for powers below `16^-31`, also just above. -/
theorem C12_exponent (est : LogEst) (h : UsesLog est) (d : Dbl) (x : ℚ) (hd : dblRat d = some x) (k : Int)
    (hk : -65 ≤ k) (hk' : k ≤ 62) (h1 : (16 : ℚ) ^ k ≤ |x|) (h2 : |x| ≤ (16 : ℚ) ^ (k + 1) * (1 - 1 / 2 ^ 24))
    (h3 : -31 ≤ k ∨ (16 : ℚ) ^ k * (1 + 1 / 2 ^ 24) ≤ |x|) :
    IbmExponent x (est (dblAbs d)) ∧ est (dblAbs d) = k + 65 := by
  obtain ⟨log, hl, he⟩ := h
  have ha := abs_rat hd
  have hp : (0 : ℚ) < (16 : ℚ) ^ (k + 1) := by positivity
  have hlt : |x| < (16 : ℚ) ^ (k + 1) := lt_of_le_of_lt h2 (by linarith)
  have hlt' : |x| < (16 : ℚ) ^ (63 : Int) := lt_of_lt_of_le hlt (zpow_le_zpow_right₀ (by norm_num) (by omega))
  have hs : (16 : ℚ) ^ (-65 : Int) ≤ |x| := le_trans (zpow_le_zpow_right₀ (by norm_num) (by omega)) h1
  have g1 : k + 65 ≤ ibmEstimate log (dblAbs d) := by
    rcases h3 with h3 | h3
    · exact est_low hl ha h3 hk' h1 hlt'
    · exact est_above hl ha hk hk' h3 hlt'
  have g2 := est_below hl ha (k := k + 1) (by omega) (by omega) hs h2
  have e : est (dblAbs d) = k + 65 := by rw [he]; omega
  refine ⟨?_, e⟩
  rw [e]
  exact ⟨by rw [show k + 65 - 65 = k by omega]; exact h1, by rw [show k + 65 - 64 = k + 1 by omega]; exact hlt⟩

private theorem word_rat {w : Nat} (hw : w < 2 ^ 32) : dblRat (ibmDecode w) = some (ibmValue w) := by
  obtain ⟨r, d, h1, h2, h3⟩ := C12_decode_value .le (encInt .le 4 w) [] (by simp)
  rw [decNat_encInt, toU_of_nat_lt (by simpa using hw)] at h3
  cases h1
  simp only [readIbm, readU32_eq, rd_bind, rdNat_encInt, toU_of_nat_lt (n := 4) (v := w) (by simpa using hw)] at h2
  cases h2
  exact h3

private theorem word_abs (w : Nat) :
    |ibmValue w| = ((w % 2 ^ 24 : Nat) : ℚ) * (16 : ℚ) ^ (((w / 2 ^ 24 % 128 : Nat) : Int) - 70) := by
  unfold ibmValue
  rw [mul_assoc, abs_mul, abs_of_nonneg (a := ((w % 2 ^ 24 : Nat) : ℚ) * _) (by positivity)]
  split <;> simp

/-- **C12 (part).** With an accurate logarithm a normalised word is written again for the number it
stands for, unless it is a power of 16 below `16^-31`. -/
theorem C12_rewritten_partial (est : LogEst) (h : UsesLog est) (w : Nat) (hw : w < 2 ^ 32) (hn : ibmNormalised w)
    (hx : 34 ≤ w / 2 ^ 24 % 128 ∨ w % 2 ^ 24 ≠ 2 ^ 20) : ibmEncode est (ibmDecode w) = .ok w := by
  have hex : w / 2 ^ 24 % 128 < 128 := Nat.mod_lt _ (by decide)
  have hf : w % 2 ^ 24 < 2 ^ 24 := Nat.mod_lt _ (by decide)
  refine C12_encode_decode_partial est w hw hn ?_
  have hab := word_abs w
  unfold ibmNormalised at hn
  generalize w / 2 ^ 24 % 128 = ex at *
  generalize w % 2 ^ 24 = fr at *
  have hS : (0 : ℚ) < (16 : ℚ) ^ ((ex : Int) - 70) := by positivity
  have hk0 : (16 : ℚ) ^ ((ex : Int) - 65) = 2 ^ 20 * (16 : ℚ) ^ ((ex : Int) - 70) := by
    rw [show (ex : Int) - 65 = 5 + (ex - 70) by omega, zpow_add₀ (by norm_num)]
    norm_num
  have hk1 : (16 : ℚ) ^ ((ex : Int) - 65 + 1) = 2 ^ 24 * (16 : ℚ) ^ ((ex : Int) - 70) := by
    rw [show (ex : Int) - 65 + 1 = 6 + (ex - 70) by omega, zpow_add₀ (by norm_num)]
    norm_num
  refine (C12_exponent est h _ _ (word_rat hw) ((ex : Int) - 65) (by omega) (by omega) ?_ ?_ ?_).1
  · rw [hab, hk0]
    exact mul_le_mul_of_nonneg_right (by exact_mod_cast hn) hS.le
  · rw [hab, hk1]
    have : (fr : ℚ) ≤ 2 ^ 24 - 1 := by
      have : (fr : ℚ) + 1 ≤ 2 ^ 24 := by exact_mod_cast hf
      linarith
    calc (fr : ℚ) * (16 : ℚ) ^ ((ex : Int) - 70) ≤ (2 ^ 24 - 1) * (16 : ℚ) ^ ((ex : Int) - 70) :=
          mul_le_mul_of_nonneg_right this hS.le
      _ = _ := by ring
  · rcases hx with hx | hx
    · left; omega
    · right
      rw [hab, hk0]
      have : (2 ^ 20 + 1 : ℚ) ≤ fr := by exact_mod_cast (by omega : 2 ^ 20 + 1 ≤ fr)
      calc 2 ^ 20 * (16 : ℚ) ^ ((ex : Int) - 70) * (1 + 1 / 2 ^ 24)
          ≤ (2 ^ 20 + 1) * (16 : ℚ) ^ ((ex : Int) - 70) := by nlinarith
        _ ≤ _ := mul_le_mul_of_nonneg_right this hS.le

/-- -118.625 -/
example (est : LogEst) (h : UsesLog est) : ibmEncode est 0xC05DA80000000000 = .ok 0xC276A000 := by
  have : ibmDecode 0xC276A000 = 0xC05DA80000000000 := by decide +kernel
  rw [← this]
  exact C12_rewritten_partial est h _ (by decide) (by unfold ibmNormalised; decide) (by decide)

/-- **C12 (part).** With an accurate logarithm every number between `16^-31` and the largest IBM number
is stored towards zero with an error below one part in `2^20 - 1`. -/
theorem C12_near_partial (est : LogEst) (h : UsesLog est) (d : Dbl) (x : ℚ) (hd : dblRat d = some x)
    (h1 : (16 : ℚ) ^ (-31 : Int) ≤ |x|) (h2 : |x| ≤ ((2 ^ 24 - 1 : Nat) : ℚ) * (16 : ℚ) ^ (57 : Int)) :
    ∃ w, ibmEncode est d = .ok w ∧ w < 2 ^ 32 ∧ |ibmValue w| ≤ |x| ∧ |x - ibmValue w| < |x| / (2 ^ 20 - 1) :=
  ibm_near h hd h1 h2

/-- 0.1 -/
example (est : LogEst) (h : UsesLog est) := C12_near_partial est h 0x3FB999999999999A (3602879701896397 / 2 ^ 55)
  (by
    have h : Dbl.val 0x3FB999999999999A = .fin false 7205759403792794 (-56) := by decide +kernel
    unfold dblRat; rw [h]; simp [ratOf]; norm_num)
  (by rw [abs_of_pos (by norm_num)]; norm_num) (by rw [abs_of_pos (by norm_num)]; norm_num)

/-- **C12 fails for small powers of 16.** With an accurate logarithm that gives, for `16^-39`, the nearest
double, the sample `16^-39` is written as zero. -/
theorem C12_power_lost (est : LogEst) (log : Dbl → Dbl) (h : AccurateLog log) (he : ∀ a, est a = ibmEstimate log a)
    (hn : ∀ y, dblRat (log (pow2 (4 * (-39)))) = some y →
      |(y : ℝ) - Real.log ((16 : ℚ) ^ (-39 : Int) : ℚ)| ≤ (2 ^ 47)⁻¹) :
    ∃ w, ibmEncode est (pow2 (4 * (-39))) = .ok w ∧ ibmValue w = 0 ∧
      dblRat (pow2 (4 * (-39))) = some ((16 : ℚ) ^ (-39 : Int)) := by
  refine C12_low_estimate_loses_value est (-39) (by decide) (by decide) ?_
  rw [he]
  refine est_lost h ?_ hn
  rw [(is_pow2 (by decide) (by decide)).rat, sixteen_zpow]
  simp

/-- **C12 fails just below `16^63`.** The exponent is computed as 128 and stored as 0, and the conversion of
the fraction is undefined behaviour. -/
theorem C12_largest_undefined (est : LogEst) (h : UsesLog est) (hst : est.Strict) (bo : ByteOrder) (d : Dbl) (x : ℚ)
    (hd : dblRat d = some x) (h1 : (16 : ℚ) ^ (63 : Int) * (1 - 1 / 2 ^ 47) ≤ |x|) (h2 : |x| < (16 : ℚ) ^ (63 : Int)) :
    ∃ w, sampleWriter est 1 = .ok w ∧ w bo d = isUb .floatToInt := by
  obtain ⟨log, hl, he⟩ := h
  have hest : est (dblAbs d) = 128 := by rw [he]; exact est_top hl (abs_rat hd) h1 h2
  refine ⟨_, rfl, ?_⟩
  have hx0 : 0 < |x| := lt_of_lt_of_le (by norm_num) h1
  have hd' := hd
  unfold dblRat ratOf at hd'
  split at hd'
  case h_2 => cases hd'
  rename_i s m e hv
  simp only [Option.some.injEq] at hd'
  have hm0 : m ≠ 0 := by
    rintro rfl
    simp at hd'
    rw [← hd'] at hx0
    simp at hx0
  have habs : |x| = (m : ℚ) * 2 ^ e := by
    rw [← hd', mul_assoc, abs_mul, abs_of_nonneg (a := (m : ℚ) * 2 ^ e) (by positivity)]
    cases s <;> simp
  obtain ⟨b1, b2, b3⟩ := dbl_fin_bounds hv
  have hl2 := log2_lt_of_lt b1 (by decide)
  have hid : Is d s m e := ⟨m, e, hv, rfl⟩
  have ha := dblAbs_is hid
  have hexp : ibmExp est (dblAbs d) = .ok 0 := by
    unfold ibmExp
    obtain ⟨m', e', h1, h2⟩ := ha
    rw [h1]
    have : m' ≠ 0 := by
      rintro rfl
      rw [habs, ← h2] at hx0
      simp at hx0
    simp only [this, if_false]
    rw [hest, if_pos ⟨by decide, by decide⟩]
    rfl
  have hmlog : (m.log2 : Int) + e < 252 := by
    have g1 : ((2 ^ m.log2 : Nat) : ℚ) ≤ m := by exact_mod_cast (log2_bounds hm0).1
    have : (2 : ℚ) ^ ((m.log2 : Int) + e) < 2 ^ (252 : Int) := by
      calc (2 : ℚ) ^ ((m.log2 : Int) + e) = 2 ^ (m.log2 : Int) * 2 ^ e := zpow_add₀ (by norm_num) _ _
        _ ≤ m * 2 ^ e := by
          apply mul_le_mul_of_nonneg_right _ (by positivity)
          rw [zpow_natCast]; exact_mod_cast g1
        _ < _ := by rw [← habs]; exact h2.trans_le (by norm_num)
    exact (zpow_lt_zpow_iff_right₀ (by norm_num)).mp this
  have s1 : Is (ddivPow2 (dblAbs d) (4 * (((0 : Nat) : Int) - 64))) false m (e + -(4 * (((0 : Nat) : Int) - 64))) :=
    ha.scale (by decide) (by decide) b1 (by omega) (by omega)
  have s2 := s1.scale (k := 24) (by decide) (by decide) b1 (by omega) (by omega)
  obtain ⟨m', e', g1, g2⟩ := s2
  obtain ⟨F, g3, g4, g5⟩ := trunc_fin false m' e'
  have hbig : (2 : ℚ) ^ 33 ≤ (m' : ℚ) * 2 ^ e' := by
    rw [g2, show e + -(4 * (((0 : Nat) : Int) - 64)) + 24 = e + 280 by omega, zpow_add₀ (by norm_num), ← mul_assoc,
      ← habs]
    have : (2 : ℚ) ^ 33 ≤ 1 * 2 ^ (280 : Int) := by
      rw [one_mul]
      exact_mod_cast pow_le_pow_right₀ (show (1 : ℚ) ≤ 2 by norm_num) (show 33 ≤ 280 by norm_num)
    refine this.trans (mul_le_mul_of_nonneg_right (le_trans (by norm_num) h1) (by positivity))
  have hF : 2 ^ 32 ≤ F := by
    have : (2 : ℚ) ^ 33 < F + 1 := lt_of_le_of_lt hbig g5
    have : 2 ^ 33 < F + 1 := by exact_mod_cast this
    omega
  have hu : dblToU 4 (dmul (ddivPow2 (dblAbs d) (4 * (((0 : Nat) : Int) - 64))) (pow2 24)) = isUb .floatToInt := by
    unfold dblToU dblToInt
    rw [g1, g3]
    simp only [Bool.false_eq_true, if_false]
    rw [if_neg (by omega)]
  have hc := hst 4 (dmul (ddivPow2 (dblAbs d) (4 * (((0 : Nat) : Int) - 64))) (pow2 24))
  have hto : est.toU 4 (dmul (ddivPow2 (dblAbs d) (4 * (((0 : Nat) : Int) - 64))) (pow2 24)) = isUb .floatToInt := by
    unfold LogEst.toU LogEst.unfit
    rw [hu, hc]
    rfl
  unfold writeIbm ibmEncode
  simp only [hexp, ok_bind]
  rw [hto]
  rfl

/-- The double before `16^63` -/
example (est : LogEst) (h : UsesLog est) (hst : est.Strict) := C12_largest_undefined est h hst .be 0x4FAFFFFFFFFFFFFF
  ((2 ^ 53 - 1) * 2 ^ 199)
  (by
    have h : Dbl.val 0x4FAFFFFFFFFFFFFF = .fin false (2 ^ 53 - 1) 199 := by decide +kernel
    unfold dblRat; rw [h]; simp [ratOf]; norm_num)
  (by rw [abs_of_pos (by norm_num)]; norm_num) (by rw [abs_of_pos (by norm_num)]; norm_num)

/-! ## C99 -/

private theorem comes_word {est : LogEst} {bo : ByteOrder} {d : Dbl} {w : Nat} (h1 : ibmEncode est d = .ok w)
    (h2 : w < 2 ^ 32) : ComesBack est 1 bo d (ibmDecode w) := by
  have hl : (writeU32 bo w).length = 4 := by rw [writeU32_eq]; simp
  refine ⟨_, _, writeU32 bo w, rfl, rfl, ?_, fun rest => ?_⟩
  · show writeIbm est bo d = _
    unfold writeIbm
    rw [h1]
    rfl
  · simp only [readIbm, readU32_eq]
    rw [rd_map_nat, if_pos (by simp [hl]), List.take_left' hl, List.drop_left' hl, writeU32_eq, decNat_encInt,
      toU_of_nat_lt (by simpa using h2)]

/-- **C99.** A sample for which the format works comes back near to what it was. -/
theorem C99_sample (est : LogEst) (h : UsesLog est) (hz : LogOfZero est) (bo : ByteOrder) (d : Dbl) (hd : IbmFit d) :
    (∃ y, ComesBack est 1 bo d y) ∧ ∀ y, ComesBack est 1 bo d y → IbmNear d y := by
  obtain ⟨x, hx, hr⟩ := hd
  have key : ∃ y, ComesBack est 1 bo d y ∧ IbmNear d y := by
    rcases hr with rfl | ⟨h1, h2⟩
    · refine ⟨0, (C91_ibm_zero est hz bo d hx).2, 0, 0, hx, by decide +kernel, le_refl _, ?_⟩
      norm_num
    · obtain ⟨w, w1, w2, w3, w4⟩ := C12_near_partial est h d x hx h1 h2
      exact ⟨_, comes_word w1 w2, x, _, hx, word_rat w2, w3, w4.le⟩
  obtain ⟨y, y1, y2⟩ := key
  exact ⟨⟨y, y1⟩, fun z hz => by rw [← C20_comes_unique est 1 bo d y z y1 hz]; exact y2⟩

private theorem int_fit {v : Int} (h : v.natAbs ≤ 2 ^ 53) : IbmFit (dblOfInt v) := by
  refine ⟨v, dblRat_ofInt h, ?_⟩
  rcases eq_or_ne v 0 with rfl | h0
  · left; simp
  · right
    have h1 : (1 : ℚ) ≤ |(v : ℚ)| := by exact_mod_cast Int.one_le_abs h0
    have h2 : |(v : ℚ)| ≤ 2 ^ 53 := by
      have : |v| ≤ 2 ^ 53 := by rw [abs_le]; omega
      exact_mod_cast this
    exact ⟨le_trans (by norm_num) h1, h2.trans (by norm_num)⟩

private theorem storable_of {est : LogEst} (h : UsesLog est) (hz : LogOfZero est) (bo : ByteOrder)
    {fields : List HField} {t : Trace} (ht : IbmTrace fields t) : Storable est 1 bo fields t where
  ints f hf := by
    obtain ⟨v, h1, h2⟩ := ht.ints f hf
    exact ⟨v, h1, fun hty => (C99_sample est h hz bo _ (int_fit (h2 hty))).1⟩
  samples x hx := (C99_sample est h hz bo x (ht.samples x hx)).1
  size := ht.size

private theorem near_all {est : LogEst} (h : UsesLog est) (hz : LogOfZero est) {bo : ByteOrder} {xs ys : List Dbl}
    (hx : ∀ x ∈ xs, IbmFit x) (hb : List.Forall₂ (ComesBack est 1 bo) xs ys) : List.Forall₂ IbmNear xs ys := by
  induction hb with
  | nil => exact .nil
  | cons h1 _ ih =>
    exact .cons ((C99_sample est h hz bo _ (hx _ List.mem_cons_self)).2 _ h1)
      (ih fun x hx' => hx x (List.mem_cons_of_mem _ hx'))

private theorem backs_of {est : LogEst} (h : UsesLog est) (hz : LogOfZero est) {bo : ByteOrder} {fields : List HField}
    {ts backs : List Trace} (ht : ∀ t ∈ ts, IbmTrace fields t)
    (hb : List.Forall₂ (TraceBack est 1 bo fields) ts backs) : List.Forall₂ (IbmBack est bo fields) ts backs := by
  induction hb with
  | nil => exact .nil
  | cons h1 _ ih =>
    exact .cons ⟨near_all h hz (ht _ List.mem_cons_self).samples h1.1, h1.2⟩
      (ih fun t ht' => ht t (List.mem_cons_of_mem _ ht'))

/-- **C99 (part).** Revision 0 with a binary header that asks for IBM floats. -/
theorem C99_rev0_partial (est : LogEst) (h : UsesLog est) (hz : LogOfZero est) (text : Bytes) (bh : BinHeader)
    (m : HdrMap) (b : HBlock) (ts : List Trace) (ht : text.length = 3200) (hbh : HeaderOk bh) (hm : MapOk bh m b)
    (hfmt : bh.formatCode = 1) (hrev : bh.revMajor = 0) (hexts : bh.extTextHeadersNum = 0) (hext : bh.extSampPerTr = 0)
    (hexplicit : bh ≠ { formatCode := 1 })
    (hts : ∀ t ∈ ts, IbmTrace b.fields t ∧ (t.samples.length : Int) = bh.sampPerTr % 65536) :
    ∃ w0 w r backs, openRev0 text bh m = .ok w0 ∧ writeAll (writeTraceRev0 est) w0 ts = .ok w ∧
      openReader w.file.data none m = .ok r ∧ r.texts = [text] ∧ r.bh = visible bh ∧
      List.Forall₂ (IbmBack est (orderOfMarker bh.endianness) b.fields) ts backs ∧ Visits r backs := by
  obtain ⟨w0, w, r, backs, k1, k2, k3, k4, k5, k6, k7⟩ := C20_roundtrip_partial est text bh m b ts ht hbh hm hrev hexts
    hext hexplicit (fun t ht => ⟨by rw [hfmt]; exact storable_of h hz _ (hts t ht).1, (hts t ht).2⟩)
  rw [hfmt] at k6
  exact ⟨w0, w, r, backs, k1, k2, k3, k4, k5, backs_of h hz (fun t ht => (hts t ht).1) k6, k7⟩

/-- **C99 (part).** Revision 0 without a binary header, where the format is IBM. -/
theorem C99_automatic_partial (est : LogEst) (h : UsesLog est) (hz : LogOfZero est) (text : Bytes) (m : HdrMap)
    (b : HBlock) (w0 : Writer) (t0 : Trace) (ts : List Trace) (n : Nat) (x : ℚ) (si : Int)
    (ho : openRev0 text {} m = .ok w0) (hm : MapOk {} m b)
    (hn : t0.header.get "SAMP_NUM" = some (.int n)) (hle : n ≤ 32767)
    (hx : HeaderNum t0.header "SAMP_INT" x) (hmax : x ≤ 32767) (htr : Truncates x si) (hsi : si ≠ 0)
    (hlo : -32768 ≤ si) (hts : ∀ t ∈ t0 :: ts, IbmTrace b.fields t ∧ t.samples.length = n) :
    ∃ w r backs, writeAll (writeTraceRev0 est) w0 (t0 :: ts) = .ok w ∧
      openReader w.file.data none m = .ok r ∧ r.texts = [w0.file.data.take 3200] ∧
      r.bh = { formatCode := 1, sampPerTr := n, sampInt := si } ∧
      List.Forall₂ (IbmBack est .be b.fields) (t0 :: ts) backs ∧ Visits r backs := by
  obtain ⟨w, r, backs, k1, k2, k3, k4, k5, k6⟩ := C28_roundtrip_partial est text m b w0 t0 ts n x si ho hm hn hle hx
    hmax htr hsi hlo (fun t ht => ⟨storable_of h hz _ (hts t ht).1, (hts t ht).2⟩)
  exact ⟨w, r, backs, k1, k2, k3, k4, backs_of h hz (fun t ht => (hts t ht).1) k5, k6⟩

/-- **C99 (part).** Revision 1. -/
theorem C99_rev1_partial (est : LogEst) (h : UsesLog est) (hz : LogOfZero est) (text : Bytes) (exts : List Bytes)
    (bh : BinHeader) (m : HdrMap) (b : HBlock) (ts : List Trace) (hl : ∀ x ∈ text :: exts, x.length = 3200)
    (hn : exts.length < 65536) (hbh : HeaderOk bh) (hm : MapOk bh m b) (hfmt : bh.formatCode = 1)
    (hrev : bh.revMajor = 1) (hdecl : TextsDeclared bh exts) (hext : ExtendedOk bh)
    (hts : ∀ t ∈ ts, IbmTrace b.fields t ∧ LengthKnown bh b.fields t) :
    ∃ w0 w r backs, openRev1 (text :: exts) bh m = .ok w0 ∧ writeAll (writeTraceRev1 est) w0 ts = .ok w ∧
      openReader w.file.data none m = .ok r ∧ r.texts = text :: exts ∧ r.bh = visible bh ∧
      List.Forall₂ (IbmBack est (orderOfMarker bh.endianness) b.fields) ts backs ∧ Visits r backs := by
  obtain ⟨w0, w, r, backs, k1, k2, k3, k4, k5, k6, k7⟩ := C21_roundtrip_partial est text exts bh m b ts hl hn hbh hm
    hrev hdecl hext (fun t ht => ⟨by rw [hfmt]; exact storable_of h hz _ (hts t ht).1, (hts t ht).2⟩)
  rw [hfmt] at k6
  exact ⟨w0, w, r, backs, k1, k2, k3, k4, k5, backs_of h hz (fun t ht => (hts t ht).1) k6, k7⟩

/-- **C99 (part).** Revision 2. -/
theorem C99_rev2_partial (est : LogEst) (h : UsesLog est) (hz : LogOfZero est) (text : Bytes) (exts : List Bytes)
    (bh : BinHeader) (m : HdrMap) (b : HBlock) (ts : List Trace) (hl : ∀ x ∈ text :: exts, x.length = 3200)
    (hn : exts.length < 65536) (hbh : HeaderOk bh) (hm : MapOk bh m b) (hfmt : bh.formatCode = 1)
    (hrev : 2 ≤ bh.revMajor) (hdecl : TextsDeclared bh exts) (hext : ExtendedOk bh)
    (hadd : bh.maxNumAddTrHeaders = 0) (hstz : bh.numOfTrailerStanza = 0)
    (hoff : bh.byteOffOfFirstTr = 0 ∨ bh.byteOffOfFirstTr = 3600 + 3200 * exts.length)
    (hts : ∀ t ∈ ts, IbmTrace b.fields t ∧ LengthKnown bh b.fields t) :
    ∃ w0 w data r backs, openRev2 (text :: exts) bh [] m = .ok w0 ∧
      writeAll (writeTraceRev2 est) w0 ts = .ok w ∧ closeRev2 w = .ok data ∧
      openReader data none m = .ok r ∧ r.texts = text :: exts ∧ r.bh = bh ∧ r.trailers = [] ∧
      List.Forall₂ (IbmBack est (orderOfMarker bh.endianness) b.fields) ts backs ∧ Visits r backs := by
  obtain ⟨w0, w, data, r, backs, k1, k2, k3, k4, k5, k6, k7, k8, k9⟩ := C22_roundtrip_partial est text exts bh m b ts hl
    hn hbh hm hrev hdecl hext hadd hstz hoff
    (fun t ht => ⟨by rw [hfmt]; exact storable_of h hz _ (hts t ht).1, (hts t ht).2⟩)
  rw [hfmt] at k8
  exact ⟨w0, w, data, r, backs, k1, k2, k3, k4, k5, k6, k7, backs_of h hz (fun t ht => (hts t ht).1) k8, k9⟩

/-- **C99.** A zero or a normalised number, other than a power of 16 below `16^-31`, is copied as it is. -/
theorem C99_word (est : LogEst) (h : UsesLog est) (hz : LogOfZero est) (bo : ByteOrder) (p : Bytes)
    (hp : IbmWord bo p) : Rewrites est 1 bo p := by
  rcases hp with rfl | ⟨hl, hn, hx⟩
  · exact C91_rewrites_zero est hz bo
  · have hlt : decNat bo p < 2 ^ 32 := by
      have := decNat_lt bo p
      rw [hl] at this
      exact this
    refine ⟨_, _, ibmDecode (decNat bo p), rfl, rfl, fun rest => ?_, ?_⟩
    · simp only [readIbm, readU32_eq]
      rw [rd_map_nat, if_pos (by simp; omega), List.take_left' hl, List.drop_left' hl]
    · simp only [writeIbm, C12_rewritten_partial est h _ hlt hn hx, ok_bind, writeU32_eq]
      have := encInt_decNat bo p
      rw [hl] at this
      rw [this]
      rfl

/-- **C99 (part).** A revision 0 file of such numbers is copied byte for byte. -/
theorem C99_copy_partial (est : LogEst) (h : UsesLog est) (hz : LogOfZero est) (text bin : Bytes)
    (traces : List (Bytes × List Bytes)) (m : HdrMap) (b : HBlock) (bo : ByteOrder) (bh : BinHeader)
    (ht : text.length = 3200) (hl : bin.length = 400)
    (hm : decInt .le ((bin.drop 96).take 4) = 0 ∨ decInt .le ((bin.drop 96).take 4) = 0x01020304)
    (hzero : ∀ i, i < 400 → ¬ BinCovered bin i → bin[i]? = some 0)
    (hf : fillBinHeader {} false bin = .ok (bo, bh)) (hfmt : bh.formatCode = 1)
    (hrev : bh.revMajor = 0) (hexts : bh.extTextHeadersNum = 0) (hext : bh.extSampPerTr = 0)
    (hexplicit : bh ≠ { formatCode := 1 })
    (hmap : MapOk bh m b) (hint : ∀ f ∈ b.fields, ∃ k, intKind f.ty = some k)
    (hts : ∀ t ∈ traces, t.1.length = 240 ∧ ZeroOutside b.fields t.1 ∧ t.2.length = (bh.sampPerTr % 65536).toNat ∧
      ∀ p ∈ t.2, IbmWord bo p) :
    ∃ r ts w0 w, openReader (text ++ bin ++ (traces.map fun t => t.1 ++ t.2.flatten).flatten) none m = .ok r ∧
      Visits r ts ∧ ts.length = traces.length ∧ r.texts = [text] ∧ openRev0 text r.bh m = .ok w0 ∧
      writeAll (writeTraceRev0 est) w0 ts = .ok w ∧
      w.file.data = text ++ bin ++ (traces.map fun t => t.1 ++ t.2.flatten).flatten := by
  have := C55_copy_partial est text bin (traces.map fun t => t.1 ++ t.2.flatten) m b bo bh ht hl hm hzero hf
    (by rw [hfmt]; decide) hrev hexts hext hexplicit hmap hint (by
      intro c hc
      obtain ⟨t, ht, rfl⟩ := List.mem_map.1 hc
      obtain ⟨a1, a2, a3, a4⟩ := hts t ht
      refine ⟨t.1, t.2, rfl, a1, a2, a3, fun p hp => ?_⟩
      rw [hfmt]
      exact C99_word est h hz bo p (a4 p hp))
  rwa [List.length_map] at this

/-! ## C92 -/

/-- **C92.** With an accurate logarithm a sample of at least `16^-31` that is not just below a power of 16
is stable in format 1. -/
theorem C92_stable_accurate (est : LogEst) (h : UsesLog est) (bo : ByteOrder) (d : Dbl) (x : ℚ) (hd : dblRat d = some x)
    (k : Int) (hk : -31 ≤ k) (hk' : k ≤ 62) (h1 : (16 : ℚ) ^ k ≤ |x|)
    (h2 : |x| ≤ (16 : ℚ) ^ (k + 1) * (1 - 1 / 2 ^ 24)) : Stable est 1 bo d := by
  obtain ⟨hE, ht⟩ := C12_exponent est h d x hd k (by omega) hk' h1 h2 (.inl hk)
  have hx0 : 0 < |x| := lt_of_lt_of_le (by positivity) h1
  have hd' := hd
  unfold dblRat ratOf at hd'
  split at hd'
  case h_2 => cases hd'
  rename_i s m e hv
  simp only [Option.some.injEq] at hd'
  have hm0 : m ≠ 0 := by
    rintro rfl
    simp at hd'
    rw [← hd'] at hx0
    simp at hx0
  obtain ⟨F, f1, f2, -, -, f5⟩ := ibmEncode_spec hv hm0 ⟨|x|, abs_rat hd, hE.1, hE.2⟩ (by omega) (by omega)
  rw [ht] at f5
  obtain ⟨n, hn⟩ := Int.eq_ofNat_of_zero_le (a := k + 65) (by omega)
  rw [hn, Int.toNat_natCast] at f5
  have hn1 : 34 ≤ n := by omega
  have hn2 : n < 128 := by omega
  generalize hw : (if s then 1 else 0) * 2 ^ 31 + n * 2 ^ 24 + F = w at f5
  have hw1 : w < 2 ^ 32 ∧ w % 2 ^ 24 = F ∧ w / 2 ^ 24 % 128 = n := by
    rw [← hw]
    cases s
    · simp only [Bool.false_eq_true, if_false]; omega
    · simp only [if_true]; omega
  obtain ⟨w1, w2, w3⟩ := hw1
  have hl : (writeU32 bo w).length = 4 := by rw [writeU32_eq]; simp
  have hdec : decNat bo (writeU32 bo w) = w := by
    rw [writeU32_eq, decNat_encInt, toU_of_nat_lt (by simpa using w1)]
  refine ⟨_, writeU32 bo w, rfl, by simp only [writeIbm, f5, ok_bind]; rfl, ?_⟩
  have hn' : ibmNormalised w := by unfold ibmNormalised; omega
  refine ⟨_, _, ibmDecode w, rfl, rfl, fun rest => ?_, ?_⟩
  · simp only [readIbm, readU32_eq]
    rw [rd_map_nat, if_pos (by simp [hl]), List.take_left' hl, List.drop_left' hl, hdec]
  · simp only [writeIbm, C12_rewritten_partial est h w w1 hn' (.inl (by omega)), ok_bind]
    rfl

/-! ## Examples -/

/-- On x86-64, with an accurate logarithm. -/
theorem exAccurate : ∃ est : LogEst, UsesLog est ∧ LogOfZero est := by
  obtain ⟨est, h, hc⟩ := C12_accurate_exists x86Conv
  refine ⟨est, h, ?_⟩
  have := (C91_x86 est.log).2
  unfold LogOfZero at this ⊢
  rw [hc]
  exact this

/-- 0.1 and 0 -/
theorem exFit : IbmFit 0x3FB999999999999A ∧ IbmFit 0 := by
  refine ⟨⟨3602879701896397 / 2 ^ 55, ?_, .inr ⟨?_, ?_⟩⟩, 0, by decide +kernel, .inl rfl⟩
  · have h : Dbl.val 0x3FB999999999999A = .fin false 7205759403792794 (-56) := by decide +kernel
    unfold dblRat; rw [h]; simp [ratOf]; norm_num
  · rw [abs_of_pos (by norm_num)]; norm_num
  · rw [abs_of_pos (by norm_num)]; norm_num

def exIT : Trace := ⟨[("SAMP_NUM", .int 2), ("SAMP_INT", .int 2000)], [0x3FB999999999999A, 0]⟩

theorem exIbmTrace : IbmTrace exB.fields exIT where
  ints := by
    intro f hf
    simp only [exB, List.mem_cons, List.not_mem_nil, or_false] at hf
    rcases hf with rfl | rfl
    · exact ⟨0, .inr ⟨by decide, rfl⟩, nofun⟩
    · exact ⟨2, .inl rfl, nofun⟩
  samples := by
    intro x hx
    simp only [exIT, List.mem_cons, List.not_mem_nil, or_false] at hx
    rcases hx with rfl | rfl
    · exact exFit.1
    · exact exFit.2
  size := by decide

example (est : LogEst) (h : UsesLog est ∧ LogOfZero est) := C99_rev0_partial est h.1 h.2 exText { formatCode := 1, sampPerTr := 2 } exWMap exB
  [exIT, exIT] (by decide +kernel) ⟨by decide, .inl rfl, by decide⟩ (exMapOk _ rfl) rfl rfl rfl rfl (by decide)
  (fun t ht => by
    simp only [List.mem_cons, List.not_mem_nil, or_false, or_self] at ht
    subst ht
    exact ⟨exIbmTrace, rfl⟩)

example (est : LogEst) (h : UsesLog est ∧ LogOfZero est) := C99_rev1_partial est h.1 h.2 exText [exText]
  { formatCode := 1, revMajor := 1, extTextHeadersNum := 1 } exWMap exB
  [exIT] (by decide +kernel) (by decide) ⟨by decide, .inl rfl, by decide⟩ (exMapOk _ rfl) rfl rfl (.inl rfl)
  (by unfold ExtendedOk; decide)
  (fun t ht => by
    simp only [List.mem_cons, List.not_mem_nil, or_false] at ht
    subst ht
    exact ⟨exIbmTrace, rfl, _, .tail _ (.head _), rfl, _, rfl, by decide⟩)

example (est : LogEst) (h : UsesLog est ∧ LogOfZero est) := C99_rev2_partial est h.1 h.2 exText [exText]
  { formatCode := 1, revMajor := 2, extTextHeadersNum := 1, byteOffOfFirstTr := 6800 } exWMap exB
  [exIT] (by decide +kernel) (by decide) ⟨by decide, .inl rfl, by decide⟩ (exMapOk _ rfl) rfl (by decide) (.inl rfl)
  (by unfold ExtendedOk; decide) rfl rfl (.inr rfl)
  (fun t ht => by
    simp only [List.mem_cons, List.not_mem_nil, or_false] at ht
    subst ht
    exact ⟨exIbmTrace, rfl, _, .tail _ (.head _), rfl, _, rfl, by decide⟩)

example : ∃ est w0, openRev0 exText {} exWMap = .ok w0 ∧
    ∃ w r backs, writeAll (writeTraceRev0 est) w0 [exIT, exIT] = .ok w ∧
      openReader w.file.data none exWMap = .ok r ∧ r.texts = [w0.file.data.take 3200] ∧
      r.bh = { formatCode := 1, sampPerTr := 2, sampInt := 2000 } ∧
      List.Forall₂ (IbmBack est .be exB.fields) [exIT, exIT] backs ∧ Visits r backs := by
  obtain ⟨est, h1, h2⟩ := exAccurate
  obtain ⟨w0, h⟩ : ∃ w0, openRev0 exText {} exWMap = .ok w0 := by
    have : (openRev0 exText {} exWMap).isOk = true := by decide +kernel
    cases h : openRev0 exText {} exWMap with
    | ok w => exact ⟨w, rfl⟩
    | error e => rw [h] at this; cases this
  refine ⟨est, w0, h, C99_automatic_partial est h1 h2 exText exWMap exB w0 exIT [exIT] 2 2000 2000 h (exMapOk _ rfl) rfl
    (by decide) (.inl ⟨2000, rfl, by decide, by norm_num⟩) (by norm_num) ⟨by norm_num, by norm_num⟩ (by decide) (by decide)
    (fun t ht => ?_)⟩
  simp only [List.mem_cons, List.not_mem_nil, or_false, or_self] at ht
  subst ht
  exact ⟨exIbmTrace, rfl⟩

def exIBin : Bytes := binHeaderBytes .be { sampPerTr := 2, formatCode := 1 }

example (est : LogEst) (h : UsesLog est ∧ LogOfZero est) := C99_copy_partial est h.1 h.2 exText exIBin
  [(List.replicate 8 0 ++ [7, 0, 0, 0] ++ List.replicate 228 0, [[0x41, 0x10, 0, 0], [0, 0, 0, 0]]),
   (List.replicate 240 0, [[0xC2, 0x76, 0xA0, 0], [0, 0, 0, 0]])]
  exWMap exB .be { sampPerTr := 2, formatCode := 1 }
  (by decide +kernel) (by decide +kernel) (.inl (by decide +kernel))
  (fun i hi hc => by
    have h : ∀ i, i < 400 → (∃ f ∈ binLayout, f.byte ≤ i + 3201 ∧ i + 3201 < f.byte + f.width ∧ f.byte < 3507) ∨
        exIBin[i]? = some 0 := by decide +kernel
    rcases h i hi with ⟨f, h1, h2, h3, h4⟩ | h
    · exact absurd ⟨f, h1, h2, h3, .inl h4⟩ hc
    · exact h)
  (by decide +kernel) rfl rfl rfl rfl (by decide) (exMapOk _ rfl)
  (fun f hf => by
    simp only [exB, List.mem_cons, List.not_mem_nil, or_false] at hf
    rcases hf with rfl | rfl <;> exact ⟨_, rfl⟩)
  (fun t ht => by
    have hw : ∀ p ∈ [[0x41, 0x10, 0, 0], [0xC2, 0x76, 0xA0, 0], [0, 0, 0, 0]], IbmWord .be p := by
      intro p hp
      simp only [List.mem_cons, List.not_mem_nil, or_false] at hp
      rcases hp with rfl | rfl | rfl
      · exact .inr ⟨rfl, by unfold ibmNormalised; decide +kernel, by decide +kernel⟩
      · exact .inr ⟨rfl, by unfold ibmNormalised; decide +kernel, by decide +kernel⟩
      · exact .inl rfl
    simp only [List.mem_cons, List.not_mem_nil, or_false] at ht
    rcases ht with rfl | rfl
    · refine ⟨by decide +kernel, by decide +kernel, rfl, fun p hp => hw p ?_⟩
      simp only [List.mem_cons, List.not_mem_nil, or_false] at hp ⊢
      rcases hp with rfl | rfl <;> simp
    · refine ⟨by decide +kernel, by decide +kernel, rfl, fun p hp => hw p ?_⟩
      simp only [List.mem_cons, List.not_mem_nil, or_false] at hp ⊢
      rcases hp with rfl | rfl <;> simp)

/-- The words of 1, of -118.625 and of zero. -/
example (est : LogEst) (h : UsesLog est) (hz : LogOfZero est) :
    Rewrites est 1 .be [0x41, 0x10, 0, 0] ∧ Rewrites est 1 .be [0xC2, 0x76, 0xA0, 0] ∧ Rewrites est 1 .be [0, 0, 0, 0] :=
  ⟨C99_word est h hz .be _ (.inr ⟨rfl, by unfold ibmNormalised; decide +kernel, by decide +kernel⟩),
   C99_word est h hz .be _ (.inr ⟨rfl, by unfold ibmNormalised; decide +kernel, by decide +kernel⟩),
   C99_word est h hz .be _ (.inl rfl)⟩

end Sedaman.Props
