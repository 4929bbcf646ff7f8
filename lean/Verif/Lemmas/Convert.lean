import Verif.Lemmas.SampleFmt
import Verif.Lemmas.ISEGY
import Verif.Lemmas.BinRewrite
import Verif.Spec.Convert

/-! # Lemmas about the conversion between sample formats -/

namespace Sedaman

open Spec

/-- An integer sample is an integer in the range of its format. -/
theorem sampleOf_int {fmt : Int} {k : IntKind} (hk : intFormat fmt = some k) {bo : ByteOrder}
    {bs : Bytes} {x : Dbl} (h : SampleOf fmt bo bs x) : ∃ n : Int, k.InRange n ∧ x = dblOfInt n := by
  obtain ⟨r, h1, h2⟩ := h
  rw [sampleReader_int hk] at h1
  cases h1
  have h3 := h2 []
  dsimp only at h3
  rw [rd_bind] at h3
  obtain ⟨⟨n, rest⟩, h4, h5⟩ := bind_ok h3
  cases h5
  refine ⟨n, ?_, rfl⟩
  rw [kind_read_eq] at h4
  by_cases hs : k.signed = true
  · rw [if_pos hs] at h4
    unfold rdInt at h4
    split at h4
    · rename_i hl
      rw [← (Prod.mk.inj (Except.ok.inj h4)).1]
      exact decInt_range k hs bo _ (by rw [List.length_take]; omega)
    · cases h4
  · rw [if_neg hs] at h4
    unfold asInt rdNat at h4
    dsimp only at h4
    split at h4
    · rename_i hl
      rw [← (Prod.mk.inj (Except.ok.inj h4)).1]
      exact decNat_range k (by simpa using hs) bo _ (by rw [List.length_take]; omega)
    · cases h4

/-- Integers of at most 24 bits are singles. -/
theorem single_int {n : Int} (h : n.natAbs < 2 ^ 24) : sglToDbl (dblToSgl (dblOfInt n)) = dblOfInt n := by
  obtain ⟨m, e, h1, h2⟩ := is_ofInt (n := n) (by omega)
  obtain ⟨m', e', h3, h4⟩ := toSgl_exact (s := decide (n < 0)) (m := n.natAbs) (e := 0) h (by decide) (by
    have := log2_lt_of_lt h (by decide); omega)
  unfold sglToDbl dblToSgl
  rw [h1, toSgl_congr h2, h3, toDbl_congr h4]
  rfl

/-- Singles come back as singles. -/
theorem single_single (s : Sgl) : sglToDbl (dblToSgl (sglToDbl s)) = sglToDbl s := by
  by_cases h : s.val.isNan = true
  · have h' : s.val = .nan := by
      cases hv : s.val <;> rw [hv] at h <;> simp_all [FVal.isNan]
    unfold sglToDbl dblToSgl
    rw [h']
    decide +kernel
  · rw [dblToSgl_sglToDbl (by simpa using h)]

/-- A number of at most 24 bits in the range of exponents of a single is a single. -/
theorem single_is {d : Dbl} {s : Bool} {n : Nat} {g : Int} (h : Is d s n g) (hn : n < 2 ^ 24)
    (h1 : -149 ≤ g) (h2 : g ≤ 104) : sglToDbl (dblToSgl d) = d := by
  obtain ⟨m', e', h3, h4⟩ := toSgl_exact (s := s) (m := n) (e := g) hn h1 (by
    have := log2_lt_of_lt hn (by decide); omega)
  have hd := h.eq
  obtain ⟨m, e, h5, h6⟩ := h
  unfold sglToDbl dblToSgl
  rw [h5, toSgl_congr h6, h3, toDbl_congr h4, hd]

theorem survives_double (est : LogEst) (bo : ByteOrder) (x : Dbl) : Survives est 6 bo x :=
  ⟨_, _, _, rfl, rfl, rfl, ieee_double_rt bo x⟩

theorem survives_single {x : Dbl} (h : sglToDbl (dblToSgl x) = x) (est : LogEst) (bo : ByteOrder) :
    Survives est 5 bo x := by
  refine ⟨_, _, _, rfl, rfl, rfl, fun rest => ?_⟩
  rw [ieee_float_rt, h]

/-- Samples that `decodeSamples` returns are samples in the format. -/
theorem decodeSamples_of {fmt : Int} (hf : fmt ∈ supportedFormats) {rd : ByteOrder → Rd Dbl} {bo : ByteOrder}
    (hr : sampleReader fmt = .ok rd) {n : Nat} {buf rest : Bytes} {xs : List Dbl}
    (h : decodeSamples (rd bo) n buf = .ok (xs, rest)) : ∀ x ∈ xs, ∃ bs, SampleOf fmt bo bs x := by
  obtain ⟨k, r', _, hr', hsh⟩ := reader_shape hf
  rw [hr] at hr'
  cases hr'
  obtain ⟨v, hv⟩ := hsh bo
  induction n generalizing buf xs with
  | zero => simp only [decodeSamples] at h; cases h; simp
  | succ n ih =>
    simp only [decodeSamples, rd_bind] at h
    obtain ⟨⟨x, b1⟩, h1, h⟩ := bind_ok h
    obtain ⟨⟨ys, b2⟩, h2, h⟩ := bind_ok h
    cases h
    intro z hz
    rcases List.mem_cons.mp hz with rfl | hz
    · rw [hv] at h1
      split at h1
      · rename_i hk
        cases h1
        refine ⟨buf.take k, rd, hr, fun tail => ?_⟩
        have hl : (buf.take k).length = k := by simp; omega
        rw [hv, if_pos (by simp; omega), List.take_left' hl, List.drop_left' hl]
      · cases h1
    · exact ih h2 z hz

/-- Negative integers of at most 64 bits do not become more than -1 as doubles. -/
theorem dblOfInt_neg {n : Int} (h : n < 0) (hn : n.natAbs ≤ 2 ^ 64) :
    ∃ x, dblRat (dblOfInt n) = some x ∧ x ≤ -1 := by
  have h0 : n.natAbs ≠ 0 := by omega
  have hq : (n.natAbs : ℚ) ≤ 2 ^ 64 := by exact_mod_cast hn
  have hov : encMag f64 n.natAbs 0 < f64.infMag := by
    apply encMag_no_overflow f64_ok (by decide)
    have e1 : f64.emin + ((2 ^ f64.ebits : Nat) : Int) - 3 = 971 := by decide
    rw [e1, zpow_zero, mul_one]
    have e2 : ((2 : ℚ) ^ f64.p - 1 / 2) * 2 ^ (971 : Int) ≥ 2 ^ 65 := by
      have h1 : (2 : ℚ) ^ (65 : Int) ≤ 2 ^ (971 : Int) := zpow_le_zpow_right₀ (by norm_num) (by norm_num)
      have h2 : (1 : ℚ) ≤ 2 ^ f64.p - 1 / 2 := by
        have : (f64.p) = 53 := rfl
        rw [this]
        norm_num
      have h3 : (2 : ℚ) ^ (65 : Int) = 2 ^ 65 := by norm_cast
      rw [h3] at h1
      have h4 : (0 : ℚ) < 2 ^ (971 : Int) := by positivity
      generalize (2 : ℚ) ^ (971 : Int) = y at h1 h4 ⊢
      nlinarith
    refine lt_of_le_of_lt hq (lt_of_lt_of_le ?_ e2)
    norm_num
  obtain ⟨h1, _⟩ := decMag_encMag_round f64_ok h0 hov
  obtain ⟨h2, _⟩ := nearest_mag f64_ok h0 hov (n := 1) (g := 0) (by decide) (by decide)
  rw [← h1] at h2
  have hval : (dblOfInt n).val = .fin true (decMag f64 (encMag f64 n.natAbs 0)).1
      (decMag f64 (encMag f64 n.natAbs 0)).2 := by
    unfold dblOfInt toDbl Dbl.val
    rw [BitVec.toNat_ofNat, Nat.mod_eq_of_lt, decF_encF_fin _ _ _ _ hov, decide_eq_true h]
    have := encF_lt f64 (by decide) (.fin (decide (n < 0)) n.natAbs 0)
    rw [f64_bits] at this
    exact this
  unfold dblRat
  rw [hval]
  refine ⟨_, rfl, ?_⟩
  rw [if_pos rfl, mul_assoc]
  generalize ((decMag f64 (encMag f64 n.natAbs 0)).1 : ℚ) * 2 ^ (decMag f64 (encMag f64 n.natAbs 0)).2 = v at h2
  have h3 : (1 : ℚ) ≤ n.natAbs := by exact_mod_cast Nat.one_le_iff_ne_zero.mpr h0
  simp only [zpow_zero, mul_one, Nat.cast_one] at h2
  rw [abs_of_nonneg (by linarith : (0 : ℚ) ≤ (n.natAbs : ℚ) - 1)] at h2
  have := (abs_le.mp h2).2
  linarith

/-- Writes a number in a format and reads it back. -/
def backIn (est : LogEst) (fmt : Int) (bo : ByteOrder) (x : Dbl) : Out Dbl := do
  let w ← sampleWriter est fmt
  let r ← sampleReader fmt
  let bs ← w bo x
  let (y, _) ← r bo bs
  pure y

theorem backIn_of {est : LogEst} {fmt : Int} {bo : ByteOrder} {x : Dbl} (h : Survives est fmt bo x) :
    backIn est fmt bo x = .ok x := by
  obtain ⟨w, r, bs, h1, h2, h3, h4⟩ := h
  have h5 := h4 []
  rw [List.append_nil] at h5
  unfold backIn
  rw [h1, ok_bind, h2, ok_bind, h3, ok_bind, h5]
  rfl

/-- Only format 1 uses the logarithm. -/
theorem backIn_est {fmt : Int} (h : fmt ≠ 1) {est est' : LogEst} (hs : est.Strict) (hs' : est'.Strict) (bo : ByteOrder) (x : Dbl) :
    backIn est fmt bo x = backIn est' fmt bo x := by
  unfold backIn
  have : sampleWriter est fmt = sampleWriter est' fmt := by
    unfold sampleWriter
    split <;> first | rfl | exact absurd rfl h | simp only [LogEst.toU_strict hs hs']
  rw [this]

/-- The bytes that are a sample in a format, and what is read from them. -/
def valueOf (fmt : Int) (bo : ByteOrder) (bs : Bytes) : Option Dbl :=
  match sampleReader fmt with
  | .ok r => match r bo bs with
    | .ok (x, []) => if some bs.length = bytesPerSample fmt then some x else none
    | _ => none
  | .error _ => none

theorem sampleOf_value {fmt : Int} (hf : fmt ∈ supportedFormats) {bo : ByteOrder} {bs : Bytes} {x : Dbl}
    (h : valueOf fmt bo bs = some x) : SampleOf fmt bo bs x := by
  obtain ⟨n, r, hn, hr, hsh⟩ := reader_shape hf
  obtain ⟨v, hv⟩ := hsh bo
  unfold valueOf at h
  rw [hr] at h
  dsimp only at h
  rw [hv] at h
  split at h
  · rename_i y hy
    split at hy
    · have hy1 := (Prod.mk.inj (Except.ok.inj hy)).1
      subst hy1
      split at h
      · rename_i hl
        rw [hn] at hl
        cases h
        have hl' : bs.length = n := Option.some.inj hl
        refine ⟨r, hr, fun rest => ?_⟩
        rw [hv, if_pos (by simp; omega), List.take_left' hl', List.drop_left' hl', List.take_of_length_le (by omega)]
      · cases h
    · cases hy
  · cases h

end Sedaman
