import Verif.Lemmas.IbmOrder
import Verif.Props.LogLib
import Verif.Props.Convert

/-!
# Property C106: order and sign of samples
-/

namespace Sedaman.Props

open Spec

/-! ## Order -/

/-- **C106 (part).** Samples written in single or double precision and read back keep their order, the
infinite ones and those too large for the format included. -/
theorem C106_order_partial (est : LogEst) (fmt : Int) (hf : fmt = 5 ∨ fmt = 6) (bo : ByteOrder) (x y x' y' : Dbl)
    (h : AtMost x y) (hx : ComesBack est fmt bo x x') (hy : ComesBack est fmt bo y y') : AtMost x' y' := by
  rcases hf with rfl | rfl
  · have key : ∀ z, ComesBack est 5 bo z (sglToDbl (dblToSgl z)) := fun z =>
      ⟨_, _, writeIeeeFloat bo z, rfl, rfl, rfl, ieee_float_rt bo z⟩
    rw [comes_unique hx (key x), comes_unique hy (key y)]
    obtain ⟨a, b, h1, h2, h3⟩ := h
    exact single_le h1 h2 h3
  · have key : ∀ z, ComesBack est 6 bo z z := fun z =>
      ⟨_, _, writeIeeeDouble bo z, rfl, rfl, rfl, ieee_double_rt bo z⟩
    rw [comes_unique hx (key x), comes_unique hy (key y)]
    exact h

/-- 1e300 and infinity in single precision: both come back infinite -/
example : AtMost 0x7E37E43C8800759C 0x7FF0000000000000 ∧
    ComesBack (.strict fun _ => 0) 5 .be 0x7E37E43C8800759C 0x7FF0000000000000 :=
  ⟨⟨_, ((⊤ : WithTop ℚ) : WithBot (WithTop ℚ)), rfl, by decide +kernel, le_top⟩,
    _, _, writeIeeeFloat .be 0x7E37E43C8800759C, rfl, rfl, rfl, fun rest => by
      rw [ieee_float_rt]
      have : sglToDbl (dblToSgl 0x7E37E43C8800759C) = 0x7FF0000000000000 := by decide +kernel
      rw [this]⟩

/-- **C106 (part).** In an integer format samples keep their order when their integer parts are not
negative and in the range of the format. -/
theorem C106_integer_partial (est : LogEst) (fmt : Int) (k : IntKind) (hk : intFormat fmt = some k) (bo : ByteOrder)
    (x y x' y' : Dbl) (a b : ℚ) (m n : Nat) (hx : dblRat x = some a) (hy : dblRat y = some b) (h0 : 0 ≤ a)
    (h : a ≤ b) (hm : Truncates a m) (hn : Truncates b n) (rm : k.InRange m) (rn : k.InRange n)
    (cx : ComesBack est fmt bo x x') (cy : ComesBack est fmt bo y y') : AtMost x' y' := by
  rw [comes_unique cx (C20_integer_partial est fmt k hk bo x a m hx h0 hm rm),
    comes_unique cy (C20_integer_partial est fmt k hk bo y b n hy (h0.trans h) hn rn)]
  exact ofInt_le (truncates_mono hm hn h)

/-- 2.5 and 7.0 in format 3 -/
example (x' y' : Dbl) (cx : ComesBack (.strict fun _ => 0) 3 .le 0x4004000000000000 x')
    (cy : ComesBack (.strict fun _ => 0) 3 .le 0x401C000000000000 y') : AtMost x' y' :=
  C106_integer_partial _ 3 .i16 rfl .le _ _ _ _ (5 / 2) 7 2 7 (by decide +kernel) (by decide +kernel) (by norm_num)
    (by norm_num) ⟨by norm_num, by norm_num⟩ ⟨by norm_num, by norm_num⟩ (by decide) (by decide) cx cy

/-- **C106 fails for large integers.** In format 9 the sample 2^62 comes back as it is and the sample 2^63,
which is greater, comes back as -2^63. -/
theorem C106_long_reversed (est : LogEst) (bo : ByteOrder) :
    AtMost 0x43D0000000000000 0x43E0000000000000 ∧
    ComesBack est 9 bo 0x43D0000000000000 0x43D0000000000000 ∧
    ComesBack est 9 bo 0x43E0000000000000 0xC3E0000000000000 ∧
    ¬ AtMost 0x43D0000000000000 0xC3E0000000000000 := by
  have r1 : dblRat 0x43D0000000000000 = some (2 ^ 62 : ℚ) := by decide +kernel
  have r2 : dblRat 0x43E0000000000000 = some (2 ^ 63 : ℚ) := by decide +kernel
  have r3 : dblRat 0xC3E0000000000000 = some (-(2 ^ 63) : ℚ) := by decide +kernel
  refine ⟨⟨_, _, number_of_rat r1, number_of_rat r2, ?_⟩, ?_, (C79_long_wraps est bo).2, ?_⟩
  · rw [WithBot.coe_le_coe, WithTop.coe_le_coe]; norm_num
  · have := C20_integer_partial est 9 .i64 rfl bo 0x43D0000000000000 (2 ^ 62) (2 ^ 62) r1 (by norm_num)
      ⟨by norm_num, by norm_num⟩ (by decide)
    have e : dblOfInt ((2 ^ 62 : Nat) : Int) = 0x43D0000000000000 := by decide +kernel
    rwa [e] at this
  · rintro ⟨a, b, h1, h2, h3⟩
    rw [number_of_rat r1] at h1
    rw [number_of_rat r3] at h2
    cases h1
    cases h2
    rw [WithBot.coe_le_coe, WithTop.coe_le_coe] at h3
    norm_num at h3

/-- **C106 (part).** IBM samples keep their order when the platform computes their exponents exactly
(with an accurate logarithm that is so except next to powers of 16: `C12_exponent`). -/
theorem C106_ibm_partial (est : LogEst) (bo : ByteOrder) (x y x' y' : Dbl) (a b : ℚ) (hx : dblRat x = some a)
    (hy : dblRat y = some b) (a0 : a ≠ 0) (b0 : b ≠ 0) (h : a ≤ b) (ea : IbmExponent a (est (dblAbs x)))
    (eb : IbmExponent b (est (dblAbs y))) (ta : 0 ≤ est (dblAbs x) ∧ est (dblAbs x) ≤ 127)
    (tb : 0 ≤ est (dblAbs y) ∧ est (dblAbs y) ≤ 127) (cx : ComesBack est 1 bo x x') (cy : ComesBack est 1 bo y y') :
    AtMost x' y' := by
  obtain ⟨v, v1, -, rfl⟩ := comes_ibm cx
  obtain ⟨w, w1, -, rfl⟩ := comes_ibm cy
  exact ibm_le hx hy h a0 b0 ⟨|a|, abs_rat hx, ea.1, ea.2⟩ ⟨|b|, abs_rat hy, eb.1, eb.2⟩ ta tb v1 w1

/-- **C106 (part).** The same with an accurate logarithm, for samples that are not next to a power of 16. -/
theorem C106_ibm_log_partial (est : LogEst) (hl : UsesLog est) (bo : ByteOrder) (x y x' y' : Dbl) (a b : ℚ)
    (hx : dblRat x = some a) (hy : dblRat y = some b) (h : a ≤ b) (j k : Int) (hj : -31 ≤ j ∧ j ≤ 62)
    (hk : -31 ≤ k ∧ k ≤ 62) (ha : (16 : ℚ) ^ j ≤ |a| ∧ |a| ≤ (16 : ℚ) ^ (j + 1) * (1 - 1 / 2 ^ 24))
    (hb : (16 : ℚ) ^ k ≤ |b| ∧ |b| ≤ (16 : ℚ) ^ (k + 1) * (1 - 1 / 2 ^ 24))
    (cx : ComesBack est 1 bo x x') (cy : ComesBack est 1 bo y y') : AtMost x' y' := by
  obtain ⟨e1, e2⟩ := C12_exponent est hl x a hx j (by omega) hj.2 ha.1 ha.2 (.inl hj.1)
  obtain ⟨g1, g2⟩ := C12_exponent est hl y b hy k (by omega) hk.2 hb.1 hb.2 (.inl hk.1)
  have a0 : a ≠ 0 := by
    rintro rfl
    have := ha.1
    have p : (0 : ℚ) < 16 ^ j := by positivity
    rw [abs_zero] at this
    linarith
  have b0 : b ≠ 0 := by
    rintro rfl
    have := hb.1
    have p : (0 : ℚ) < 16 ^ k := by positivity
    rw [abs_zero] at this
    linarith
  exact C106_ibm_partial est bo x y x' y' a b hx hy a0 b0 h e1 g1 (by omega) (by omega) cx cy

/-- 1.0 and 2.0 -/
example (est : LogEst) (hl : UsesLog est) (x' y' : Dbl) (cx : ComesBack est 1 .be 0x3FF0000000000000 x')
    (cy : ComesBack est 1 .be 0x4000000000000000 y') : AtMost x' y' :=
  C106_ibm_log_partial est hl .be _ _ _ _ 1 2 (by decide +kernel) (by decide +kernel) (by norm_num) 0 0 (by decide)
    (by decide) (by norm_num) (by norm_num) cx cy

/-- The exponent computed for the largest number below one is that of one. -/
theorem est_one {est : LogEst} (hl : UsesLog est) : est 0x3FEFFFFFFFFFFFFF = 65 := by
  obtain ⟨log, h, he⟩ := hl
  have ha : dblRat 0x3FEFFFFFFFFFFFFF = some (1 - 1 / 2 ^ 53 : ℚ) := by decide +kernel
  have g2 := est_high h ha (k := 0) (by norm_num) (by norm_num) (by norm_num) (by norm_num)
  obtain ⟨V, hV, hb, hV2, hg⟩ := h.range ha (by norm_num) (by norm_num)
  have g1 : exponentFrom (Sedaman.dyadic (-512)) ≤ ibmEstimate log 0x3FEFFFFFFFFFFFFF := by
    apply est_ge_of hV hb
    · norm_num
    · have l0 : (0.69 : ℝ) ≤ Real.log 2 := le_trans (by norm_num) ln2_low
      have l1 := Real.one_sub_inv_le_log_of_pos (show (0 : ℝ) < 1 - 1 / 2 ^ 53 by norm_num)
      have l2 : Real.log (1 - 1 / 2 ^ 53) ≤ 0 := Real.log_nonpos (by norm_num) (by norm_num)
      have l3 : -(1 / 2 ^ 52 : ℝ) ≤ Real.logb 2 (1 - 1 / 2 ^ 53) := by
        unfold Real.logb
        rw [le_div_iff₀ (by linarith)]
        norm_num at l1 l0 ⊢
        nlinarith
      have l4 : Real.logb 2 (1 - 1 / 2 ^ 53) ≤ 0 := by
        unfold Real.logb
        exact div_nonpos_of_nonpos_of_nonneg l2 (by linarith)
      push_cast at hV2 ⊢
      rw [abs_of_nonpos l4, abs_le] at hV2
      generalize Real.logb 2 (1 - 1 / 2 ^ 53) = g at *
      norm_num at hV2 l3 ⊢
      linarith [hV2.1]
  have e : exponentFrom (Sedaman.dyadic (-512)) = 65 := by decide +kernel
  rw [he]
  omega

private theorem encode_at {est : LogEst} {d : Dbl} {t : Nat} {F : Nat} (ht : est (dblAbs d) = t) (hlt : t < 256 ^ 4)
    (hd : ∃ m e, (dblAbs d).val = .fin false m e ∧ m ≠ 0)
    (hF : dblToU 4 (dmul (ddivPow2 (dblAbs d) (4 * (((t &&& 0x7f : Nat) : Int) - 64))) (pow2 24)) = .ok (F : Int)) :
    ibmEncode est d = .ok ((if dblNeg d then 1 else 0) <<< 31 ||| (t &&& 0x7f) <<< 24 ||| (F &&& 0x00ffffff)) := by
  obtain ⟨m, e, h1, h2⟩ := hd
  have hexp : ibmExp est (dblAbs d) = .ok (t &&& 0x7f) := by
    unfold ibmExp
    rw [h1]
    simp only [h2, if_false]
    rw [ht, if_pos ⟨by omega, by omega⟩, Int.toNat_natCast]
  unfold ibmEncode
  simp only [hexp, ok_bind]
  rw [LogEst.toU_ok hF]
  rfl

/-- **C106 fails for IBM samples.** With an accurate logarithm the sample 1 - 2^-24 comes back as it is, and
1 - 2^-53, which is greater, comes back as 1 - 2^-20. -/
theorem C106_ibm_reversed (est : LogEst) (hl : UsesLog est) (bo : ByteOrder) :
    ∃ x y x' y', dblRat x = some (1 - 1 / 2 ^ 24) ∧ dblRat y = some (1 - 1 / 2 ^ 53) ∧
      ComesBack est 1 bo x x' ∧ ComesBack est 1 bo y y' ∧
      dblRat x' = some (1 - 1 / 2 ^ 24) ∧ dblRat y' = some (1 - 1 / 2 ^ 20) ∧ AtMost x y ∧ ¬ AtMost x' y' := by
  have rx : dblRat 0x3FEFFFFFE0000000 = some (1 - 1 / 2 ^ 24 : ℚ) := by decide +kernel
  have ry : dblRat 0x3FEFFFFFFFFFFFFF = some (1 - 1 / 2 ^ 53 : ℚ) := by decide +kernel
  have ax : dblAbs 0x3FEFFFFFE0000000 = 0x3FEFFFFFE0000000 := by decide
  have ay : dblAbs 0x3FEFFFFFFFFFFFFF = 0x3FEFFFFFFFFFFFFF := by decide
  have ex : est (dblAbs 0x3FEFFFFFE0000000) = (64 : Nat) := by
    have := (C12_exponent est hl _ _ rx (-1) (by norm_num) (by norm_num) (by norm_num) (by norm_num) (.inl (by norm_num))).2
    rw [this]; rfl
  have ey : est (dblAbs 0x3FEFFFFFFFFFFFFF) = (65 : Nat) := by rw [ay]; exact est_one hl
  have vx := encode_at (F := 0xFFFFFF) ex (by decide) ⟨0x1FFFFFE0000000, -53, by decide +kernel, by decide⟩
    (by decide +kernel)
  have vy := encode_at (F := 0xFFFFF) ey (by decide) ⟨0x1FFFFFFFFFFFFF, -53, by decide +kernel, by decide⟩
    (by decide +kernel)
  have cx := ibm_comes (bo := bo) vx
  have cy := ibm_comes (bo := bo) vy
  have dx : dblRat (ibmDecode ((if dblNeg 0x3FEFFFFFE0000000 then 1 else 0) <<< 31 ||| (64 &&& 0x7f) <<< 24 |||
      (0xFFFFFF &&& 0x00ffffff))) = some (1 - 1 / 2 ^ 24 : ℚ) := by decide +kernel
  have dy : dblRat (ibmDecode ((if dblNeg 0x3FEFFFFFFFFFFFFF then 1 else 0) <<< 31 ||| (65 &&& 0x7f) <<< 24 |||
      (0xFFFFF &&& 0x00ffffff))) = some (1 - 1 / 2 ^ 20 : ℚ) := by decide +kernel
  refine ⟨_, _, _, _, rx, ry, cx, cy, dx, dy, ⟨_, _, number_of_rat rx, number_of_rat ry, ?_⟩, ?_⟩
  · rw [WithBot.coe_le_coe, WithTop.coe_le_coe]; norm_num
  · rintro ⟨a, b, h1, h2, h3⟩
    rw [number_of_rat dx] at h1
    rw [number_of_rat dy] at h2
    cases h1
    cases h2
    rw [WithBot.coe_le_coe, WithTop.coe_le_coe] at h3
    norm_num at h3

/-! ## Sign -/

/-- **C106 (part).** In the floating point formats, the sample with the other sign comes back as what the
sample comes back as, with the other sign. (In IBM format zero has no sign.) -/
theorem C106_opposite_partial (est : LogEst) (fmt : Int) (hf : fmt = 1 ∨ fmt = 5 ∨ fmt = 6) (bo : ByteOrder)
    (x y : Dbl) (hn : dblNumber x ≠ none) (hz : fmt = 1 → Nonzero x) (h : ComesBack est fmt bo x y) :
    ComesBack est fmt bo (opposite x) (opposite y) := by
  rcases hf with rfl | rfl | rfl
  · obtain ⟨w, h1, -, rfl⟩ := comes_ibm h
    obtain ⟨w', g1, -, -, g2⟩ := ibmEncode_opposite (hz rfl) h1
    rw [← g2]
    exact ibm_comes g1
  · have key : ∀ z, ComesBack est 5 bo z (sglToDbl (dblToSgl z)) := fun z =>
      ⟨_, _, writeIeeeFloat bo z, rfl, rfl, rfl, ieee_float_rt bo z⟩
    rw [comes_unique h (key x), ← single_opposite]
    · exact key _
    · cases hv : x.val with
      | nan => exfalso; apply hn; unfold dblNumber; rw [hv]
      | inf s => rfl
      | fin s m e => rfl
  · have key : ∀ z, ComesBack est 6 bo z z := fun z =>
      ⟨_, _, writeIeeeDouble bo z, rfl, rfl, rfl, ieee_double_rt bo z⟩
    rw [comes_unique h (key x)]
    exact key _

/-- `opposite` changes the sign: 2.5 and -2.5 -/
example : opposite 0x4004000000000000 = 0xC004000000000000 ∧ dblRat 0x4004000000000000 = some (5 / 2) ∧
    dblRat 0xC004000000000000 = some (-(5 / 2)) := by decide +kernel

/-- **C106 fails for integer formats.** The sample 1 can be written in every integer format and comes back,
and writing -1 is undefined behaviour. -/
theorem C106_opposite_undefined (est : LogEst) (hst : est.Strict) (fmt : Int) (k : IntKind)
    (hk : intFormat fmt = some k) (bo : ByteOrder) :
    Survives est fmt bo 0x3FF0000000000000 ∧
    ∃ w, sampleWriter est fmt = .ok w ∧ w bo (opposite 0x3FF0000000000000) = isUb .floatToInt := by
  constructor
  · have := C20_integer_partial est fmt k hk bo 0x3FF0000000000000 1 1 (by decide +kernel) (by norm_num)
      ⟨by norm_num, by norm_num⟩ (by cases k <;> decide)
    have e : dblOfInt ((1 : Nat) : Int) = 0x3FF0000000000000 := by decide +kernel
    rwa [e] at this
  · refine ⟨_, sampleWriter_int est hk, ?_⟩
    have hu : dblToU (paramSize k) (opposite 0x3FF0000000000000) = isUb .floatToInt := by
      cases k <;> decide +kernel
    simp only [LogEst.toU, hu, LogEst.unfit, hst (paramSize k)]
    rfl

/-! ## Traces -/

/-- **C106 (part).** In a trace that was written in single or double precision and read back, samples are in
the same order as before; in particular the greatest sample is still at the same place. -/
theorem C106_trace_partial (est : LogEst) (fmt : Int) (hf : fmt = 5 ∨ fmt = 6) (bo : ByteOrder) (fields : List HField)
    (t back : Trace) (h : TraceBack est fmt bo fields t back) (i j : Nat) (x y x' y' : Dbl)
    (hx : t.samples[i]? = some x) (hy : t.samples[j]? = some y) (hx' : back.samples[i]? = some x')
    (hy' : back.samples[j]? = some y') (hle : AtMost x y) : AtMost x' y' := by
  have key : ∀ {xs ys : List Dbl}, List.Forall₂ (ComesBack est fmt bo) xs ys → ∀ (n : Nat) (u v : Dbl),
      xs[n]? = some u → ys[n]? = some v → ComesBack est fmt bo u v := by
    intro xs ys hb
    induction hb with
    | nil => intro n u v h; simp at h
    | cons a _ ih =>
      intro n u v hu hv
      cases n with
      | zero => simp at hu hv; subst hu; subst hv; exact a
      | succ n => exact ih n u v (by simpa using hu) (by simpa using hv)
  exact C106_order_partial est fmt hf bo x y x' y' hle (key h.1 i x x' hx hx') (key h.1 j y y' hy hy')

end Sedaman.Props
