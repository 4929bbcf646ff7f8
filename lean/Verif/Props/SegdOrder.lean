import Verif.Lemmas.SegdOrder
import Verif.Lemmas.IbmOrder

/-!
# Property C109: order and sign of SEG-D samples
-/

namespace Sedaman.Props

open Spec

/-- What a sample comes back as in the floating point formats. -/
private def floatBack (fmt : Int) (z : Dbl) : Dbl :=
  if fmt = 8080 ∨ fmt = 9080 then z else sglToDbl (dblToSgl z)

private theorem float_back (est : PackEst) {fmt : Int} (hf : fmt ∈ [8058, 9058, 8080, 9080]) (z : Dbl) :
    SampleBack est fmt z (floatBack fmt z) := by
  simp only [List.mem_cons, List.not_mem_nil, or_false] at hf
  unfold floatBack
  rcases hf with rfl | rfl | rfl | rfl
  · rw [if_neg (by decide)]; exact C50_single est 8058 (by decide) z
  · rw [if_neg (by decide)]; exact C50_single est 9058 (by decide) z
  · rw [if_pos (by decide)]; exact C50_double_exact est 8080 (by decide) z
  · rw [if_pos (by decide)]; exact C50_double_exact est 9080 (by decide) z

private theorem floatBack_le {fmt : Int} {x y : Dbl} (h : AtMost x y) : AtMost (floatBack fmt x) (floatBack fmt y) := by
  unfold floatBack
  split
  · exact h
  · obtain ⟨a, b, h1, h2, h3⟩ := h
    exact single_le h1 h2 h3

private theorem float_byte {fmt : Int} (hf : fmt ∈ [8058, 9058, 8080, 9080]) : fmt ∈ segdByteFormats := by
  simp only [List.mem_cons, List.not_mem_nil, or_false] at hf
  rcases hf with rfl | rfl | rfl | rfl <;> decide

/-! ## Order -/

/-- **C109 (part).** In single and double precision formats, with any positive descale factor, the samples of
a trace can be written and read back, and they are in the same order as before, infinite ones and those
too large for the format included. -/
theorem C109_order_partial (est : PackEst) (fmt : Int) (hf : fmt ∈ [8058, 9058, 8080, 9080]) (c : Dbl) (w : ℚ)
    (hc : dblRat c = some w) (hw : 0 < w) (xs : List Dbl) (hl : xs.length * segdBits fmt < 2 ^ 32) :
    ∃ ys, SamplesBack est fmt c xs ys ∧ OrderKept xs ys := by
  obtain ⟨ys, h1, h2⟩ := samples_back (est := est) (fmt := fmt) (c := c) (xs := xs)
    (P := fun x x' => x' = dmul (floatBack fmt (ddiv x c)) c) (float_byte hf)
    (fun x _ => ⟨_, float_back est hf _, rfl⟩) hl
  refine ⟨ys, h1, orderKept_of h2 fun x _ y _ x' y' e1 e2 h => ?_⟩
  rw [e1, e2]
  exact dmul_le hc hw (floatBack_le (ddiv_le hc hw h))

/-- A factor of 3, which is not a power of two, and four samples, one of them infinite, in single precision -/
example : ∃ ys, SamplesBack (fun _ _ => 0) 8058 (dblOfInt 3)
    [dblOfInt 7, dblOfInt (-5), 0x7FF0000000000000, dblOfInt 1] ys ∧
    OrderKept [dblOfInt 7, dblOfInt (-5), 0x7FF0000000000000, dblOfInt 1] ys :=
  C109_order_partial _ 8058 (by decide) _ 3 (by decide +kernel) (by norm_num) _ (by decide)

/-- Samples that can be held in an integer format: what is left of the sample divided by the descale factor
without its fraction is in the range. -/
def IntegerHeld (c : Dbl) (lo hi : Int) (x : Dbl) : Prop :=
  ∃ (v : ℚ) (n : Int), dblRat (ddiv x c) = some v ∧ Truncates v n ∧ lo ≤ n ∧ n < hi

/-- **C109 (part).** In integer formats the samples of a trace keep their order when they are in the range of
the format, which for two of them must not include negative numbers. -/
theorem C109_integer_partial (est : PackEst) (fmt : Int) (lo hi : Int)
    (hf : (fmt, lo, hi) ∈ [(9038, -2 ^ 31, 2 ^ 31), (8038, 0, 2 ^ 31), (8036, 0, 2 ^ 23)]) (c : Dbl) (w : ℚ)
    (hc : dblRat c = some w) (hw : 0 < w) (xs : List Dbl) (hx : ∀ x ∈ xs, IntegerHeld c lo hi x)
    (hl : xs.length * segdBits fmt < 2 ^ 32) :
    ∃ ys, SamplesBack est fmt c xs ys ∧ OrderKept xs ys := by
  have hb : fmt ∈ segdByteFormats := by
    simp only [List.mem_cons, List.not_mem_nil, or_false, Prod.mk.injEq] at hf
    rcases hf with ⟨rfl, -, -⟩ | ⟨rfl, -, -⟩ | ⟨rfl, -, -⟩ <;> decide
  have back : ∀ (d : Dbl) (v : ℚ) (n : Int), dblRat d = some v → Truncates v n → lo ≤ n → n < hi →
      SampleBack est fmt d (dblOfInt n) := by
    intro d v n h1 h2 h3 h4
    simp only [List.mem_cons, List.not_mem_nil, or_false, Prod.mk.injEq] at hf
    rcases hf with ⟨rfl, rfl, rfl⟩ | ⟨rfl, rfl, rfl⟩ | ⟨rfl, rfl, rfl⟩
    · exact (C50_i32_le est d v h1 n h2 h3 h4).1
    · exact (C50_integer_partial est 8038 32 (by decide) d v h1 n h2 h3 h4).1
    · exact (C50_integer_partial est 8036 24 (by decide) d v h1 n h2 h3 h4).1
  obtain ⟨ys, h1, h2⟩ := samples_back (est := est) (fmt := fmt) (c := c) (xs := xs)
    (P := fun x x' => ∃ v n, dblRat (ddiv x c) = some v ∧ Truncates v n ∧ x' = dmul (dblOfInt n) c) hb
    (fun x hm => by
      obtain ⟨v, n, h1, h2, h3, h4⟩ := hx x hm
      exact ⟨_, back _ v n h1 h2 h3 h4, v, n, h1, h2, rfl⟩) hl
  refine ⟨ys, h1, orderKept_of h2 fun x _ y _ x' y' e1 e2 h => ?_⟩
  obtain ⟨v, n, a1, a2, rfl⟩ := e1
  obtain ⟨u, m, b1, b2, rfl⟩ := e2
  obtain ⟨p, q, g1, g2, g3⟩ := ddiv_le hc hw h
  rw [number_of_rat a1] at g1
  rw [number_of_rat b1] at g2
  cases g1
  cases g2
  rw [WithBot.coe_le_coe, WithTop.coe_le_coe] at g3
  exact dmul_le hc hw (ofInt_le (truncates_mono a2 b2 g3))

/-- -5 and 7 with a factor of 2 in format 9038 -/
example : ∀ x ∈ [dblOfInt (-5), dblOfInt 7], IntegerHeld (dblOfInt 2) (-2 ^ 31) (2 ^ 31) x := by
  intro x hx
  simp only [List.mem_cons, List.not_mem_nil, or_false] at hx
  rcases hx with rfl | rfl
  · exact ⟨-5 / 2, -2, by decide +kernel, ⟨by norm_num, by norm_num⟩, by norm_num, by norm_num⟩
  · exact ⟨7 / 2, 3, by decide +kernel, ⟨by norm_num, by norm_num⟩, by norm_num, by norm_num⟩

/-! ## Sign -/

/-- **C109 (part).** In single and double precision formats, reversing the polarity of a trace before writing
is the same as reversing it after reading. -/
theorem C109_opposite_partial (est : PackEst) (fmt : Int) (hf : fmt ∈ [8058, 9058, 8080, 9080]) (c : Dbl) (w : ℚ)
    (hc : dblRat c = some w) (hw : 0 < w) (xs ys : List Dbl) (hl : xs.length * segdBits fmt < 2 ^ 32)
    (hn : ∀ x ∈ xs, dblNumber x ≠ none) (h : SamplesBack est fmt c xs ys) :
    SamplesBack est fmt c (xs.map opposite) (ys.map opposite) := by
  have key : ∀ zs : List Dbl, zs.length * segdBits fmt < 2 ^ 32 →
      SamplesBack est fmt c zs (zs.map fun x => dmul (floatBack fmt (ddiv x c)) c) := by
    intro zs hz
    obtain ⟨us, h1, h2⟩ := samples_back (est := est) (fmt := fmt) (c := c) (xs := zs)
      (P := fun x x' => x' = dmul (floatBack fmt (ddiv x c)) c) (float_byte hf)
      (fun x _ => ⟨_, float_back est hf _, rfl⟩) hz
    have : us = zs.map fun x => dmul (floatBack fmt (ddiv x c)) c := by
      clear h1 hz
      induction h2 with
      | nil => rfl
      | cons a _ ih => rw [List.map_cons, a, ← ih]
    rwa [← this]
  rw [samplesBack_unique h (key xs hl)]
  have := key (xs.map opposite) (by rw [List.length_map]; exact hl)
  rw [List.map_map] at this ⊢
  have e : xs.map ((fun x => dmul (floatBack fmt (ddiv x c)) c) ∘ opposite) =
      xs.map (opposite ∘ fun x => dmul (floatBack fmt (ddiv x c)) c) := by
    refine List.map_congr_left fun x hm => ?_
    have n0 := hn x hm
    have n1 := (ddiv_le hc hw (atMost_refl n0)).number
    have n2 := (floatBack_le (fmt := fmt) (atMost_refl n1)).number
    show dmul (floatBack fmt (ddiv (opposite x) c)) c = opposite (dmul (floatBack fmt (ddiv x c)) c)
    rw [ddiv_opposite hc hw n0, ← dmul_opposite hc hw n2]
    refine congrArg (fun z => dmul z c) ?_
    unfold floatBack
    split
    · rfl
    · exact single_opposite ((notNan_iff _).2 n1)
  rwa [e] at this

/-- The conditions are met by 7 and -5 with a factor of 3 in single precision. -/
example : ∃ ys, SamplesBack (fun _ _ => 0) 9058 (dblOfInt 3) [dblOfInt 7, dblOfInt (-5)] ys ∧
    SamplesBack (fun _ _ => 0) 9058 (dblOfInt 3) [dblOfInt (-7), dblOfInt 5] (ys.map opposite) := by
  obtain ⟨ys, h, -⟩ := C109_order_partial (fun _ _ => 0) 9058 (by decide) (dblOfInt 3) 3 (by decide +kernel) (by norm_num)
    [dblOfInt 7, dblOfInt (-5)] (by decide)
  have := C109_opposite_partial (fun _ _ => 0) 9058 (by decide) (dblOfInt 3) 3 (by decide +kernel) (by norm_num)
    [dblOfInt 7, dblOfInt (-5)] ys (by decide) (fun x hx => (notNan_iff x).1 (by
      simp only [List.mem_cons, List.not_mem_nil, or_false] at hx
      rcases hx with rfl | rfl <;> decide +kernel)) h
  rw [show [dblOfInt 7, dblOfInt (-5)].map opposite = [dblOfInt (-7), dblOfInt 5] by decide +kernel] at this
  exact ⟨ys, h, this⟩

/-! ## What the conditions exclude -/

/-- What the samples 1 and another one come back as. -/
def withOne (fmt : Int) (x : Dbl) : Out (List Dbl) := do
  let (bs, _) ← writeSamplesD (fun _ _ => 0) fmt (dblOfInt 1) [dblOfInt 1, x] {}
  let (ys, _) ← readSamplesD fmt (dblOfInt 1) 2 bs
  pure ys

/-- **C109 fails for format 9036.** The samples 1 and -1 come back as 256 and 4294967295. -/
theorem C109_i24_reversed : withOne 9036 (dblOfInt (-1)) = .ok [dblOfInt 256, dblOfInt 4294967295] := by decide +kernel

/-- **C109 fails for large integers.** In format 8038 the samples 1 and 2^31 come back as 1 and -2^31, in
format 8036 the samples 1 and 2^23 come back as 1 and -2^23. -/
theorem C109_large_reversed : withOne 8038 (dblOfInt (2 ^ 31)) = .ok [dblOfInt 1, dblOfInt (-2 ^ 31)] ∧
    withOne 8036 (dblOfInt (2 ^ 23)) = .ok [dblOfInt 1, dblOfInt (-2 ^ 23)] := by decide +kernel

/-- **C109 fails for negative integers.** The sample 2 can be written in formats 8036 and 8038 and comes back,
and writing -2 is undefined behaviour. -/
theorem C109_negative_undefined : ∀ fmt ∈ [(8036 : Int), 8038],
    withOne fmt (dblOfInt 2) = .ok [dblOfInt 1, dblOfInt 2] ∧
    withOne fmt (opposite (dblOfInt 2)) = isUb .floatToInt := by decide +kernel

end Sedaman.Props
