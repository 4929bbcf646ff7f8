import Verif.Spec.SegdSample
import Verif.Lemmas.SegdCur
import Verif.Lemmas.SegdPut
import Verif.Lemmas.SegdFloat
import Verif.Lemmas.SampleFmt
import Verif.Lemmas.Trunc

/-!
# SEG-D samples: lemmas
-/

namespace Sedaman

open Spec

/-- Quotient by `2^j`, for a sufficiently long significand. -/
theorem div_two_pow (s : Bool) (m : Nat) (e g : Int) (j : Nat) :
    FVal.div (.fin s m e) (.fin false (2 ^ j) g)
      = .fin s (2 * (m * 2 ^ 65)) (e - g - ((j + 65 : Nat) : Int) - 1) := by
  have hn : 2 ^ j ≠ 0 := Nat.ne_of_gt (Nat.two_pow_pos j)
  have hdvd : m * 2 ^ (j + 65) = (m * 2 ^ 65) * 2 ^ j := by rw [Nat.pow_add]; ac_rfl
  generalize hc : 65 = c at *
  unfold FVal.div
  simp only [if_neg hn, Nat.log2_two_pow]
  rw [hc, hdvd, Nat.mul_mod_left, if_pos rfl, Nat.mul_div_cancel _ (Nat.two_pow_pos j), Nat.add_zero,
    Bool.bne_false]

/-- Division by a power of two. -/
theorem ddiv_pow2 {x : Dbl} {s : Bool} {m : Nat} {e k : Int} (hx : x.val = .fin s m e)
    (h1 : -1074 ≤ k) (h2 : k ≤ 1023) : ddiv x (pow2 k) = toDbl (.fin s m (e - k)) := by
  obtain ⟨n, g, hp, hr⟩ := is_pow2 h1 h2
  have hn : n ≠ 0 := by
    rintro rfl
    have : (2 : ℚ) ^ k ≠ 0 := by positivity
    simp at hr
    exact this hr.symm
  have hz : (n : ℚ) = 2 ^ (k - g) := by
    rw [zpow_sub₀ two_ne_zero, eq_div_iff (by positivity), hr]
    simp
  have hge : 0 ≤ k - g := by
    by_contra hc
    have hlt : (2 : ℚ) ^ (k - g) < 2 ^ (0 : Int) := zpow_lt_zpow_right₀ (by norm_num) (by omega)
    rw [← hz, zpow_zero] at hlt
    have : n < 1 := by exact_mod_cast hlt
    omega
  obtain ⟨j, hj⟩ := Int.eq_ofNat_of_zero_le hge
  have hnj : n = 2 ^ j := by
    rw [hj, zpow_natCast] at hz
    exact_mod_cast hz
  subst hnj
  unfold ddiv
  rw [hx, hp, div_two_pow]
  apply toDbl_congr
  have hg : g = k - j := by omega
  subst hg
  have e1 : e - (k - (j : Int)) - ((j + 65 : Nat) : Int) - 1 = (e - k) + (-66) := by
    push_cast; ring
  rw [e1, zpow_add₀ two_ne_zero]
  push_cast
  generalize (2 : ℚ) ^ (e - k) = q
  norm_num
  ring

theorem ddiv_exact {x y : Dbl} {k : Int} (h : DividesExactly x k y) (h1 : -1074 ≤ k) (h2 : k ≤ 1023) :
    ddiv x (pow2 k) = y ∧ dmul y (pow2 k) = x := by
  obtain ⟨a, hx, hy, hs⟩ := h
  unfold dblRat ratOf at hx hy
  split at hx
  case h_2 => cases hx
  rename_i s m e hxv
  split at hy
  case h_2 => cases hy
  rename_i t n g hyv
  simp only [Option.some.injEq] at hx hy
  have hzero : ∀ (d : Dbl) (u : Bool) (c : Nat) (q : Int), d.val = .fin u c q → c = 0 →
      (d = 0x8000000000000000 ↔ u = true) := by
    intro d u c q hd hc
    subst hc
    have hd' : d = toDbl (.fin u 0 q) := by
      rw [← hd, toDbl_val]; rw [hd]; rfl
    have e0 : toDbl (.fin u 0 q) = toDbl (.fin u 0 0) := toDbl_congr (by simp)
    rw [hd', e0]
    cases u <;> decide +kernel
  have hk : (2 : ℚ) ^ k ≠ 0 := by positivity
  have hpe : (0 : ℚ) < 2 ^ e := by positivity
  have hpg : (0 : ℚ) < 2 ^ g := by positivity
  have hpk : (0 : ℚ) < 2 ^ k := by positivity
  have hval : t = s ∧ (n : ℚ) * 2 ^ g = (m : ℚ) * 2 ^ (e - k) := by
    rw [zpow_sub₀ two_ne_zero]
    rw [← hx] at hy
    by_cases hm : m = 0
    · subst hm
      have hn : n = 0 := by
        cases t <;> simp at hy <;>
          (rcases hy with hy | hy <;> first | exact_mod_cast hy | exact absurd hy (by positivity))
      subst hn
      refine ⟨?_, by simp⟩
      have hxz := hzero x s 0 e hxv rfl
      have hyz := hzero y t 0 g hyv rfl
      rw [hxz, hyz] at hs
      cases s <;> cases t <;> simp at hs <;> rfl
    · have hmp : (0 : ℚ) < m := by exact_mod_cast Nat.pos_of_ne_zero hm
      have hnn : (0 : ℚ) ≤ n := by positivity
      have hq : (0 : ℚ) < (m : ℚ) * 2 ^ e / 2 ^ k := by positivity
      have hl : (0 : ℚ) ≤ (n : ℚ) * 2 ^ g := by positivity
      cases s <;> cases t <;> simp only [if_true, Bool.false_eq_true, if_false, one_mul] at hy
      · exact ⟨rfl, by rw [hy]; ring⟩
      · exfalso
        have : -((n : ℚ) * 2 ^ g) = (m : ℚ) * 2 ^ e / 2 ^ k := by rw [← hy]; ring
        linarith
      · exfalso
        have : (n : ℚ) * 2 ^ g = -((m : ℚ) * 2 ^ e / 2 ^ k) := by rw [hy]; ring
        linarith
      · refine ⟨rfl, ?_⟩
        have : -((n : ℚ) * 2 ^ g) = -((m : ℚ) * 2 ^ e / 2 ^ k) := by
          have h3 : -((n : ℚ) * 2 ^ g) = -1 * n * 2 ^ g := by ring
          rw [h3, hy]; ring
        have h4 := neg_injective this
        rw [h4]; ring
  obtain ⟨rfl, hv⟩ := hval
  have hY : HasVal y t m (e - k) := ⟨n, g, hyv, hv⟩
  have hX : HasVal x t m e := ⟨m, e, hxv, rfl⟩
  refine ⟨by rw [ddiv_pow2 hxv h1 h2, ← hY.eq], ?_⟩
  have hP : HasVal (pow2 k) false 1 k := is_pow2 h1 h2
  rw [dmul_hasVal hY hP, hX.eq]
  simp

theorem read9036_cons (a b c : Byte) (rest : Bytes) : read9036 (a :: b :: c :: rest) =
    .ok (dblOfInt ((if ((a.toNat + 256 * b.toNat) <<< 8 ||| c.toNat) &&& 0x800000 ≠ 0
      then ((a.toNat + 256 * b.toNat) <<< 8 ||| c.toNat) ||| 0xff000000
      else (a.toNat + 256 * b.toNat) <<< 8 ||| c.toNat : Nat) : Int), rest) := by
  have h2 : readU 2 (a :: b :: c :: rest) = .ok (a.toNat + 256 * b.toNat, c :: rest) := by
    unfold readU
    rw [rd_bind, rdBytes, if_pos (by simp), ok_bind, rd_pure]
    simp [leVal]
  have h1 : readU 1 (c :: rest) = .ok (c.toNat, rest) := by
    unfold readU
    rw [rd_bind, rdBytes, if_pos (by simp), ok_bind, rd_pure]
    simp [leVal]
  unfold read9036
  rw [rd_bind, h2, ok_bind, rd_bind, h1, ok_bind, rd_pure]

theorem segdReader_error {fmt : Int} (h : fmt ∉ segdFormats) :
    segdReader fmt = throwExn .unsupportedFormat := by
  unfold segdReader
  split <;> first | rfl | (exfalso; exact h (by decide))

theorem segdWriter_error {fmt : Int} (est : PackEst) (h : fmt ∉ segdFormats) :
    segdWriter est fmt = throwExn .unsupportedFormat := by
  unfold segdWriter
  split <;> first | rfl | (exfalso; exact h (by decide))

theorem segdReader_bits {fmt : Int} (h : fmt ∈ segdFormats) :
    ∃ r, segdReader fmt = .ok (segdBits fmt, r) := by
  simp only [segdFormats, List.mem_cons, List.not_mem_nil, or_false] at h
  rcases h with h | h | h | h | h | h | h | h | h | h | h | h | h | h <;> subst h <;> exact ⟨_, rfl⟩

theorem segdWriter_bits {fmt : Int} (est : PackEst) (h : fmt ∈ segdFormats) :
    ∃ w, segdWriter est fmt = .ok (segdBits fmt, w) := by
  simp only [segdFormats, List.mem_cons, List.not_mem_nil, or_false] at h
  rcases h with h | h | h | h | h | h | h | h | h | h | h | h | h | h <;> subst h <;> exact ⟨_, rfl⟩

/-- The formats of plain numbers append the bytes of each sample. -/
theorem segdWriter_bytes {fmt : Int} (est : PackEst) (h : fmt ∈ segdByteFormats) :
    ∃ w, segdWriter est fmt = .ok (segdBits fmt, .bytes w) := by
  simp only [segdByteFormats, List.mem_cons, List.not_mem_nil, or_false] at h
  rcases h with h | h | h | h | h | h | h | h <;> subst h <;> exact ⟨_, rfl⟩

/-- Truncation to a range. -/
theorem dblToInt_rat {d : Dbl} {x : ℚ} {n lo hi : Int} (h : dblRat d = some x) (hn : Truncates x n)
    (h1 : lo ≤ n) (h2 : n ≤ hi) : dblToInt lo hi d = .ok n := by
  obtain ⟨m, e1, e2⟩ := trunc_rat h
  have := truncates_unique hn e2
  subst this
  unfold dblToInt
  rw [e1]
  exact if_pos ⟨h1, h2⟩

theorem rdSamples_ok {r : Rd Dbl} {f : Dbl → Bytes} {v : Dbl → Dbl} {descale : Dbl}
    (xs : List Dbl) (rest : Bytes)
    (h : ∀ x ∈ xs, (∀ rest, r (f x ++ rest) = .ok (v x, rest)) ∧ dmul (v x) descale = x) :
    rdSamples r descale xs.length (xs.flatMap f ++ rest) = .ok (xs, rest) := by
  induction xs with
  | nil => rfl
  | cons x t ih =>
    obtain ⟨h1, h2⟩ := h x (by simp)
    simp only [List.length_cons, rdSamples, rd_bind, List.flatMap_cons, List.append_assoc, h1, ok_bind,
      ih (fun y hy => h y (by simp [hy])), rd_pure, h2]

end Sedaman
