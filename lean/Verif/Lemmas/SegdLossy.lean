import Verif.Spec.SegdLossy
import Verif.Lemmas.SegdE2E2
import Mathlib.Data.Rat.Floor

/-! # Lemmas about the precision of SEG-D samples -/

namespace Sedaman

open Spec Props

theorem rdSamples_map {r : Rd Dbl} {f : Dbl → Bytes} {v : Dbl → Dbl} {descale : Dbl}
    (xs : List Dbl) (rest : Bytes) (h : ∀ x ∈ xs, ∀ rest, r (f x ++ rest) = .ok (v x, rest)) :
    rdSamples r descale xs.length (xs.flatMap f ++ rest) = .ok (xs.map fun x => dmul (v x) descale, rest) := by
  induction xs with
  | nil => rfl
  | cons x t ih =>
    simp only [List.length_cons, rdSamples, rd_bind, List.flatMap_cons, List.append_assoc, h x (by simp), ok_bind,
      ih (fun y hy => h y (by simp [hy])), rd_pure, List.map_cons]

/-- A list of samples, each of which comes back as something. -/
theorem samples_give {H : Host} {a : OSegdArgs} {k : Int} {xs : List Dbl} {P : Dbl → Dbl → Prop}
    (hf : a.gh1.formatCode ∈ segdByteFormats)
    (hx : ∀ x ∈ xs, ∃ y, SampleBack H.packEst a.gh1.formatCode (ddiv x (pow2 k)) y ∧ P x (dmul y (pow2 k)))
    (hl : xs.length * segdBits a.gh1.formatCode < 2 ^ 32) :
    ∃ xs', SamplesGive H a k xs xs' ∧ List.Forall₂ P xs xs' := by
  unfold SamplesGive
  generalize a.gh1.formatCode = fmt at *
  have hmem : fmt ∈ segdFormats := by
    revert fmt; intro fmt hf _ _
    simp only [segdByteFormats, List.mem_cons, List.not_mem_nil, or_false] at hf
    rcases hf with h | h | h | h | h | h | h | h <;> subst h <;> decide
  obtain ⟨r, hr⟩ := segdReader_bits hmem
  obtain ⟨w, hw⟩ := segdWriter_bytes H.packEst hf
  obtain ⟨n, hn⟩ : ∃ n, segdBits fmt = 8 * n := by
    simp only [segdByteFormats, List.mem_cons, List.not_mem_nil, or_false] at hf
    rcases hf with h | h | h | h | h | h | h | h <;> subst h
    exacts [⟨3, rfl⟩, ⟨4, rfl⟩, ⟨4, rfl⟩, ⟨8, rfl⟩, ⟨3, rfl⟩, ⟨4, rfl⟩, ⟨4, rfl⟩, ⟨8, rfl⟩]
  have hx' : ∀ x, ∃ y bs, x ∈ xs → P x (dmul y (pow2 k)) ∧ w (ddiv x (pow2 k)) = .ok bs ∧
      bs.length = n ∧ ∀ rest, r (bs ++ rest) = .ok (y, rest) := by
    intro x
    by_cases hm : x ∈ xs
    · obtain ⟨y, ⟨w', r', bs, e1, e2, e3, e4, e5⟩, hp⟩ := hx x hm
      rw [hw] at e1; rw [hr] at e2
      simp only [Except.ok.injEq, Prod.mk.injEq, true_and, SampleWr.bytes.injEq] at e1 e2
      subst e1 e2
      exact ⟨y, bs, fun _ => ⟨hp, e3, by omega, e5⟩⟩
    · exact ⟨x, [], fun h => absurd h hm⟩
  choose v f hv using hx'
  have hlen : (xs.flatMap f).length = xs.length * n := by
    clear hl hx
    induction xs with
    | nil => simp
    | cons x t ih =>
      rw [List.flatMap_cons, List.length_append, (hv x (by simp)).2.2.1,
        ih (fun y hy => hv y (by simp [hy])), List.length_cons, Nat.add_mul]
      omega
  have hsz : xs.length * segdBits fmt / 8 = xs.length * n := by
    rw [hn, ← Nat.mul_assoc, Nat.mul_comm xs.length 8, Nat.mul_assoc, Nat.mul_div_cancel_left _ (by decide)]
  refine ⟨xs.map fun x => dmul (v x) (pow2 k), ⟨xs.flatMap f, fun m => ⟨⟨m.pending, xs.flatMap f⟩, ?_⟩,
    fun rest => ?_⟩, ?_⟩
  · unfold writeSamplesD
    rw [hw, ok_bind]
    simp only
    rw [hsz, wrSamples_ok (f := f) n xs m.pending [] _ (fun x hm => ?_)
      (by rw [resizeTo_length]), ok_bind]
    · simp only [List.drop_of_length_le (Nat.le_of_eq (resizeTo_length (xs.length * n) m.buf)), pure_eq_ok,
        List.nil_append, List.append_nil]
    · obtain ⟨-, d3, d4, -⟩ := hv x hm
      exact ⟨d3, d4⟩
  · unfold readSamplesD
    rw [hr, ok_bind]
    simp only
    rw [Nat.mod_eq_of_lt hl, hsz, if_pos (by rw [List.length_append, hlen]; omega), ok_bind]
    simp only
    rw [List.take_left' hlen, List.drop_left' hlen]
    have := rdSamples_map (r := r) (f := f) (v := v) (descale := pow2 k) xs []
      (fun x hm => (hv x hm).2.2.2)
    rw [List.append_nil] at this
    rw [this, ok_bind]; rfl
  · rw [List.forall₂_map_right_iff, List.forall₂_same]
    exact fun x hm => (hv x hm).1

/-- Normalised: a mantissa of 53 binary digits. -/
theorem dbl_normal {x : Dbl} {v : ℚ} (h : dblRat x = some v) (h0 : v ≠ 0) :
    ∃ (s : Bool) (m : Nat) (e : Int), 2 ^ 52 ≤ m ∧ m < 2 ^ 53 ∧
      v = (if s then -1 else 1) * (m : ℚ) * 2 ^ e := by
  unfold dblRat ratOf at h
  split at h
  case h_2 => cases h
  rename_i s m e hx
  have h := (Option.some.inj h).symm
  have hm : m ≠ 0 := by rintro rfl; simp at h; exact h0 h
  have hlt : m < 2 ^ 53 := (dbl_fin_bounds hx).1
  obtain ⟨b1, b2⟩ := log2_bounds hm
  have hl : m.log2 ≤ 52 := by
    by_contra hc
    have : 2 ^ 53 ≤ 2 ^ m.log2 := Nat.pow_le_pow_right (by decide) (by omega)
    omega
  refine ⟨s, m * 2 ^ (52 - m.log2), e - (52 - m.log2 : Nat), ?_, ?_, ?_⟩
  · calc 2 ^ 52 = 2 ^ m.log2 * 2 ^ (52 - m.log2) := by rw [← Nat.pow_add]; congr 1; omega
      _ ≤ _ := Nat.mul_le_mul_right _ b1
  · calc m * 2 ^ (52 - m.log2) < 2 ^ (m.log2 + 1) * 2 ^ (52 - m.log2) :=
          Nat.mul_lt_mul_of_pos_right b2 (by positivity)
      _ = 2 ^ 53 := by rw [← Nat.pow_add]; congr 1; omega
  · rw [h, zpow_sub₀ two_ne_zero, zpow_natCast]
    push_cast
    field_simp

theorem two_zpow_lt {a b : Int} (h : (2 : ℚ) ^ a < 2 ^ b) : a < b :=
  (zpow_lt_zpow_iff_right₀ (by norm_num)).1 h

theorem signed_abs (s : Bool) (q : ℚ) (hq : 0 ≤ q) : |(if s then -1 else 1) * q| = q := by
  cases s
  · simp [abs_of_nonneg hq]
  · simp [abs_of_nonneg hq]

/-- The double that is `2^j` times another one. -/
theorem dbl_scaled {x : Dbl} {v : ℚ} (h : dblRat x = some v) (j : Int)
    (hr : v = 0 ∨ (2 : ℚ) ^ (-1022 : Int) ≤ |v * 2 ^ j|) (hr2 : |v * 2 ^ j| < 2 ^ 1024) :
    ∃ y, dblRat y = some (v * 2 ^ j) ∧ (x = 0x8000000000000000 ↔ y = 0x8000000000000000) := by
  by_cases h0 : v = 0
  · subst h0
    exact ⟨x, by rw [h]; simp, Iff.rfl⟩
  have hr := hr.resolve_left h0
  obtain ⟨s, m, e, m1, m2, hv⟩ := dbl_normal h h0
  have habs : |v * 2 ^ j| = (m : ℚ) * 2 ^ (e + j) := by
    rw [hv, mul_assoc, mul_assoc, ← zpow_add₀ two_ne_zero, signed_abs]
    positivity
  rw [habs] at hr hr2
  have q1 : ((2 : ℚ) ^ (52 : Int)) ≤ m := by
    rw [show (52 : Int) = ((52 : Nat) : Int) from rfl, zpow_natCast]
    exact_mod_cast m1
  have q2 : (m : ℚ) < (2 : ℚ) ^ (53 : Int) := by
    rw [show (53 : Int) = ((53 : Nat) : Int) from rfl, zpow_natCast]
    exact_mod_cast m2
  have hp : (0 : ℚ) < 2 ^ (e + j) := by positivity
  have e1 : -1074 ≤ e + j := by
    have : (2 : ℚ) ^ (-1022 : Int) < 2 ^ (53 + (e + j)) := by
      rw [zpow_add₀ two_ne_zero]
      exact lt_of_le_of_lt hr (mul_lt_mul_of_pos_right q2 hp)
    have := two_zpow_lt this
    omega
  have e2 : e + j ≤ 971 := by
    have : (2 : ℚ) ^ (52 + (e + j)) < 2 ^ (1024 : Int) := by
      rw [zpow_add₀ two_ne_zero, show ((2 : ℚ) ^ (1024 : Int)) = 2 ^ 1024 from zpow_natCast 2 1024]
      exact lt_of_le_of_lt (mul_le_mul_of_nonneg_right q1 hp.le) hr2
    have := two_zpow_lt this
    omega
  have hlog := log2_lt_of_lt m2 (by decide)
  obtain ⟨m', e', t1, t2⟩ := toDbl_exact (s := s) m2 e1 (by omega)
  have hy : dblRat (toDbl (.fin s m (e + j))) = some (v * 2 ^ j) := by
    unfold dblRat
    rw [t1]
    simp only [ratOf, Option.some.injEq]
    rw [mul_assoc, t2, hv, zpow_add₀ two_ne_zero]
    ring
  refine ⟨_, hy, ?_⟩
  have hz : dblRat 0x8000000000000000 = some 0 := by
    unfold dblRat
    rw [show Dbl.val 0x8000000000000000 = .fin true 0 (-1074) by decide +kernel]
    simp [ratOf]
  constructor
  · rintro rfl
    rw [hz] at h
    exact absurd (Option.some.inj h).symm h0
  · intro hc
    rw [hc, hz] at hy
    have := (Option.some.inj hy).symm
    exact absurd this (mul_ne_zero h0 (by positivity))

theorem scale_down {x : Dbl} {v : ℚ} {k : Int} (h : dblRat x = some v)
    (hr : v = 0 ∨ (2 : ℚ) ^ (-1022 : Int) ≤ |v / 2 ^ k|) (hr2 : |v / 2 ^ k| < 2 ^ 1024) :
    ∃ y, DividesExactly x k y ∧ dblRat y = some (v / 2 ^ k) := by
  have hd : v / 2 ^ k = v * 2 ^ (-k) := by rw [zpow_neg, div_eq_mul_inv]
  rw [hd] at hr hr2
  obtain ⟨y, h1, h2⟩ := dbl_scaled h (-k) hr hr2
  rw [← hd] at h1
  exact ⟨y, ⟨v, h, h1, h2⟩, h1⟩

theorem scale_up {y : Dbl} {u : ℚ} {k : Int} (h : dblRat y = some u)
    (hr : u = 0 ∨ (2 : ℚ) ^ (-1022 : Int) ≤ |u * 2 ^ k|) (hr2 : |u * 2 ^ k| < 2 ^ 1024) :
    ∃ z, DividesExactly z k y ∧ dblRat z = some (u * 2 ^ k) := by
  obtain ⟨z, h1, h2⟩ := dbl_scaled h k hr hr2
  refine ⟨z, ⟨u * 2 ^ k, h1, ?_, h2.symm⟩, h1⟩
  rw [h, mul_div_assoc, div_self (by positivity), mul_one]

/-- There is a single precision number within half a unit of the last of 24 digits. -/
theorem sgl_near {x : Dbl} {u : ℚ} (h : dblRat x = some u)
    (h1 : u = 0 ∨ (2 : ℚ) ^ (-126 : Int) ≤ |u|) (h2 : |u| < 2 ^ 127) :
    ∃ (s : Sgl) (w : ℚ), sglRat s = some w ∧ |u - w| ≤ |u| / 2 ^ 24 := by
  by_cases h0 : u = 0
  · subst h0
    refine ⟨0, 0, ?_, by simp⟩
    unfold sglRat
    rw [show Sgl.val 0 = .fin false 0 (-149) by decide +kernel]
    simp [ratOf]
  have h1 := h1.resolve_left h0
  obtain ⟨s, m, e, m1, m2, hv⟩ := dbl_normal h h0
  have habs : |u| = (m : ℚ) * 2 ^ e := by rw [hv, mul_assoc, signed_abs]; positivity
  rw [habs] at h1 h2
  have q1 : ((2 : ℚ) ^ (52 : Int)) ≤ m := by
    rw [show (52 : Int) = ((52 : Nat) : Int) from rfl, zpow_natCast]
    exact_mod_cast m1
  have q2 : (m : ℚ) < (2 : ℚ) ^ (53 : Int) := by
    rw [show (53 : Int) = ((53 : Nat) : Int) from rfl, zpow_natCast]
    exact_mod_cast m2
  have hp : (0 : ℚ) < 2 ^ e := by positivity
  have e1 : -178 ≤ e := by
    have : (2 : ℚ) ^ (-126 : Int) < 2 ^ (53 + e) := by
      rw [zpow_add₀ two_ne_zero]
      exact lt_of_le_of_lt h1 (mul_lt_mul_of_pos_right q2 hp)
    have := two_zpow_lt this
    omega
  have e2 : e ≤ 74 := by
    have : (2 : ℚ) ^ (52 + e) < 2 ^ (127 : Int) := by
      rw [zpow_add₀ two_ne_zero, show ((2 : ℚ) ^ (127 : Int)) = 2 ^ 127 from zpow_natCast 2 127]
      exact lt_of_le_of_lt (mul_le_mul_of_nonneg_right q1 hp.le) h2
    have := two_zpow_lt this
    omega
  obtain ⟨q, hq⟩ : ∃ q, q = (m + 2 ^ 28) / 2 ^ 29 := ⟨_, rfl⟩
  have hq1 : q * 2 ^ 29 ≤ m + 2 ^ 28 := by omega
  have hq2 : m ≤ q * 2 ^ 29 + 2 ^ 28 := by omega
  have hq3 : q ≤ 2 ^ 24 := by omega
  have key : ∃ (q' : Nat) (e' : Int), q' < 2 ^ 24 ∧ -149 ≤ e' ∧ (q'.log2 : Int) + 1 + e' ≤ 128 ∧
      (q' : ℚ) * 2 ^ e' = (q : ℚ) * 2 ^ (e + 29) := by
    by_cases hc : q = 2 ^ 24
    · refine ⟨2 ^ 23, e + 30, by decide, by omega, ?_, ?_⟩
      · have := log2_lt_of_lt (show 2 ^ 23 < 2 ^ 24 by decide) (by decide)
        omega
      · rw [hc, show e + 30 = e + 29 + 1 by ring, zpow_add₀ two_ne_zero (e + 29) 1]
        push_cast
        ring
    · have hlt : q < 2 ^ 24 := by omega
      refine ⟨q, e + 29, hlt, by omega, ?_, rfl⟩
      have := log2_lt_of_lt hlt (by decide)
      omega
  obtain ⟨q', e', k1, k2, k3, k4⟩ := key
  obtain ⟨m', e'', t1, t2⟩ := toSgl_exact (s := s) k1 k2 k3
  refine ⟨toSgl (.fin s q' e'), (if s then -1 else 1) * ((q : ℚ) * 2 ^ (e + 29)), ?_, ?_⟩
  · unfold sglRat
    rw [t1]
    simp only [ratOf, Option.some.injEq]
    rw [mul_assoc, t2, k4]
  · have hd : u - (if s then -1 else 1) * ((q : ℚ) * 2 ^ (e + 29))
        = (if s then -1 else 1) * (((m : ℚ) - q * 2 ^ 29) * 2 ^ e) := by
      rw [hv, zpow_add₀ two_ne_zero, show (2 : ℚ) ^ (29 : Int) = 2 ^ 29 from zpow_natCast 2 29]
      ring
    have hb : |(m : ℚ) - q * 2 ^ 29| ≤ 2 ^ 28 := by
      have a1 : (q : ℚ) * 2 ^ 29 ≤ m + 2 ^ 28 := by exact_mod_cast hq1
      have a2 : (m : ℚ) ≤ q * 2 ^ 29 + 2 ^ 28 := by exact_mod_cast hq2
      rw [abs_le]
      constructor <;> linarith
    have hm' : (2 : ℚ) ^ 52 ≤ m := by exact_mod_cast m1
    have hs : |(if s then (-1 : ℚ) else 1)| = 1 := by cases s <;> simp
    rw [hd, abs_mul, hs, one_mul, abs_mul, abs_of_pos hp, habs]
    calc |(m : ℚ) - q * 2 ^ 29| * 2 ^ e ≤ 2 ^ 28 * 2 ^ e := mul_le_mul_of_nonneg_right hb hp.le
      _ ≤ (m : ℚ) * 2 ^ e / 2 ^ 24 := by
        rw [le_div_iff₀ (by positivity)]
        have : (2 : ℚ) ^ 28 * 2 ^ e * 2 ^ 24 = 2 ^ 52 * 2 ^ e := by ring
        rw [this]
        exact mul_le_mul_of_nonneg_right hm' hp.le

theorem truncates_floor {u : ℚ} (h : 0 ≤ u) : Truncates u ⌊u⌋ := by
  refine ⟨fun _ => ⟨Int.floor_le u, Int.lt_floor_add_one u⟩, fun h' => ?_⟩
  have : u = 0 := le_antisymm h' h
  subst this
  norm_num

theorem truncates_ceil {u : ℚ} (h : u ≤ 0) : Truncates u ⌈u⌉ := by
  refine ⟨fun h' => ?_, fun _ => ⟨?_, Int.le_ceil u⟩⟩
  · have : u = 0 := le_antisymm h h'
    subst this
    norm_num
  · have := Int.ceil_lt_add_one u
    linarith

theorem trunc_nonneg {u : ℚ} {bits : Nat} (h1 : -1 < u) (h2 : u < 2 ^ bits) :
    ∃ n : Int, Truncates u n ∧ 0 ≤ n ∧ n < 2 ^ bits := by
  by_cases h : 0 ≤ u
  · refine ⟨⌊u⌋, truncates_floor h, Int.floor_nonneg.2 h, ?_⟩
    rw [Int.floor_lt]
    exact_mod_cast h2
  · refine ⟨⌈u⌉, truncates_ceil (by linarith), ?_, ?_⟩
    · have : -1 < ⌈u⌉ := by
        rw [Int.lt_ceil]
        exact_mod_cast h1
      omega
    · have : ⌈u⌉ ≤ 0 := by
        rw [Int.ceil_le]
        push_cast
        linarith
      have : (0 : Int) < 2 ^ bits := by positivity
      omega

theorem trunc_signed {u : ℚ} (h : |u| < 2 ^ 31) : ∃ n : Int, Truncates u n ∧ -2 ^ 31 ≤ n ∧ n < 2 ^ 31 := by
  obtain ⟨h1, h2⟩ := abs_lt.1 h
  by_cases h0 : 0 ≤ u
  · refine ⟨⌊u⌋, truncates_floor h0, ?_, ?_⟩
    · have := Int.floor_nonneg.2 h0
      omega
    · rw [Int.floor_lt]
      exact_mod_cast h2
  · refine ⟨⌈u⌉, truncates_ceil (by linarith), ?_, ?_⟩
    · have : -2 ^ 31 < ⌈u⌉ := by
        rw [Int.lt_ceil]
        exact_mod_cast h1
      omega
    · have : ⌈u⌉ ≤ 0 := by
        rw [Int.ceil_le]
        push_cast
        linarith
      omega

/-- What one sample becomes. -/
theorem sample_kept {est : PackEst} {fmt k : Int} {x : Dbl} {v : ℚ} (hk1 : -800 ≤ k) (hk2 : k ≤ 800)
    (h : dblRat x = some v) (hr : InFormat fmt k v) :
    ∃ y, SampleBack est fmt (ddiv x (pow2 k)) y ∧ SampleLike fmt k x (dmul y (pow2 k)) := by
  obtain ⟨hlow, hr⟩ := hr
  have hpk : (0 : ℚ) < 2 ^ k := by positivity
  have big : ∀ n : Nat, n ≤ 1024 → |v / 2 ^ k| < 2 ^ n → |v / 2 ^ k| < 2 ^ 1024 := fun n hn hlt =>
    lt_of_lt_of_le hlt (pow_le_pow_right₀ (by norm_num) hn)
  -- integers
  have ints : ∀ n : Int, n.natAbs < 2 ^ 32 → Truncates (v / 2 ^ k) n →
      (∀ y, dblRat y = some (v / 2 ^ k) → SampleBack est fmt y (dblOfInt n)) →
      (∀ w, (∃ n : Int, Truncates (v / 2 ^ k) n ∧ w = (n : ℚ) * 2 ^ k) → KeptAs fmt k v w) →
      |v / 2 ^ k| < 2 ^ 1024 →
      ∃ y, SampleBack est fmt (ddiv x (pow2 k)) y ∧ SampleLike fmt k x (dmul y (pow2 k)) := by
    intro n hn ht hb hkept hbig
    obtain ⟨y, d1, d2⟩ := scale_down h hlow hbig
    obtain ⟨e1, -⟩ := ddiv_exact d1 (by omega) (by omega)
    have hi := dblRat_ofInt (n := n) (by omega)
    have habs : |(n : ℚ) * 2 ^ k| = (n.natAbs : ℚ) * 2 ^ k := by
      rw [abs_mul, abs_of_pos hpk, ← Int.cast_abs, Int.abs_eq_natAbs]
      rfl
    obtain ⟨z, z1, z2⟩ := scale_up (k := k) hi (by
        by_cases h0 : n = 0
        · exact .inl (by simp [h0])
        · right
          rw [habs]
          have h1 : (1 : ℚ) ≤ n.natAbs := by
            have : 1 ≤ n.natAbs := by omega
            exact_mod_cast this
          calc (2 : ℚ) ^ (-1022 : Int) ≤ 2 ^ k := zpow_le_zpow_right₀ (by norm_num) (by omega)
            _ = 1 * 2 ^ k := (one_mul _).symm
            _ ≤ _ := mul_le_mul_of_nonneg_right h1 hpk.le) (by
        rw [habs]
        have h1 : (n.natAbs : ℚ) < 2 ^ (32 : Int) := by
          rw [show (32 : Int) = ((32 : Nat) : Int) from rfl, zpow_natCast]
          exact_mod_cast hn
        calc (n.natAbs : ℚ) * 2 ^ k < 2 ^ (32 : Int) * 2 ^ k := mul_lt_mul_of_pos_right h1 hpk
          _ = 2 ^ (32 + k) := (zpow_add₀ two_ne_zero _ _).symm
          _ ≤ 2 ^ (1024 : Int) := zpow_le_zpow_right₀ (by norm_num) (by omega)
          _ = 2 ^ 1024 := zpow_natCast 2 1024)
    obtain ⟨-, e2⟩ := ddiv_exact z1 (by omega) (by omega)
    refine ⟨dblOfInt n, by rw [e1]; exact hb y d2, ?_⟩
    rw [e2]
    exact ⟨v, _, h, z2, hkept _ ⟨n, ht, rfl⟩⟩
  -- single precision
  have singles : (fmt = 8058 ∨ fmt = 9058) → (v = 0 ∨ (2 : ℚ) ^ (-126 : Int) ≤ |v / 2 ^ k|) →
      |v / 2 ^ k| < 2 ^ 127 →
      ∃ y, SampleBack est fmt (ddiv x (pow2 k)) y ∧ SampleLike fmt k x (dmul y (pow2 k)) := by
    intro hf hl hh
    obtain ⟨y, d1, d2⟩ := scale_down h hlow (big 127 (by decide) hh)
    obtain ⟨e1, -⟩ := ddiv_exact d1 (by omega) (by omega)
    have hzero : v / 2 ^ k = 0 ↔ v = 0 := by
      constructor
      · intro h0
        rcases div_eq_zero_iff.1 h0 with h0 | h0
        · exact h0
        · exact absurd h0 hpk.ne'
      · rintro rfl; simp
    obtain ⟨c, w, c1, c2⟩ := sgl_near d2 (hl.imp_left hzero.2) hh
    obtain ⟨s, u, s1, s2, s3, s4⟩ := C50_single_nearest est fmt hf y _ d2 (by
      refine lt_trans hh ?_
      norm_num)
    have hu : |v / 2 ^ k - u| ≤ |v / 2 ^ k| / 2 ^ 24 := (s4 c w c1).1.trans c2
    have hlo : |v / 2 ^ k| * (1 / 2) ≤ |u| := by
      have t1 : |v / 2 ^ k| ≤ |v / 2 ^ k - u| + |u| := by
        have := abs_add_le (v / 2 ^ k - u) u
        rwa [sub_add_cancel] at this
      have t2 : |v / 2 ^ k| / 2 ^ 24 ≤ |v / 2 ^ k| * (1 / 2) := by
        have := abs_nonneg (v / 2 ^ k)
        linarith
      linarith
    have hhi : |u| ≤ |v / 2 ^ k| * 2 := by
      have t1 : |u| ≤ |v / 2 ^ k - u| + |v / 2 ^ k| := by
        have := abs_add_le (u - v / 2 ^ k) (v / 2 ^ k)
        rwa [sub_add_cancel, abs_sub_comm] at this
      have t2 : |v / 2 ^ k| / 2 ^ 24 ≤ |v / 2 ^ k| := by
        have := abs_nonneg (v / 2 ^ k)
        linarith
      linarith
    have habs : |u * 2 ^ k| = |u| * 2 ^ k := by rw [abs_mul, abs_of_pos hpk]
    obtain ⟨z, z1, z2⟩ := scale_up (k := k) s3 (by
        rcases hl with hl | hl
        · left
          have := hzero.2 hl
          rw [this] at hhi
          simpa using hhi
        · right
          rw [habs]
          calc (2 : ℚ) ^ (-1022 : Int) ≤ 2 ^ (-127 + k) := zpow_le_zpow_right₀ (by norm_num) (by omega)
            _ = 2 ^ (-127 : Int) * 2 ^ k := zpow_add₀ two_ne_zero _ _
            _ ≤ |u| * 2 ^ k := by
              refine mul_le_mul_of_nonneg_right (le_trans ?_ hlo) hpk.le
              rw [show (-127 : Int) = -126 + -1 by norm_num, zpow_add₀ two_ne_zero]
              have : (2 : ℚ) ^ (-1 : Int) = 1 / 2 := by norm_num
              rw [this]
              exact mul_le_mul_of_nonneg_right hl (by norm_num)) (by
        rw [habs]
        have h1 : |u| < 2 ^ (128 : Int) := by
          rw [show (2 : ℚ) ^ (128 : Int) = 2 ^ 127 * 2 by rw [show (128 : Int) = ((128 : Nat) : Int) from rfl, zpow_natCast]; ring]
          exact lt_of_le_of_lt hhi (mul_lt_mul_of_pos_right hh (by norm_num))
        calc |u| * 2 ^ k < 2 ^ (128 : Int) * 2 ^ k := mul_lt_mul_of_pos_right h1 hpk
          _ = 2 ^ (128 + k) := (zpow_add₀ two_ne_zero _ _).symm
          _ ≤ 2 ^ (1024 : Int) := zpow_le_zpow_right₀ (by norm_num) (by omega)
          _ = 2 ^ 1024 := zpow_natCast 2 1024)
    obtain ⟨-, e2⟩ := ddiv_exact z1 (by omega) (by omega)
    refine ⟨sglToDbl s, by rw [e1]; exact s1, ?_⟩
    rw [e2]
    refine ⟨v, _, h, z2, ?_⟩
    have goal : |u * 2 ^ k - v| ≤ |v| / 2 ^ 24 := by
      have hv : v = v / 2 ^ k * 2 ^ k := by field_simp
      have a1 : u * 2 ^ k - v = (u - v / 2 ^ k) * 2 ^ k := by
        rw [sub_mul, ← hv]
      have a2 : |v| = |v / 2 ^ k| * 2 ^ k := by
        conv => lhs; rw [hv]
        rw [abs_mul, abs_of_pos hpk]
      rw [a1, a2, abs_mul, abs_of_pos hpk, abs_sub_comm]
      calc |v / 2 ^ k - u| * 2 ^ k ≤ |v / 2 ^ k| / 2 ^ 24 * 2 ^ k := mul_le_mul_of_nonneg_right hu hpk.le
        _ = _ := by ring
    rcases hf with rfl | rfl <;> exact goal
  -- double precision
  have doubles : (fmt = 8080 ∨ fmt = 9080) → |v / 2 ^ k| < 2 ^ 1024 →
      ∃ y, SampleBack est fmt (ddiv x (pow2 k)) y ∧ SampleLike fmt k x (dmul y (pow2 k)) := by
    intro hf hh
    obtain ⟨y, d1, d2⟩ := scale_down h hlow hh
    obtain ⟨e1, e2⟩ := ddiv_exact d1 (by omega) (by omega)
    refine ⟨y, by rw [e1]; exact C50_double_exact est fmt hf y, ?_⟩
    rw [e2]
    refine ⟨v, v, h, h, ?_⟩
    rcases hf with rfl | rfl <;> rfl
  split at hr
  · exact doubles (.inl rfl) hr
  · exact doubles (.inr rfl) hr
  · exact singles (.inl rfl) hr.1 hr.2
  · exact singles (.inr rfl) hr.1 hr.2
  · obtain ⟨n, t1, t2, t3⟩ := trunc_nonneg (bits := 23) hr.1 hr.2
    exact ints n (by omega) t1
      (fun y hy => (C50_integer_partial est 8036 24 (.inl ⟨rfl, rfl⟩) y _ hy n t1 t2 t3).1) (fun w hw => hw)
      (big 23 (by decide) (abs_lt.2 ⟨lt_trans (by norm_num) hr.1, hr.2⟩))
  · obtain ⟨n, t1, t2, t3⟩ := trunc_nonneg (bits := 31) hr.1 hr.2
    exact ints n (by omega) t1
      (fun y hy => (C50_integer_partial est 8038 32 (.inr ⟨rfl, rfl⟩) y _ hy n t1 t2 t3).1) (fun w hw => hw)
      (big 31 (by decide) (abs_lt.2 ⟨lt_trans (by norm_num) hr.1, hr.2⟩))
  · obtain ⟨n, t1, t2, t3⟩ := trunc_signed hr
    exact ints n (by omega) t1 (fun y hy => (C50_i32_le est y _ hy n t1 t2 t3).1) (fun w hw => hw)
      (big 31 (by decide) hr)
  · exact absurd hr (by simp)

end Sedaman
