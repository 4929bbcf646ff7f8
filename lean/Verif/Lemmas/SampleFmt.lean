import Verif.Lemmas.Nearest
import Verif.Lemmas.Ibm
import Verif.Lemmas.RawIO
import Verif.Spec.Samples

/-! # Lemmas about the sample formats -/

namespace Sedaman

open Spec

theorem asInt_map {α : Type} (r : Rd Nat) (f : Int → α) :
    ((do pure (f (← asInt r))) : Rd α) = (do pure (f ((← r : Nat) : Int))) := by
  funext bs
  simp only [rd_bind, asInt]
  cases r bs <;> rfl

/-- Readers of integer formats. -/
theorem sampleReader_int {fmt : Int} {k : IntKind} (h : intFormat fmt = some k) :
    sampleReader fmt = .ok (fun bo => do pure (dblOfInt (← k.read bo))) := by
  unfold intFormat at h
  split at h <;> first
    | (cases h; done)
    | (cases h; rfl)
    | (cases h; simp only [IntKind.read, asInt_map]; rfl)

/-- Size of the unsigned parameter type of the writer of a kind. -/
def paramSize : IntKind → Nat
  | .u24 | .i24 => 4
  | k => k.size

theorem sampleWriter_int {fmt : Int} {k : IntKind} (est : LogEst) (h : intFormat fmt = some k) :
    sampleWriter est fmt = .ok (fun bo d => do pure (k.write bo (← est.toU (paramSize k) d))) := by
  unfold intFormat at h
  split at h <;> first
    | (cases h; done)
    | (cases h; rfl)

theorem reader_error {fmt : Int} (h : fmt ∉ supportedFormats) :
    sampleReader fmt = throwExn .unsupportedFormat := by
  unfold sampleReader
  split <;> first | rfl | (exfalso; exact h (by decide))

theorem writer_error {fmt : Int} (est : LogEst) (h : fmt ∉ supportedFormats) :
    sampleWriter est fmt = throwExn .unsupportedFormat := by
  unfold sampleWriter
  split <;> first | rfl | (exfalso; exact h (by decide))

/-- The reader of `n` bytes that decodes with `f`. -/
theorem rd_map_nat {α : Type} (bo : ByteOrder) (n : Nat) (f : Nat → α) (bs : Bytes) :
    ((do pure (f (← rdNat bo n))) : Rd α) bs =
      if n ≤ bs.length then .ok (f (decNat bo (bs.take n)), bs.drop n) else isUb .outOfBounds := by
  simp only [rd_bind, rdNat, rd_pure]
  split <;> rfl

theorem rd_map_int {α : Type} (bo : ByteOrder) (n : Nat) (f : Int → α) (bs : Bytes) :
    ((do pure (f (← rdInt bo n))) : Rd α) bs =
      if n ≤ bs.length then .ok (f (decInt bo (bs.take n)), bs.drop n) else isUb .outOfBounds := by
  simp only [rd_bind, rdInt, rd_pure]
  split <;> rfl

theorem kind_read_shape (bo : ByteOrder) (k : IntKind) :
    ∃ v : Bytes → Int, ∀ bs, k.read bo bs =
      if k.size ≤ bs.length then .ok (v (bs.take k.size), bs.drop k.size) else isUb .outOfBounds := by
  rw [kind_read_eq]
  by_cases h : k.signed = true
  · rw [if_pos h]
    exact ⟨decInt bo, fun _ => rfl⟩
  · rw [if_neg h]
    refine ⟨fun b => (decNat bo b : Int), fun bs => ?_⟩
    unfold asInt rdNat
    split <;> rfl

/-- Every accepted reader takes exactly `n` bytes and produces a value from them alone. -/
theorem reader_shape {fmt : Int} (h : fmt ∈ supportedFormats) :
    ∃ n r, bytesPerSample fmt = some n ∧ sampleReader fmt = .ok r ∧ ∀ bo, ∃ v : Bytes → Dbl,
      ∀ bs, r bo bs =
        if n ≤ bs.length then .ok (v (bs.take n), bs.drop n) else isUb .outOfBounds := by
  have hint : ∀ k, intFormat fmt = some k → bytesPerSample fmt = some k.size →
      ∃ n r, bytesPerSample fmt = some n ∧ sampleReader fmt = .ok r ∧ ∀ bo, ∃ v : Bytes → Dbl,
      ∀ bs, r bo bs =
        if n ≤ bs.length then .ok (v (bs.take n), bs.drop n) else isUb .outOfBounds := by
    intro k hk hb
    refine ⟨k.size, _, hb, sampleReader_int hk, fun bo => ?_⟩
    obtain ⟨v, hv⟩ := kind_read_shape bo k
    refine ⟨fun b => dblOfInt (v b), fun bs => ?_⟩
    simp only [rd_bind, hv, rd_pure]
    split <;> rfl
  simp only [supportedFormats, List.mem_cons, List.not_mem_nil, or_false] at h
  rcases h with h | h | h | h | h | h | h | h | h | h | h | h | h <;> subst h
  · refine ⟨4, _, rfl, rfl, fun bo => ⟨fun b => ibmDecode (decNat bo b), fun bs => ?_⟩⟩
    simp only [readIbm, readU32_eq]
    exact rd_map_nat bo 4 _ bs
  · exact hint .i32 rfl rfl
  · exact hint .i16 rfl rfl
  · refine ⟨4, _, rfl, rfl, fun bo => ⟨fun b => sglToDbl (BitVec.ofNat 32 (decNat bo b)), fun bs => ?_⟩⟩
    simp only [readIeeeFloat, readU32_eq]
    exact rd_map_nat bo 4 (fun n => sglToDbl (BitVec.ofNat 32 n)) bs
  · refine ⟨8, _, rfl, rfl, fun bo => ⟨fun b => BitVec.ofNat 64 (decNat bo b), fun bs => ?_⟩⟩
    simp only [readIeeeDouble, readU64_eq]
    exact rd_map_nat bo 8 (fun n => BitVec.ofNat 64 n) bs
  · exact hint .i24 rfl rfl
  · exact hint .i8 rfl rfl
  · exact hint .i64 rfl rfl
  · exact hint .u32 rfl rfl
  · exact hint .u16 rfl rfl
  · exact hint .u64 rfl rfl
  · exact hint .u24 rfl rfl
  · exact hint .u8 rfl rfl

/-- Every accepted writer produces exactly `n` bytes. -/
theorem writer_shape {fmt : Int} (est : LogEst) (h : fmt ∈ supportedFormats) :
    ∃ n w, bytesPerSample fmt = some n ∧ sampleWriter est fmt = .ok w ∧
      ∀ bo d bs, w bo d = .ok bs → bs.length = n := by
  have hint : ∀ k, intFormat fmt = some k → bytesPerSample fmt = some k.size →
      ∃ n w, bytesPerSample fmt = some n ∧ sampleWriter est fmt = .ok w ∧
      ∀ bo d bs, w bo d = .ok bs → bs.length = n := by
    intro k hk hb
    refine ⟨k.size, _, hb, sampleWriter_int est hk, fun bo d bs hw => ?_⟩
    cases hd : est.toU (paramSize k) d with
    | error e => rw [hd] at hw; cases hw
    | ok v =>
      rw [hd] at hw
      simp only [ok_bind] at hw
      cases hw
      rw [kind_write_eq, encInt_length]
  simp only [supportedFormats, List.mem_cons, List.not_mem_nil, or_false] at h
  rcases h with h | h | h | h | h | h | h | h | h | h | h | h | h <;> subst h
  · refine ⟨4, _, rfl, rfl, fun bo d bs hw => ?_⟩
    simp only [writeIbm] at hw
    cases hd : ibmEncode est d with
    | error e => rw [hd] at hw; cases hw
    | ok v =>
      rw [hd] at hw
      cases hw
      rw [writeU32_eq, encInt_length]
  · exact hint .i32 rfl rfl
  · exact hint .i16 rfl rfl
  · refine ⟨4, _, rfl, rfl, fun bo d bs hw => ?_⟩
    cases hw
    rw [writeIeeeFloat, writeU32_eq, encInt_length]
  · refine ⟨8, _, rfl, rfl, fun bo d bs hw => ?_⟩
    cases hw
    rw [writeIeeeDouble, writeU64_eq, encInt_length]
  · exact hint .i24 rfl rfl
  · exact hint .i8 rfl rfl
  · exact hint .i64 rfl rfl
  · exact hint .u32 rfl rfl
  · exact hint .u16 rfl rfl
  · exact hint .u64 rfl rfl
  · exact hint .u24 rfl rfl
  · exact hint .u8 rfl rfl

theorem toU_word {n : Nat} {k : Nat} (h : k < 256 ^ n) : toU n (k : Int) = k := toU_of_nat_lt h

theorem ieee_double_rt (bo : ByteOrder) (d : Dbl) (rest : Bytes) :
    readIeeeDouble bo (writeIeeeDouble bo d ++ rest) = .ok (d, rest) := by
  unfold readIeeeDouble writeIeeeDouble
  rw [writeU64_eq, readU64_eq, rd_bind, rdNat_encInt, toU_word (n := 8) (k := d.toNat) (by
    have := d.isLt; exact this)]
  simp [rd_pure]

theorem ieee_float_rt (bo : ByteOrder) (d : Dbl) (rest : Bytes) :
    readIeeeFloat bo (writeIeeeFloat bo d ++ rest) = .ok (sglToDbl (dblToSgl d), rest) := by
  unfold readIeeeFloat writeIeeeFloat
  rw [writeU32_eq, readU32_eq, rd_bind, rdNat_encInt, toU_word (n := 4) (k := (dblToSgl d).toNat) (by
    have := (dblToSgl d).isLt; exact this)]
  simp [rd_pure]

/-! ## Rounding to single is nearest-even -/

theorem toSgl_val_of_fin {s : Bool} {m : Nat} {e : Int} :
    (toSgl (.fin s m e)).toNat = (if s then 2 ^ 31 else 0) + encMag f32 m e := by
  have hlt : encF f32 (.fin s m e) < 2 ^ 32 := encF_lt f32 (by decide) _
  unfold toSgl
  rw [BitVec.toNat_ofNat, Nat.mod_eq_of_lt hlt]
  rfl

theorem sglRat_bounds {y : Sgl} {w : ℚ} (h : sglRat y = some w) :
    ∃ (s : Bool) (n : Nat) (g : Int), n < 2 ^ 24 ∧ (-149 : Int) ≤ g ∧ w = (if s then -1 else 1) * ((n : ℚ) * 2 ^ g) := by
  unfold sglRat ratOf at h
  split at h
  · rename_i s n g hv
    obtain ⟨b1, b2, _⟩ := sgl_fin_bounds hv
    simp only [Option.some.injEq] at h
    exact ⟨s, n, g, b1, b2, by rw [← h]; cases s <;> simp⟩
  · cases h

/-- Value of the rounded single when it did not overflow. -/
theorem sglRat_toSgl {s : Bool} {m : Nat} {e : Int} {v : ℚ} (h : sglRat (toSgl (.fin s m e)) = some v) :
    encMag f32 m e < f32.infMag ∧
    v = (if s then -1 else 1) * (((decMag f32 (encMag f32 m e)).1 : ℚ) * 2 ^ (decMag f32 (encMag f32 m e)).2) := by
  have hinf : f32.infMag = 2139095040 := by decide
  have hle : encMag f32 m e ≤ f32.infMag := by
    by_cases h0 : m = 0
    · subst h0; rw [encMag_zero]; exact Nat.zero_le _
    · rw [encMag_raw f32 e h0]; exact Nat.min_le_right _ _
  unfold sglRat Sgl.val decF at h
  rw [toSgl_val_of_fin] at h
  have hS : 2 ^ (f32.p - 1 + f32.ebits) = 2 ^ 31 := by decide
  simp only [hS] at h
  have hmod : ((if s then 2 ^ 31 else 0) + encMag f32 m e) % 2 ^ 31 = encMag f32 m e := by
    cases s
    · simp only [Bool.false_eq_true, if_false]; omega
    · simp only [if_true]; omega
  have hs : decide (2 ^ 31 ≤ (if s then 2 ^ 31 else 0) + encMag f32 m e) = s := by
    cases s
    · apply decide_eq_false
      simp only [Bool.false_eq_true, if_false]; omega
    · apply decide_eq_true
      simp only [if_true]; omega
  rw [hmod, hs] at h
  split at h
  · rename_i hlt
    refine ⟨hlt, ?_⟩
    simp only [ratOf, Option.some.injEq] at h
    rw [← h]; cases s <;> simp
  · split at h <;> simp [ratOf] at h

theorem abs_sign (s : Bool) (a b : ℚ) :
    |(if s then -1 else 1) * a - (if s then -1 else 1) * b| = |a - b| := by
  cases s
  · simp
  · simp only [if_true]
    rw [← mul_sub, abs_mul]; simp

theorem toSgl_nearest {s : Bool} {m : Nat} {e : Int} {v w : ℚ} {y : Sgl}
    (hv : sglRat (toSgl (.fin s m e)) = some v) (hy : sglRat y = some w) :
    |(if s then -1 else 1) * ((m : ℚ) * 2 ^ e) - v| ≤ |(if s then -1 else 1) * ((m : ℚ) * 2 ^ e) - w| ∧
    (|(if s then -1 else 1) * ((m : ℚ) * 2 ^ e) - v| = |(if s then -1 else 1) * ((m : ℚ) * 2 ^ e) - w| →
      w ≠ v → (toSgl (.fin s m e)).toNat % 2 = 0) := by
  obtain ⟨hov, hval⟩ := sglRat_toSgl hv
  obtain ⟨t, n, g, hn, hg, hw⟩ := sglRat_bounds hy
  rw [toSgl_val_of_fin]
  have hpar : encMag f32 m e % 2 = 0 → ((if s then 2 ^ 31 else 0) + encMag f32 m e) % 2 = 0 := by
    intro h; cases s
    · simpa using h
    · simp only [if_true]; omega
  by_cases h0 : m = 0
  · subst h0
    rw [encMag_zero] at hval
    have hv0 : v = 0 := by
      rw [hval]
      have : (decMag f32 0).1 = 0 := by decide
      rw [this]; simp
    subst hv0
    simp only [Nat.cast_zero, zero_mul, mul_zero, sub_zero, abs_zero, zero_sub, abs_neg]
    refine ⟨abs_nonneg _, fun h hne => ?_⟩
    exact absurd (abs_eq_zero.mp h.symm) hne
  · obtain ⟨hr, _⟩ := decMag_encMag_round f32_ok h0 hov
    rw [hr] at hval
    -- same sign or opposite sign
    have hsame : ∀ (n : Nat) (g : Int), n < 2 ^ 24 → (-149 : Int) ≤ g → _ :=
      fun n g hn hg => nearest_mag f32_ok h0 hov (n := n) (g := g) hn hg
    rw [hval]
    rw [abs_sign]
    by_cases hst : t = s
    · subst hst
      rw [hw, abs_sign]
      obtain ⟨h1, h2⟩ := hsame n g hn hg
      refine ⟨h1, fun h hne => hpar (h2 h ?_)⟩
      intro he; apply hne; rw [he]
    · obtain ⟨h1, h2⟩ := hsame 0 (-149) (by decide) (by decide)
      simp only [Nat.cast_zero, zero_mul, sub_zero] at h1 h2
      have hx : (0 : ℚ) ≤ (m : ℚ) * 2 ^ e := by positivity
      have hn0 : (0 : ℚ) ≤ (n : ℚ) * 2 ^ g := by positivity
      have hopp : |(if s then -1 else 1) * ((m : ℚ) * 2 ^ e) - w| = (m : ℚ) * 2 ^ e + (n : ℚ) * 2 ^ g := by
        rw [hw]
        have e1 : (if t then (-1 : ℚ) else 1) = -(if s then (-1 : ℚ) else 1) := by
          cases s <;> cases t <;> simp_all
        rw [e1]
        have e2 : (if s then (-1 : ℚ) else 1) * ((m : ℚ) * 2 ^ e) -
            -(if s then (-1 : ℚ) else 1) * ((n : ℚ) * 2 ^ g)
            = (if s then (-1 : ℚ) else 1) * ((m : ℚ) * 2 ^ e + (n : ℚ) * 2 ^ g) := by ring
        rw [e2, abs_mul, abs_of_nonneg (add_nonneg hx hn0)]
        cases s <;> simp
      rw [hopp]
      rw [abs_of_nonneg hx] at h1 h2
      refine ⟨by linarith, fun h hne => ?_⟩
      have hz : (n : ℚ) * 2 ^ g = 0 := by linarith
      apply hpar
      apply h2
      · linarith
      · intro h00
        apply hne
        rw [hw, hz, ← h00]; simp

theorem sglRat_of_lt {s : Bool} {m : Nat} {e : Int} (h : encMag f32 m e < f32.infMag) :
    ∃ v, sglRat (toSgl (.fin s m e)) = some v := by
  have hinf : f32.infMag = 2139095040 := by decide
  unfold sglRat Sgl.val decF
  rw [toSgl_val_of_fin]
  have hS : 2 ^ (f32.p - 1 + f32.ebits) = 2 ^ 31 := by decide
  simp only [hS]
  have hmod : ((if s then 2 ^ 31 else 0) + encMag f32 m e) % 2 ^ 31 = encMag f32 m e := by
    cases s
    · simp only [Bool.false_eq_true, if_false]; omega
    · simp only [if_true]; omega
  rw [hmod, if_pos h]
  exact ⟨_, rfl⟩

end Sedaman
