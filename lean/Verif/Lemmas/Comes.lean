import Verif.Spec.SEGY
import Verif.Lemmas.SampleFmt
import Verif.Lemmas.TraceHdr

/-!
# Values that are written in a format and read back
-/

namespace Sedaman

open Spec

/-- Whatever a writer of a supported format produces can be read back. -/
theorem comes_of_write {est : LogEst} {fmt : Int} {bo : ByteOrder} {w : ByteOrder → Dbl → Out Bytes}
    (hf : fmt ∈ supportedFormats) (hw : sampleWriter est fmt = .ok w) {x : Dbl} {bs : Bytes}
    (hb : w bo x = .ok bs) : ∃ y, ComesBack est fmt bo x y := by
  obtain ⟨n, r, h1, h2, h3⟩ := reader_shape hf
  obtain ⟨v, hv⟩ := h3 bo
  obtain ⟨n', w', g1, g2, g3⟩ := writer_shape est hf
  rw [hw] at g2
  have e := Except.ok.inj g2
  subst e
  rw [h1] at g1
  have e := Option.some.inj g1
  subst e
  have hl := g3 bo x bs hb
  refine ⟨v bs, w, r, bs, hw, h2, hb, fun rest => ?_⟩
  rw [hv, if_pos (by rw [List.length_append]; omega), List.take_left' hl, List.drop_left' hl]

theorem comes_unique {est : LogEst} {fmt : Int} {bo : ByteOrder} {x y z : Dbl} (h : ComesBack est fmt bo x y)
    (h' : ComesBack est fmt bo x z) : y = z := by
  obtain ⟨w, r, bs, h1, h2, h3, h4⟩ := h
  obtain ⟨w', r', bs', g1, g2, g3, g4⟩ := h'
  rw [h1] at g1
  rw [h2] at g2
  have e := Except.ok.inj g1
  subst e
  have e := Except.ok.inj g2
  subst e
  rw [h3] at g3
  have e := Except.ok.inj g3
  subst e
  have := (h4 []).symm.trans (g4 [])
  have := Except.ok.inj this
  simp only [Prod.mk.injEq, and_true] at this
  exact this

/-- Samples that survive are the same after reading. -/
theorem samples_same {est : LogEst} {fmt : Int} {bo : ByteOrder} {xs ys : List Dbl}
    (h : List.Forall₂ (ComesBack est fmt bo) xs ys) (hs : ∀ x ∈ xs, Survives est fmt bo x) : ys = xs := by
  induction h with
  | nil => rfl
  | cons a _ ih =>
    rw [comes_unique a (hs _ List.mem_cons_self), ih fun x hx => hs x (List.mem_cons_of_mem _ hx)]

theorem fieldBytes_total {est : LogEst} {bo : ByteOrder} {ty : VType} {v : Int}
    (h : FieldStorable est bo ty v) : ∃ bs, fieldBytes est bo ty v = .ok bs := by
  cases ty
  case ibm =>
    obtain ⟨y, w, r, bs, h1, -, h3, -⟩ := h rfl
    have e := Except.ok.inj h1
    subst e
    exact ⟨bs, h3⟩
  all_goals exact ⟨_, rfl⟩

/-- The conversion of a 64-bit integer to `float` gives the nearest single. -/
theorem sglOfInt_nearest {v : Int} (h1 : -2 ^ 63 ≤ v) (h2 : v < 2 ^ 63) : NearestSingle v (sglOfInt v) := by
  have hle : v.natAbs ≤ 2 ^ 63 := by omega
  have hov : encMag f32 v.natAbs 0 < f32.infMag := by
    apply encMag_no_overflow f32_ok (by decide)
    have e1 : f32.emin + ((2 ^ f32.ebits : Nat) : Int) - 3 = 104 := by decide
    rw [e1, zpow_zero, mul_one]
    have e2 : (v.natAbs : ℚ) ≤ 2 ^ 63 := by exact_mod_cast hle
    have e3 : ((2 : ℚ) ^ f32.p - 1 / 2) * 2 ^ (104 : Int) > 2 ^ 63 := by
      have : f32.p = 24 := rfl
      rw [this]; norm_num
    linarith
  obtain ⟨x, hx⟩ := sglRat_of_lt (s := decide (v < 0)) hov
  refine ⟨x, hx, fun u y hy => ?_⟩
  have e : (v : ℚ) = (if decide (v < 0) then -1 else 1) * ((v.natAbs : ℚ) * 2 ^ (0 : Int)) := by
    rw [zpow_zero, mul_one]
    have hc : ((v.natAbs : Int) : ℚ) = (v.natAbs : ℚ) := Int.cast_natCast _
    rcases Int.lt_or_le v 0 with h | h
    · have : (v.natAbs : Int) = -v := by omega
      rw [← hc, this]; simp [h]
    · have : (v.natAbs : Int) = v := by omega
      rw [← hc, this]; simp [Int.not_lt.2 h]
  rw [e]
  exact toSgl_nearest hx hy

/-- A floating point field is read back as its value comes back in the format of the field. -/
theorem float_field_rt {est : LogEst} {bo : ByteOrder} {ty : VType} {fmt : Int} (hf : floatFormat ty = some fmt)
    {v : Int} {bs : Bytes} (hb : fieldBytes est bo ty v = .ok bs) :
    ∃ y, FloatBack est bo ty v y ∧ ∀ rest, readField bo ty (bs ++ rest) = .ok (.dbl y, rest) := by
  have key : ∀ fmt, fmt ∈ supportedFormats → ∀ w r, sampleWriter est fmt = .ok w → sampleReader fmt = .ok r →
      w bo (dblOfInt v) = .ok bs → (∀ buf, readField bo ty buf =
        (r bo >>= fun y => (pure (.dbl y) : Rd Value)) buf) →
      ∃ y, ComesBack est fmt bo (dblOfInt v) y ∧ ∀ rest, readField bo ty (bs ++ rest) = .ok (.dbl y, rest) := by
    intro fmt hs w r hw hr hwb hrd
    obtain ⟨y, hy⟩ := comes_of_write hs hw hwb
    refine ⟨y, hy, fun rest => ?_⟩
    obtain ⟨w', r', bs', g1, g2, g3, g4⟩ := hy
    rw [hw] at g1
    rw [hr] at g2
    have e := Except.ok.inj g1
    subst e
    have e := Except.ok.inj g2
    subst e
    rw [hwb] at g3
    have e := Except.ok.inj g3
    subst e
    rw [hrd, rd_bind, g4]
    rfl
  cases ty <;> simp only [floatFormat, Option.some.injEq, reduceCtorEq] at hf <;> subst hf
  · obtain ⟨y, h1, h2⟩ := key 1 (by decide) _ _ rfl rfl hb fun _ => rfl
    exact ⟨y, ⟨1, rfl, h1⟩, h2⟩
  · refine ⟨sglToDbl (sglOfInt v), ⟨_, rfl, sglOfInt_nearest⟩, fun rest => ?_⟩
    have e := Except.ok.inj hb
    rw [← e]
    show (readIeeeFloat bo >>= fun y => (pure (.dbl y) : Rd Value)) _ = _
    rw [rd_bind]
    unfold readIeeeFloat
    rw [writeU32_eq, readU32_eq, rd_bind, rdNat_encInt, toU_word (n := 4) (k := (sglOfInt v).toNat) (by
      have := (sglOfInt v).isLt; exact this)]
    simp [rd_pure, ok_bind]
  · obtain ⟨y, h1, h2⟩ := key 6 (by decide) _ _ rfl rfl hb fun _ => rfl
    exact ⟨y, ⟨6, rfl, h1⟩, h2⟩

end Sedaman
