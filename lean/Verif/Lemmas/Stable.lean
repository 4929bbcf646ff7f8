import Verif.Spec.Stable
import Verif.Lemmas.Copy12
import Verif.Lemmas.Platform

/-!
# Writing what was read from a written file
-/

namespace Sedaman

open Spec

/-- The bytes of the samples that were read. -/
theorem encoded_back {est : LogEst} {fmt : Int} {bo : ByteOrder} {xs ys : List Dbl} {ps : List Bytes}
    (h : List.Forall₂ (ComesBack est fmt bo) xs ys) (hs : ∀ x ∈ xs, Stable est fmt bo x)
    (hp : EncodedBy est fmt bo xs ps) : EncodedBy est fmt bo ys ps := by
  obtain ⟨enc, he, hp⟩ := hp
  refine ⟨enc, he, ?_⟩
  induction h generalizing ps with
  | nil => cases hp; exact .nil
  | @cons x y xs ys a _ ih =>
    cases hp with
    | cons b c =>
      refine .cons ?_ (ih (fun z hz => hs z (List.mem_cons_of_mem _ hz)) c)
      obtain ⟨w, bs, s1, s2, w', r, z, s3, s4, s5, s6⟩ := hs x List.mem_cons_self
      rw [he] at s1 s3
      have e1 := Except.ok.inj s1
      subst e1
      have e3 := Except.ok.inj s3
      subst e3
      rw [b] at s2
      have e2 := Except.ok.inj s2
      subst e2
      have : y = z := comes_unique a ⟨enc, r, _, he, s4, b, s5⟩
      rw [this]
      exact s6

/-- A sample that was read can be written. -/
theorem comes_back_again {est : LogEst} {fmt : Int} {bo : ByteOrder} {x y : Dbl} (hs : Stable est fmt bo x)
    (h : ComesBack est fmt bo x y) : Survives est fmt bo y := by
  obtain ⟨w, bs, s1, s2, w', r, z, s3, s4, s5, s6⟩ := hs
  have : y = z := comes_unique h ⟨w, r, bs, s1, s4, s2, s5⟩
  subst this
  exact ⟨w', r, bs, s3, s4, s6, s5⟩

theorem stable_comes {est : LogEst} {fmt : Int} {bo : ByteOrder} {x : Dbl} (hs : Stable est fmt bo x) :
    ∃ y, ComesBack est fmt bo x y := by
  obtain ⟨w, bs, s1, s2, w', r, z, s3, s4, s5, s6⟩ := hs
  exact ⟨z, w, r, bs, s1, s4, s2, s5⟩

theorem chunk_again {est : LogEst} {bo : ByteOrder} {fmt : Int} {fields : List HField} {t back : Trace} {c : Bytes}
    (hk : ∀ f ∈ fields, ∃ k, intKind f.ty = some k) (hi : ∀ f ∈ fields, ∃ v, headerInt t.header f.name v)
    (hb : TraceBack est fmt bo fields t back) (hsv : ∀ x ∈ t.samples, Stable est fmt bo x)
    (h : Chunk est bo fmt fields t c) : Chunk est bo fmt fields back c := by
  obtain ⟨a, ps, a1, a2, rfl⟩ := h
  exact ⟨a, ps, by rw [block_back hk hi hb.2]; exact a1, encoded_back hb.1 hsv a2, rfl⟩

theorem chunks_again {est : LogEst} {bo : ByteOrder} {fmt : Int} {fields : List HField} {ts backs : List Trace}
    {cs : List Bytes} (hk : ∀ f ∈ fields, ∃ k, intKind f.ty = some k)
    (hi : ∀ t ∈ ts, ∀ f ∈ fields, ∃ v, headerInt t.header f.name v)
    (hb : List.Forall₂ (TraceBack est fmt bo fields) ts backs)
    (hsv : ∀ t ∈ ts, ∀ x ∈ t.samples, Stable est fmt bo x)
    (h : List.Forall₂ (Chunk est bo fmt fields) ts cs) :
    List.Forall₂ (Chunk est bo fmt fields) backs cs := by
  induction hb generalizing cs with
  | nil => cases h; exact .nil
  | cons a _ ih =>
    cases h with
    | cons b c =>
      exact .cons (chunk_again hk (hi _ List.mem_cons_self) a (hsv _ List.mem_cons_self) b)
        (ih (fun t ht => hi t (List.mem_cons_of_mem _ ht)) (fun t ht => hsv t (List.mem_cons_of_mem _ ht)) c)

/-- A trace that was read can be stored. -/
theorem storable_again {est : LogEst} {fmt : Int} {bo : ByteOrder} {fields : List HField} {t back : Trace}
    (hk : ∀ f ∈ fields, ∃ k, intKind f.ty = some k) (hs : Storable est fmt bo fields t)
    (hb : TraceBack est fmt bo fields t back) (hsv : ∀ x ∈ t.samples, Stable est fmt bo x) :
    Storable est fmt bo fields back := by
  refine ⟨?_, ?_, by rw [← hb.1.length_eq]; exact hs.size⟩
  · intro f hf
    obtain ⟨k, hk⟩ := hk f hf
    obtain ⟨v, hv, -⟩ := hs.ints f hf
    obtain ⟨r, -, h2⟩ := hb.2.2.1 f hf k hk v hv
    exact ⟨r, .inl h2, fun c => by rw [c] at hk; cases hk⟩
  · intro y hy
    obtain ⟨x, hx, h⟩ := forall₂_mem_right hb.1 hy
    exact ⟨y, comes_back_again (hsv x hx) h⟩

/-- The length of a trace that was read is known like that of the trace that was written. -/
theorem length_again {est : LogEst} {bh : BinHeader} {fmt : Int} {bo : ByteOrder} {fields : List HField} {t back : Trace}
    (hl : LengthKnown bh fields t) (hb : TraceBack est fmt bo fields t back) : LengthKnown bh fields back := by
  have e := hb.1.length_eq
  unfold LengthKnown at hl ⊢
  rw [← e]
  split at hl
  · rename_i hf
    rw [if_pos hf]
    exact hl
  · rename_i hf
    rw [if_neg hf]
    obtain ⟨h1, f, hf, hn, k, hk, hr⟩ := hl
    refine ⟨?_, f, hf, hn, k, hk, hr⟩
    obtain ⟨r, g1, g2⟩ := hb.2.2.1 f hf k hk t.samples.length (by rw [hn]; exact .inl h1)
    rw [hn] at g2
    rw [g2]
    have : r = t.samples.length := by
      obtain ⟨c1, c2⟩ := g1
      clear hb g2 hk h1 e
      cases k <;> simp only [IntKind.InRange, IntKind.signed, IntKind.size, reduceCtorEq, if_false, if_true] at * <;>
        norm_num at * <;> omega
    rw [this]

/-- Traces that can be stored are stored as some bytes. -/
theorem chunks_exist {est : LogEst} {bo : ByteOrder} {fmt : Int} {fields : List HField} (hs : SafeFields fields)
    (hf : fmt ∈ supportedFormats) {ts : List Trace} (h : ∀ t ∈ ts, Storable est fmt bo fields t) :
    ∃ cs, List.Forall₂ (Chunk est bo fmt fields) ts cs := by
  obtain ⟨_, w, -, hw, -⟩ := writer_shape est hf
  have hx : ∀ xs : List Dbl, (∀ x ∈ xs, ∃ y, ComesBack est fmt bo x y) →
      ∃ ps, List.Forall₂ (fun x p => w bo x = .ok p) xs ps := by
    intro xs
    induction xs with
    | nil => exact fun _ => ⟨[], .nil⟩
    | cons x xs ih =>
      intro hh
      obtain ⟨ps, h1⟩ := ih fun y hy => hh y (List.mem_cons_of_mem _ hy)
      obtain ⟨y, w', r, bs, g1, g2, g3, g4⟩ := hh x List.mem_cons_self
      rw [hw] at g1
      have e := Except.ok.inj g1
      subst e
      exact ⟨bs :: ps, .cons g3 h1⟩
  induction ts with
  | nil => exact ⟨[], .nil⟩
  | cons t ts ih =>
    obtain ⟨cs, h1⟩ := ih fun u hu => h u (List.mem_cons_of_mem _ hu)
    have ht := h t List.mem_cons_self
    obtain ⟨out, ho⟩ := Props.C15_write_succeeds est bo fields t.header (List.replicate 240 0)
      (by rw [List.length_replicate]) hs ht.ints
    obtain ⟨ps, hp⟩ := hx t.samples ht.samples
    exact ⟨(out ++ ps.flatten) :: cs, .cons ⟨out, ps, ho, ⟨w, hw, hp⟩, rfl⟩ h1⟩

theorem toSgl_not_nan {v : FVal} (h : v.isNan = false) : (toSgl v).val.isNan = false := by
  cases v with
  | nan => cases h
  | inf s => rw [val_inf.2]; rfl
  | fin s m e =>
    unfold toSgl Sgl.val
    rw [BitVec.toNat_ofNat, Nat.mod_eq_of_lt (by
      have := encF_lt f32 (by decide) (.fin s m e)
      rw [f32_bits] at this
      exact this)]
    rcases Nat.lt_or_ge (encMag f32 m e) f32.infMag with h | h
    · rw [decF_encF_fin _ _ _ _ h]; rfl
    · have : encMag f32 m e = f32.infMag := Nat.le_antisymm (encMag_le _ _ _) h
      have : encF f32 (.fin s m e) = encF f32 (.inf s) := by
        simp only [encF, this]
      rw [this]
      cases s <;> decide +kernel

/-- A number rounded to `float` is not rounded again. -/
theorem single_again (x : Dbl) : dblToSgl (sglToDbl (dblToSgl x)) = dblToSgl x := by
  cases h : x.val.isNan with
  | false => exact dblToSgl_sglToDbl (toSgl_not_nan h)
  | true =>
    have : x.val = .nan := by
      cases hv : x.val <;> rw [hv] at h <;> first | rfl | cases h
    unfold dblToSgl
    rw [this]
    decide +kernel

theorem truncates_cast (v : Int) : Truncates (v : ℚ) v :=
  ⟨fun _ => ⟨le_refl _, by linarith⟩, fun _ => ⟨by linarith, le_refl _⟩⟩

/-- What the writer of an integer format does with a number whose integer part is in the range. -/
theorem write_kept {est : LogEst} {k : IntKind} {bo : ByteOrder} {d : Dbl} {x : ℚ} {v : Int} (hs : 0 ≤ v ∨ WrapsNegative est)
    (hd : dblRat d = some x) (hv : Truncates x v) (hr : k.InRange v) :
    ∃ u, est.toU (paramSize k) d = .ok u ∧ k.write bo u = k.write bo v := by
  rcases hs with h0 | hw
  · have hlo : v < ((256 ^ paramSize k : Nat) : Int) := by
      unfold IntKind.InRange at hr
      cases k <;> simp only [IntKind.signed, IntKind.size, paramSize] at hr ⊢ <;> norm_num at hr ⊢ <;> omega
    exact ⟨v, toU_rat hd hv h0 hlo, rfl⟩
  · exact write_wraps hw hd hv hr

/-- The integer part of a `double` is a `double`. -/
theorem int_part_exact {d : Dbl} {x : ℚ} {v : Int} (hd : dblRat d = some x) (hv : Truncates x v) :
    dblRat (dblOfInt v) = some (v : ℚ) := by
  rcases Nat.lt_or_ge (2 ^ 53) v.natAbs with h | h
  · have hx : x = v := by
      have hd' := hd
      unfold dblRat ratOf at hd'
      split at hd'
      · rename_i s m e hval
        obtain ⟨hm, -, -⟩ := dbl_fin_bounds hval
        simp only [Option.some.injEq] at hd'
        rcases Int.lt_or_le e 0 with he | he
        · exfalso
          have h1 : |x| < 2 ^ 53 := by
            rw [← hd', abs_mul, abs_mul]
            have h1 : |(if s then (-1 : ℚ) else 1)| = 1 := by cases s <;> simp
            have h2 : (2 : ℚ) ^ e ≤ 1 := zpow_le_one_of_nonpos₀ (by norm_num) (by omega)
            have h3 : (0 : ℚ) < 2 ^ e := by positivity
            have h4 : (m : ℚ) < 2 ^ 53 := by exact_mod_cast hm
            rw [h1, one_mul, abs_of_nonneg (by positivity), abs_of_pos h3]
            nlinarith [(Nat.cast_nonneg m : (0 : ℚ) ≤ m)]
          have h2 : |(v : ℚ)| ≤ |x| := by
            rcases le_total 0 x with hx | hx
            · have := hv.1 hx
              have h0 : (0 : ℚ) ≤ v := by
                have : (-1 : ℚ) < v := by linarith
                have : (-1 : Int) < v := by exact_mod_cast this
                have : 0 ≤ v := by omega
                exact_mod_cast this
              rw [abs_of_nonneg h0, abs_of_nonneg hx]; exact this.1
            · have := hv.2 hx
              have h0 : (v : ℚ) ≤ 0 := by
                have : (v : ℚ) < 1 := by linarith
                have : v < 1 := by exact_mod_cast this
                have : v ≤ 0 := by omega
                exact_mod_cast this
              rw [abs_of_nonpos h0, abs_of_nonpos hx]; linarith
          have h3 : ((2 ^ 53 : Nat) : ℚ) < |(v : ℚ)| := by
            rw [← Int.cast_abs, ← Int.natCast_natAbs, Int.cast_natCast]
            exact_mod_cast h
          push_cast at h3
          linarith
        · have : x = (((if s then (-1 : Int) else 1) * m * 2 ^ e.toNat : Int) : ℚ) := by
            rw [← hd']
            push_cast
            rw [← zpow_natCast, Int.toNat_of_nonneg he]
          rw [this] at hv ⊢
          rw [truncates_unique hv (truncates_cast _)]
      · cases hd'
    subst hx
    have hz : d ≠ 0x8000000000000000 := by
      rintro rfl
      have : dblRat 0x8000000000000000 = some 0 := by decide +kernel
      rw [this] at hd
      have := Option.some.inj hd
      have : v = 0 := by exact_mod_cast this.symm
      subst this
      simp at h
    rw [← (dbl_of_int_value hd hz).1]
    exact hd
  · exact dblRat_ofInt h

theorem dblAbs_rat {d : Dbl} {x : ℚ} (hd : dblRat d = some x) : dblRat (dblAbs d) = some |x| := by
  unfold dblRat ratOf at hd
  split at hd
  · rename_i s m e hv
    rw [(dblAbs_is (d := d) (s := s) (n := m) (g := e) ⟨m, e, hv, rfl⟩).rat]
    simp only [Option.some.injEq] at hd
    rw [← hd, abs_mul, abs_mul]
    have h1 : |(if s then (-1 : ℚ) else 1)| = 1 := by cases s <;> simp
    rw [h1, abs_of_nonneg (by positivity : (0 : ℚ) ≤ m), abs_of_pos (by positivity : (0 : ℚ) < 2 ^ e)]
    simp
  · cases hd

theorem ibm_normalised_large {w : Nat} (h : ibmNormalised w) : (16 : ℚ) ^ (-65 : Int) ≤ |ibmValue w| := by
  unfold ibmValue
  rw [abs_mul, abs_mul]
  have h1 : |(if 2 ^ 31 ≤ w then (-1 : ℚ) else 1)| = 1 := by split <;> simp
  rw [h1, one_mul, abs_of_nonneg (by positivity), abs_of_pos (by positivity)]
  have h2 : (16 : ℚ) ^ (5 : Int) ≤ ((w % 2 ^ 24 : Nat) : ℚ) := by
    have : ((2 ^ 20 : Nat) : ℚ) ≤ ((w % 2 ^ 24 : Nat) : ℚ) := by exact_mod_cast h
    refine le_trans ?_ this
    norm_num
  have h3 : (16 : ℚ) ^ (-70 : Int) ≤ (16 : ℚ) ^ (((w / 2 ^ 24 % 128 : Nat) : Int) - 70) :=
    zpow_le_zpow_right₀ (by norm_num) (by omega)
  calc (16 : ℚ) ^ (-65 : Int) = 16 ^ (5 : Int) * 16 ^ (-70 : Int) := by rw [← zpow_add₀ (by norm_num)]; norm_num
    _ ≤ _ := mul_le_mul h2 h3 (by positivity) (by positivity)

theorem backs_again {est : LogEst} {bh : BinHeader} {fields : List HField} {ts backs : List Trace}
    {cs : List Bytes} {bo : ByteOrder} (hint : ∀ f ∈ fields, ∃ k, intKind f.ty = some k)
    (h1 : List.Forall₂ (Chunk est bo bh.formatCode fields) ts cs)
    (h2 : ∀ t ∈ ts, Storable est bh.formatCode bo fields t ∧ LengthKnown bh fields t)
    (hst : ∀ t ∈ ts, ∀ x ∈ t.samples, Stable est bh.formatCode bo x)
    (h3 : List.Forall₂ (TraceBack est bh.formatCode bo fields) ts backs) :
    (∀ t ∈ backs, Storable est bh.formatCode bo fields t ∧ LengthKnown bh fields t) ∧
      List.Forall₂ (Chunk est bo bh.formatCode fields) backs cs := by
  refine ⟨fun t ht => ?_, ?_⟩
  · obtain ⟨o, ho, hb⟩ := forall₂_mem_right h3 ht
    obtain ⟨a1, a2⟩ := h2 o ho
    exact ⟨storable_again hint a1 hb (hst o ho), length_again a2 hb⟩
  · exact chunks_again hint (fun t ht f hf => ((h2 t ht).1.ints f hf).imp fun _ h => h.1) h3 hst h1

end Sedaman
