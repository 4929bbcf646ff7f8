import Verif.Spec.SegdPacked
import Verif.Lemmas.SegdSample
import Verif.Lemmas.Ibm

/-!
# SEG-D samples with packed exponents: lemmas
-/

namespace Sedaman

open Spec

theorem abs_rat {d : Dbl} {x : ℚ} (h : dblRat d = some x) : dblRat (dblAbs d) = some |x| := by
  unfold dblRat at h
  cases hv : d.val with
  | nan => rw [hv] at h; simp [ratOf] at h
  | inf s => rw [hv] at h; simp [ratOf] at h
  | fin s m e =>
    rw [hv] at h
    have ha := dblAbs_is (d := d) ⟨m, e, hv, rfl⟩
    rw [ha.rat]
    simp only [ratOf, Option.some.injEq] at h
    subst h
    have hp : (0 : ℚ) ≤ (m : ℚ) * 2 ^ e := by positivity
    cases s <;> simp [abs_mul, abs_of_nonneg hp] <;> exact (abs_of_pos (by positivity)).symm

theorem val_of_rat {d : Dbl} {x : ℚ} (h : dblRat d = some x) :
    ∃ s m e, d.val = .fin s m e ∧ x = (if s then -1 else 1) * ((m : ℚ) * 2 ^ e) := by
  unfold dblRat at h
  cases hv : d.val with
  | nan => rw [hv] at h; simp [ratOf] at h
  | inf s => rw [hv] at h; simp [ratOf] at h
  | fin s m e =>
    rw [hv] at h
    simp only [ratOf, Option.some.injEq] at h
    exact ⟨s, m, e, rfl, by rw [← h, mul_assoc]⟩

/-- Sign of the stored word. -/
theorem dblNeg_rat {d : Dbl} {x : ℚ} (h : dblRat d = some x) (hx : x ≠ 0) : dblNeg d = decide (x < 0) := by
  obtain ⟨s, m, e, hv, rfl⟩ := val_of_rat h
  have hm : m ≠ 0 := by rintro rfl; simp at hx
  rw [dblNeg_is (n := m) (g := e) ⟨m, e, hv, rfl⟩ hm]
  have hp : (0 : ℚ) < (m : ℚ) * 2 ^ e := by
    have : (0 : ℚ) < m := by exact_mod_cast Nat.pos_of_ne_zero hm
    positivity
  cases s
  · simp [hp.le]
  · simp only [if_true]; symm; exact decide_eq_true (by linarith)

theorem packExp_ok {est : Dbl → Int} {a : Dbl} {r : ℚ} (h : dblRat a = some r) (hr : 0 < r) {n bits : Nat}
    (h0 : 0 ≤ est a) (h1 : est a < 256 ^ n) : packExp est n bits a = .ok ((est a).toNat % 2 ^ bits) := by
  obtain ⟨s, m, e, hv, rfl⟩ := val_of_rat h
  have hm : m ≠ 0 := by rintro rfl; simp at hr
  unfold packExp
  rw [hv]
  simp only [if_neg hm, if_pos (show 0 ≤ est a ∧ est a < 256 ^ n from ⟨h0, h1⟩)]

theorem packExp_zero {est : Dbl → Int} {a : Dbl} (h : dblRat a = some 0) {n bits : Nat} :
    packExp est n bits a = isUb .floatToInt := by
  obtain ⟨s, m, e, hv, h0⟩ := val_of_rat h
  have hm : m = 0 := by
    by_contra hne
    have hp : (0 : ℚ) < (m : ℚ) * 2 ^ e := by
      have : (0 : ℚ) < m := by exact_mod_cast Nat.pos_of_ne_zero hne
      positivity
    cases s <;> simp at h0 <;> exact hne (by exact_mod_cast h0.resolve_right (by positivity))
  unfold packExp
  rw [hv]
  simp only [if_pos hm]

/-- The fraction field of a hexadecimal format: `|x| * 2^q / 16^t` without what follows the point. -/
theorem packHex_spec {est : Dbl → Int} {c q : Nat} {d : Dbl} {x : ℚ} (hd : dblRat d = some x) (hx : x ≠ 0)
    (hc : c ≤ 7) (hq : q ≤ 24) (t : Nat) (ht : est (dblAbs d) = t) (htc : t < 2 ^ c)
    (hlo : 0 < t → (1 : ℚ) ≤ |x|) (hhi : |x| < 16 ^ t) :
    ∃ F : Nat, F < 2 ^ q ∧ (F : ℚ) ≤ |x| * 2 ^ q / 16 ^ t ∧ |x| * 2 ^ q / 16 ^ t < F + 1 ∧
      packHex est c q d = .ok (if x < 0 then 1 else 0, t, F) := by
  have ht7 : t < 128 := lt_of_lt_of_le htc (Nat.pow_le_pow_right (by decide) hc)
  have hexp : packExp est 4 c (dblAbs d) = .ok t := by
    rw [packExp_ok (abs_rat hd) (abs_pos.mpr hx) (by omega) (by rw [ht]; norm_num; omega), ht,
      Int.toNat_natCast, Nat.mod_eq_of_lt htc]
  obtain ⟨s, m, e, hv, hxe⟩ := val_of_rat hd
  obtain ⟨b1, b2, b3⟩ := dbl_fin_bounds hv
  have hl := log2_lt_of_lt b1 (by decide)
  have hm : m ≠ 0 := by rintro rfl; simp at hxe; exact hx hxe
  have ha := dblAbs_is (d := d) ⟨m, e, hv, rfl⟩
  have hr := abs_rat hd
  rw [ha.rat] at hr
  simp only [Bool.false_eq_true, if_false, one_mul, Option.some.injEq] at hr
  have hmlt : (m : ℚ) < 2 ^ (53 : Int) := by
    have e53 : (2 : ℚ) ^ (53 : Int) = ((2 ^ 53 : Nat) : ℚ) := by norm_num
    rw [e53]
    exact Nat.cast_lt.mpr b1
  have h16 : (16 : ℚ) ^ t = 2 ^ (4 * (t : Int)) := by
    rw [← sixteen_zpow, zpow_natCast]
  have hlow : 0 < t → -53 < e := by
    intro h
    have : (2 : ℚ) ^ (0 : Int) < 2 ^ (53 + e) := by
      calc (2 : ℚ) ^ (0 : Int) ≤ m * 2 ^ e := by rw [hr]; simpa using hlo h
        _ < 2 ^ (53 : Int) * 2 ^ e := mul_lt_mul_of_pos_right hmlt (by positivity)
        _ = 2 ^ (53 + e) := (zpow_add₀ (by norm_num) _ _).symm
    have := (zpow_lt_zpow_iff_right₀ (by norm_num)).mp this
    omega
  have hlog2 : (m.log2 : Int) + e < 4 * t := by
    have h1 : ((2 ^ m.log2 : Nat) : ℚ) ≤ m := by exact_mod_cast (log2_bounds hm).1
    have : (2 : ℚ) ^ ((m.log2 : Int) + e) < 2 ^ (4 * (t : Int)) := by
      calc (2 : ℚ) ^ ((m.log2 : Int) + e) = 2 ^ (m.log2 : Int) * 2 ^ e := zpow_add₀ (by norm_num) _ _
        _ ≤ m * 2 ^ e := by
          apply mul_le_mul_of_nonneg_right _ (by positivity)
          rw [zpow_natCast]; exact_mod_cast h1
        _ < _ := by rw [hr, ← h16]; exact hhi
    exact (zpow_lt_zpow_iff_right₀ (by norm_num)).mp this
  have h1 : Is (ddivPow2 (dblAbs d) (4 * (t : Int))) false m (e + -(4 * (t : Int))) :=
    ha.scale (by omega) (by omega) b1 (by omega) (by omega)
  have h2 := h1.scale (k := (q : Int)) (by omega) (by omega) b1 (by omega) (by omega)
  obtain ⟨m', e', h4, h5⟩ := h2
  obtain ⟨F, h6, h7, h8⟩ := trunc_fin false m' e'
  have hval : (m' : ℚ) * 2 ^ e' = |x| * 2 ^ q / 16 ^ t := by
    rw [h5, ← hr, h16, zpow_add₀ (by norm_num), zpow_add₀ (by norm_num), zpow_neg, zpow_natCast]
    ring
  rw [hval] at h7 h8
  have hF : F < 2 ^ q := by
    have h16p : (0 : ℚ) < 16 ^ t := by positivity
    have : (F : ℚ) < 2 ^ q := lt_of_le_of_lt h7 (by
      rw [div_lt_iff₀ h16p, mul_comm]
      exact mul_lt_mul_of_pos_left hhi (by positivity))
    exact_mod_cast this
  have hF24 : F < 2 ^ 24 := lt_of_lt_of_le hF (Nat.pow_le_pow_right (by decide) hq)
  refine ⟨F, hF, h7, h8, ?_⟩
  have hu : dblToU 4 (dmul (ddivPow2 (dblAbs d) (4 * (t : Int))) (pow2 q)) = .ok (F : Int) := by
    unfold dblToU dblToInt
    rw [h4, h6]
    simp only [Bool.false_eq_true, if_false]
    rw [if_pos (by omega)]
  unfold packHex
  simp only [hexp, ok_bind, hu, pure_eq_ok, Int.toNat_natCast, Nat.mod_eq_of_lt hF, dblNeg_rat hd hx,
    decide_eq_true_eq]

/-- The word put together from its fields. -/
theorem packWord_eq {c q s e F : Nat} (he : e < 2 ^ c) (hF : F < 2 ^ q) :
    packWord c q (s, e, F) = s * 2 ^ (c + q) + e * 2 ^ q + F := by
  unfold packWord
  rw [Nat.or_assoc, shift_or hF]
  have : 2 ^ q * e + F < 2 ^ (c + q) := by
    rw [Nat.pow_add]
    calc 2 ^ q * e + F < 2 ^ q * e + 2 ^ q := by omega
      _ = 2 ^ q * (e + 1) := by ring
      _ ≤ 2 ^ q * 2 ^ c := Nat.mul_le_mul_left _ he
      _ = 2 ^ c * 2 ^ q := Nat.mul_comm _ _
  rw [shift_or this]
  ring

/-- The fields of a word. -/
theorem packWord_fields {c q s e F : Nat} (hs : s < 2) (he : e < 2 ^ c) (hF : F < 2 ^ q) :
    packWord c q (s, e, F) % 2 ^ q = F ∧ packWord c q (s, e, F) / 2 ^ q % 2 ^ c = e ∧
      packWord c q (s, e, F) / 2 ^ (c + q) % 2 = s ∧ packWord c q (s, e, F) < 2 ^ (1 + c + q) := by
  rw [packWord_eq he hF]
  have h1 : s * 2 ^ (c + q) + e * 2 ^ q + F = F + 2 ^ q * (e + 2 ^ c * s) := by rw [Nat.pow_add]; ring
  have hq : 0 < 2 ^ q := Nat.two_pow_pos q
  have hc : 0 < 2 ^ c := Nat.two_pow_pos c
  have hd : (F + 2 ^ q * (e + 2 ^ c * s)) / 2 ^ q = e + 2 ^ c * s := by
    rw [Nat.add_mul_div_left _ _ hq, Nat.div_eq_of_lt hF, Nat.zero_add]
  rw [h1]
  refine ⟨by rw [Nat.add_mul_mod_self_left, Nat.mod_eq_of_lt hF], ?_, ?_, ?_⟩
  · rw [hd, Nat.add_mul_mod_self_left, Nat.mod_eq_of_lt he]
  · rw [Nat.add_comm c q, Nat.pow_add, ← Nat.div_div_eq_div_mul, hd, Nat.add_mul_div_left _ _ hc,
      Nat.div_eq_of_lt he, Nat.zero_add, Nat.mod_eq_of_lt hs]
  · have : e + 2 ^ c * s < 2 * 2 ^ c := by
      have : 2 ^ c * s ≤ 2 ^ c * 1 := Nat.mul_le_mul_left _ (by omega)
      omega
    calc F + 2 ^ q * (e + 2 ^ c * s) < 2 ^ q * (e + 2 ^ c * s + 1) := by rw [Nat.mul_succ]; omega
      _ ≤ 2 ^ q * (2 * 2 ^ c) := Nat.mul_le_mul_left _ (by omega)
      _ = 2 ^ (1 + c + q) := by rw [Nat.pow_add, Nat.pow_add]; ring

/-- The number a word denotes, from its fields. -/
theorem packFmt_value {f : PackFmt} {s e F : Nat} (hs : s < 2) (he : e < 2 ^ f.c) (hF : F < 2 ^ f.q) :
    f.value (packWord f.c f.q (s, e, F)) =
      (if s = 1 then -1 else 1) * ((F : ℚ) / 2 ^ f.q) * (f.base : ℚ) ^ ((e : Int) - f.bias) := by
  obtain ⟨h1, h2, h3, -⟩ := packWord_fields hs he hF
  unfold PackFmt.value
  rw [h1, h2, h3]

/-- The fraction of the formats 8022 and 8024 is zero when the exponent field is too small. -/
theorem packBin_wrap {est : Dbl → Int} {q : Nat} {d : Dbl} {x : ℚ} (hd : dblRat d = some x) (hx : x ≠ 0)
    (h0 : 0 ≤ est (dblAbs d)) (h1 : est (dblAbs d) < 256 ^ 4)
    (hw : (est (dblAbs d)).toNat % 8 < q) :
    packBin est q d = .ok (if x < 0 then 1 else 0, (est (dblAbs d)).toNat % 8, 0) := by
  obtain ⟨s, m, e, hv, hxe⟩ := val_of_rat (abs_rat hd)
  have hdiv : ddiv (dblAbs d) (toDbl (.inf false)) = toDbl (.fin (s != false) 0 0) := by
    unfold ddiv
    rw [hv, val_inf.1]; rfl
  have hz : dblToU 4 (toDbl (.fin (s != false) 0 0)) = .ok 0 := by cases s <;> decide +kernel
  unfold packBin
  simp only [packExp_ok (bits := 3) (abs_rat hd) (abs_pos.mpr hx) h0 h1, ok_bind, show (2 : Nat) ^ 3 = 8 from rfl]
  unfold powWrap
  rw [if_neg (by omega), hdiv, hz]
  simp only [ok_bind, pure_eq_ok, dblNeg_rat hd hx, decide_eq_true_eq]
  simp

/-- Division by a power of two and truncation, away from the limits of the exponent range. -/
theorem div_trunc {a : Dbl} {r : ℚ} {k : Int} {F n : Nat} (ha : dblRat a = some r) (h0 : (2 : ℚ) ^ (-100 : Int) ≤ r)
    (k1 : -100 ≤ k) (k2 : k ≤ 100) (h1 : (F : ℚ) ≤ r / 2 ^ k) (h2 : r / 2 ^ k < F + 1) (hF : F < 256 ^ n)
    (hn : n ≤ 8) : dblToU n (ddiv a (pow2 k)) = .ok (F : Int) := by
  have hr0 : 0 < r := lt_of_lt_of_le (by positivity) h0
  obtain ⟨s, m, e, hv, hxe⟩ := val_of_rat ha
  have hm : m ≠ 0 := by rintro rfl; simp at hxe; linarith
  have hm' : (0 : ℚ) < m := by exact_mod_cast Nat.pos_of_ne_zero hm
  have hs : s = false := by
    cases s
    · rfl
    · simp only [if_true] at hxe
      have : (0 : ℚ) < (m : ℚ) * 2 ^ e := by positivity
      linarith
  subst hs
  simp only [Bool.false_eq_true, if_false, one_mul] at hxe
  obtain ⟨b1, b2, b3⟩ := dbl_fin_bounds hv
  have hl := log2_lt_of_lt b1 (by decide)
  have hmlt : (m : ℚ) < 2 ^ (53 : Int) := by
    have e53 : (2 : ℚ) ^ (53 : Int) = ((2 ^ 53 : Nat) : ℚ) := by norm_num
    rw [e53]
    exact Nat.cast_lt.mpr b1
  have hlow : -153 < e := by
    have : (2 : ℚ) ^ (-100 : Int) < 2 ^ (53 + e) := by
      calc (2 : ℚ) ^ (-100 : Int) ≤ m * 2 ^ e := by rw [← hxe]; exact h0
        _ < 2 ^ (53 : Int) * 2 ^ e := mul_lt_mul_of_pos_right hmlt (by positivity)
        _ = 2 ^ (53 + e) := (zpow_add₀ (by norm_num) _ _).symm
    have := (zpow_lt_zpow_iff_right₀ (by norm_num)).mp this
    omega
  have hup : (m.log2 : Int) + e < 64 + k := by
    have hFn : (F : ℚ) + 1 ≤ 2 ^ (64 : Int) := by
      have : F + 1 ≤ 256 ^ 8 := le_trans hF (Nat.pow_le_pow_right (by decide) hn)
      calc (F : ℚ) + 1 = ((F + 1 : Nat) : ℚ) := by push_cast; ring
        _ ≤ ((256 ^ 8 : Nat) : ℚ) := by exact_mod_cast this
        _ = 2 ^ (64 : Int) := by norm_num
    have hl2 : ((2 ^ m.log2 : Nat) : ℚ) ≤ m := by exact_mod_cast (log2_bounds hm).1
    have hp : (0 : ℚ) < 2 ^ k := by positivity
    have : (2 : ℚ) ^ ((m.log2 : Int) + e) < 2 ^ (64 + k) := by
      calc (2 : ℚ) ^ ((m.log2 : Int) + e) = 2 ^ (m.log2 : Int) * 2 ^ e := zpow_add₀ (by norm_num) _ _
        _ ≤ m * 2 ^ e := by
          apply mul_le_mul_of_nonneg_right _ (by positivity)
          rw [zpow_natCast]; exact_mod_cast hl2
        _ = r / 2 ^ k * 2 ^ k := by rw [← hxe]; field_simp
        _ < 2 ^ (64 : Int) * 2 ^ k := mul_lt_mul_of_pos_right (lt_of_lt_of_le h2 hFn) hp
        _ = 2 ^ (64 + k) := (zpow_add₀ (by norm_num) _ _).symm
    exact (zpow_lt_zpow_iff_right₀ (by norm_num)).mp this
  rw [ddiv_pow2 hv (by omega) (by omega)]
  have hq : HasVal (toDbl (.fin false m (e - k))) false m (e - k) :=
    is_toDbl b1 (by omega) (by omega)
  have hval : (m : ℚ) * 2 ^ (e - k) = r / 2 ^ k := by
    rw [hxe, zpow_sub₀ (by norm_num)]; ring
  exact dblToInt_nonneg hq (by rw [hval]; exact h1) (by rw [hval]; exact h2) (by omega) (by omega)

/-- A writer that never throws: it returns or is undefined. -/
def OnlyUb {α : Type} (x : Out α) : Prop := (∃ r, x = .ok r) ∨ ∃ u, x = isUb u

theorem OnlyUb.bind {α β : Type} {x : Out α} {f : α → Out β} (hx : OnlyUb x) (hf : ∀ a, OnlyUb (f a)) :
    OnlyUb (x >>= f) := by
  rcases hx with ⟨r, rfl⟩ | ⟨u, rfl⟩
  · exact hf r
  · exact .inr ⟨u, rfl⟩

theorem onlyUb_ok {α : Type} (a : α) : OnlyUb (.ok a) := .inl ⟨a, rfl⟩

theorem onlyUb_ub {α : Type} (u : Ub) : OnlyUb (isUb u : Out α) := .inr ⟨u, rfl⟩

theorem onlyUb_dblToInt (lo hi : Int) (d : Dbl) : OnlyUb (dblToInt lo hi d) := by
  unfold dblToInt
  split
  · split
    · exact onlyUb_ok _
    · exact onlyUb_ub _
  · exact onlyUb_ub _

theorem onlyUb_packExp (est : Dbl → Int) (n bits : Nat) (a : Dbl) : OnlyUb (packExp est n bits a) := by
  unfold packExp
  split
  · split
    · exact onlyUb_ub _
    · split
      · exact onlyUb_ok _
      · exact onlyUb_ub _
  · exact onlyUb_ub _

theorem onlyUb_packBin (est : Dbl → Int) (q : Nat) (d : Dbl) : OnlyUb (packBin est q d) :=
  (onlyUb_packExp _ _ _ _).bind fun _ => (onlyUb_dblToInt _ _ _).bind fun _ => onlyUb_ok _

theorem onlyUb_packHex (est : Dbl → Int) (c q : Nat) (d : Dbl) : OnlyUb (packHex est c q d) :=
  (onlyUb_packExp _ _ _ _).bind fun _ => (onlyUb_dblToInt _ _ _).bind fun _ => onlyUb_ok _

theorem onlyUb_pack8015 (est : Dbl → Int) (d : Dbl) : OnlyUb (pack8015 est d) :=
  (onlyUb_packExp _ _ _ _).bind fun _ => (onlyUb_dblToInt _ _ _).bind fun _ => onlyUb_ok _

theorem onlyUb_wrPut (bs : Bytes) (c : Cur) : OnlyUb (wrPut bs c) := by
  unfold wrPut
  split
  · exact onlyUb_ok _
  · exact onlyUb_ub _

theorem onlyUb_wrPoke (b : Byte) (c : Cur) : OnlyUb (wrPoke b c) := by
  unfold wrPoke
  split
  · exact onlyUb_ub _
  · exact onlyUb_ok _

theorem onlyUb_wrLift {α : Type} {x : Out α} (h : OnlyUb x) (c : Cur) : OnlyUb (wrLift x c) :=
  h.bind fun _ => onlyUb_ok _

theorem onlyUb_write8015 (est : Dbl → Int) (p : List Dbl) (d : Dbl) (c : Cur) :
    OnlyUb (write8015 est p d c) := by
  unfold write8015
  split
  · refine (onlyUb_wrLift (onlyUb_pack8015 _ _) _).bind fun _ => ?_
    refine (onlyUb_wrLift (onlyUb_pack8015 _ _) _).bind fun _ => ?_
    refine (onlyUb_wrLift (onlyUb_pack8015 _ _) _).bind fun _ => ?_
    refine (onlyUb_wrLift (onlyUb_pack8015 _ _) _).bind fun _ => ?_
    refine (onlyUb_wrPut _ _).bind fun _ => ?_
    refine (onlyUb_wrPut _ _).bind fun _ => ?_
    refine (onlyUb_wrPut _ _).bind fun _ => ?_
    refine (onlyUb_wrPut _ _).bind fun _ => ?_
    refine (onlyUb_wrPut _ _).bind fun _ => ?_
    refine (onlyUb_wrPut _ _).bind fun _ => ?_
    exact onlyUb_ok _
  · exact onlyUb_ok _

/-- No writer of a packed format throws. -/
theorem onlyUb_put {est : PackEst} {fmt : Int} (hf : fmt ∈ [8015, 8022, 8024, 8042, 8044, 8048])
    {bits : Nat} {w : SampleWr} (hw : segdWriter est fmt = .ok (bits, w)) (p : List Dbl) (d : Dbl) (c : Cur) :
    OnlyUb (w.put p d c) := by
  have hb : ∀ (x : Dbl → Out Bytes), (∀ d, OnlyUb (x d)) → OnlyUb ((SampleWr.bytes x).put p d c) :=
    fun x h => (onlyUb_wrLift (h d) c).bind fun _ => (onlyUb_wrPut _ _).bind fun _ => onlyUb_ok _
  have ho : ∀ (x : Dbl → Out Nat), (∀ d, OnlyUb (x d)) → OnlyUb ((SampleWr.own (writeAtStart x)).put p d c) :=
    fun x h => (onlyUb_wrLift (h d) c).bind fun _ => (onlyUb_wrPoke _ _).bind fun _ => onlyUb_ok _
  simp only [List.mem_cons, List.not_mem_nil, or_false] at hf
  rcases hf with rfl | rfl | rfl | rfl | rfl | rfl <;> cases hw
  · exact onlyUb_write8015 _ _ _ _
  · exact ho _ fun d => (onlyUb_packBin _ _ _).bind fun _ => onlyUb_ok _
  · exact hb _ fun d => (onlyUb_packBin _ _ _).bind fun _ => onlyUb_ok _
  · exact ho _ fun d => (onlyUb_packHex _ _ _ _).bind fun _ => onlyUb_ok _
  · exact hb _ fun d => (onlyUb_packHex _ _ _ _).bind fun _ => onlyUb_ok _
  · exact hb _ fun d => (onlyUb_packHex _ _ _ _).bind fun _ => onlyUb_ok _

/-- One sample that cannot be written spoils the trace. -/
theorem wrSamples_ub {w : SampleWr} {descale : Dbl} (hw : ∀ p d c, OnlyUb (w.put p d c)) {x : Dbl}
    (hx : ∀ p c, ∃ u, w.put p (ddiv x descale) c = isUb u) :
    ∀ (xs : List Dbl) (p : List Dbl) (c : Cur), x ∈ xs → ∃ u, wrSamples w descale xs p c = isUb u := by
  intro xs
  induction xs with
  | nil => intro p c h; cases h
  | cons y t ih =>
    intro p c h
    unfold wrSamples
    rw [wr_bind]
    rcases hw p (ddiv y descale) c with ⟨⟨q, c'⟩, e⟩ | ⟨u, e⟩
    · rw [e, ok_bind]
      rcases List.mem_cons.mp h with rfl | h
      · obtain ⟨u, e'⟩ := hx p c
        rw [e] at e'; cases e'
      · exact ih q c' h
    · rw [e]; exact ⟨u, rfl⟩

end Sedaman
