import Verif.Model.Exception
import Verif.Lemmas.Bytes
import Mathlib.Data.List.Nodup

/-!
# Property C43: exceptions
-/

namespace Sedaman.Props

/-- The number written by a sequence of decimal digits. -/
def digitsValue : Bytes → Nat → Nat
  | [], acc => acc
  | d :: ds, acc => digitsValue ds (acc * 10 + (d.toNat - 48))

/-- `ds` is the number `n` in decimal, without superfluous zeros. -/
def IsDecimal (ds : Bytes) (n : Nat) : Prop :=
  ds ≠ [] ∧ (∀ d ∈ ds, 48 ≤ d.toNat ∧ d.toNat ≤ 57) ∧ digitsValue ds 0 = n ∧
    (ds.head? = some 48 → ds = [48])

theorem digitsValue_append (a : Bytes) (d : Byte) (acc : Nat) :
    digitsValue (a ++ [d]) acc = digitsValue a acc * 10 + (d.toNat - 48) := by
  induction a generalizing acc with
  | nil => rfl
  | cons x a ih => exact ih _

theorem digit_toNat {n : Nat} (h : n < 10) : (BitVec.ofNat 8 (48 + n)).toNat = 48 + n := by
  rw [BitVec.toNat_ofNat]; omega

theorem decimal_spec (n : Nat) : IsDecimal (decimal n) n ∧ (n ≠ 0 → (decimal n).head? ≠ some 48) := by
  induction n using Nat.strongRecOn with
  | _ n ih =>
    unfold decimal
    split
    · rename_i h
      have e := digit_toNat h
      refine ⟨⟨by simp, ?_, ?_, ?_⟩, ?_⟩
      · intro d hd
        rw [List.mem_singleton.1 hd, e]; omega
      · simp only [digitsValue, e]; omega
      · simp
      · intro hn hc
        simp only [List.head?_cons, Option.some.injEq] at hc
        have := congrArg BitVec.toNat hc
        rw [e] at this
        simp at this
        omega
    · rename_i h
      obtain ⟨⟨i1, i2, i3, i4⟩, i5⟩ := ih (n / 10) (by omega)
      have e := digit_toNat (show n % 10 < 10 by omega)
      have hh : (decimal (n / 10) ++ [BitVec.ofNat 8 (48 + n % 10)]).head? = (decimal (n / 10)).head? := by
        cases hd : decimal (n / 10) with
        | nil => exact absurd hd i1
        | cons x xs => rfl
      have hne := i5 (by omega)
      refine ⟨⟨by simp, ?_, ?_, ?_⟩, ?_⟩
      · intro d hd
        rcases List.mem_append.1 hd with hd | hd
        · exact i2 d hd
        · rw [List.mem_singleton.1 hd, e]; omega
      · rw [digitsValue_append, i3, e]; omega
      · intro hc; rw [hh] at hc; exact absurd hc hne
      · intro _; rw [hh]; exact hne

theorem takeWhile_all {l : Bytes} (h : ∀ b ∈ l, b ≠ 0) : l.takeWhile (· ≠ 0) = l := by
  induction l with
  | nil => rfl
  | cons a l ih =>
    rw [List.takeWhile_cons_of_pos (by simpa using h a List.mem_cons_self),
      ih fun b hb => h b (List.mem_cons_of_mem _ hb)]

/-- **C43, the text.** For a file name and message without zero bytes and any line, `what()` is the
file name, a space, the line in decimal, a space and the message. -/
theorem C43_text_partial (file msg : Bytes) (line : Nat) (hl : line < 2 ^ 64)
    (hf : ∀ b ∈ file, b ≠ 0) (hm : ∀ b ∈ msg, b ≠ 0) :
    ∃ ds, IsDecimal ds line ∧
      (Exception.make file line msg).what = .ok (file ++ [0x20] ++ ds ++ [0x20] ++ msg) := by
  obtain ⟨h, -⟩ := decimal_spec line
  refine ⟨decimal line, h, ?_⟩
  unfold Exception.make Exception.what
  simp only
  rw [Nat.mod_eq_of_lt hl, takeWhile_all]
  · rfl
  · intro b hb
    unfold joinMessage at hb
    simp only [List.mem_append, List.mem_singleton] at hb
    rcases hb with (((hb | hb) | hb) | hb) | hb
    · exact hf b hb
    · rw [hb]; decide
    · have := h.2.1 b hb
      rintro rfl
      simp at this
    · rw [hb]; decide
    · exact hm b hb

/-- **C43, moving.** The new object has the text, whatever it is. -/
theorem C43_move_partial (file msg : Bytes) (line : Nat) :
    (Exception.make file line msg).moveFrom.1.what = (Exception.make file line msg).what := rfl

/-- "a.cpp 1024 bad": made, and made and moved. -/
example :
    (Exception.make [0x61, 0x2e, 0x63, 0x70, 0x70] 1024 [0x62, 0x61, 0x64]).what =
      .ok [0x61, 0x2e, 0x63, 0x70, 0x70, 0x20, 0x31, 0x30, 0x32, 0x34, 0x20, 0x62, 0x61, 0x64] ∧
    (Exception.make [0x61] 0 [0x62]).moveFrom.1.what = .ok [0x61, 0x20, 0x30, 0x20, 0x62] := by
  decide +kernel

/-- **C43, copying: the property fails.** The copy constructor dereferences a null pointer for every
exception. -/
theorem C43_copy_undefined (e : Exception) : e.copyFrom = .error (.ub .nullDeref) := rfl

/-- **C43, zero bytes.** The text is cut at a zero byte of the message. -/
theorem C43_zero_byte_cuts : (Exception.make [0x61] 7 [0x62, 0, 0x63]).what =
    .ok [0x61, 0x20, 0x37, 0x20, 0x62] := by decide +kernel

/-- The text of the object moved from cannot be asked for. -/
theorem C43_moved_from (e : Exception) : e.moveFrom.2.what = .error (.ub .nullDeref) := rfl

end Sedaman.Props
