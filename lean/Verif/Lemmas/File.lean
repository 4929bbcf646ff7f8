import Verif.Model.File
import Verif.Lemmas.Bytes

/-!
# Lemmas about files
-/

namespace Sedaman

theorem read_ok {f f' : File} {n : Nat} {b : Bytes} (h : f.read n = .ok (b, f')) :
    b = (f.data.drop f.pos).take n ∧ b.length = n ∧ f' = ⟨f.data, f.pos + n⟩ := by
  unfold File.read at h
  simp only at h
  split at h
  · rename_i hl
    simp only [Except.ok.injEq, Prod.mk.injEq] at h
    obtain ⟨rfl, rfl⟩ := h
    exact ⟨rfl, hl, rfl⟩
  · cases h

theorem read_eq {f : File} {n : Nat} (h : ((f.data.drop f.pos).take n).length = n) :
    f.read n = .ok ((f.data.drop f.pos).take n, ⟨f.data, f.pos + n⟩) := by
  unfold File.read
  simp only
  rw [if_pos h]

/-- A read succeeds exactly when the bytes are there. -/
theorem read_iff (f : File) (n : Nat) :
    (∃ p, f.read n = .ok p) ↔ n = 0 ∨ f.pos + n ≤ f.data.length := by
  have e : ((f.data.drop f.pos).take n).length = n ↔ n = 0 ∨ f.pos + n ≤ f.data.length := by
    simp; omega
  constructor
  · rintro ⟨⟨b, f'⟩, h⟩
    obtain ⟨hb, hl, -⟩ := read_ok h
    rw [hb] at hl
    exact e.1 hl
  · intro h
    exact ⟨_, read_eq (e.2 h)⟩

theorem read_fail {f : File} {n : Nat} (h0 : n ≠ 0) (h : f.data.length < f.pos + n) :
    f.read n = throwExn .iosFailure := by
  unfold File.read
  simp only
  rw [if_neg]
  simp; omega

theorem read_chunk (pre chunk rest : Bytes) {n : Nat} (hn : chunk.length = n) :
    File.read ⟨pre ++ (chunk ++ rest), pre.length⟩ n =
      .ok (chunk, ⟨pre ++ (chunk ++ rest), pre.length + n⟩) := by
  have e : ((pre ++ (chunk ++ rest)).drop pre.length).take n = chunk := by
    rw [List.drop_left, List.take_left' hn]
  rw [read_eq (by simp only [e, hn])]
  simp only [e]

/-- What can be read inside a chunk can be read inside any file that contains the chunk. -/
theorem read_frame {c b : Bytes} {p n : Nat} {f' : File} (h : File.read ⟨c, p⟩ n = .ok (b, f'))
    (pre rest : Bytes) :
    f' = ⟨c, p + n⟩ ∧ File.read ⟨pre ++ (c ++ rest), pre.length + p⟩ n =
      .ok (b, ⟨pre ++ (c ++ rest), pre.length + (p + n)⟩) := by
  obtain ⟨hb, hl, hf⟩ := read_ok h
  refine ⟨hf, ?_⟩
  simp only at hb
  have e : ((pre ++ (c ++ rest)).drop (pre.length + p)).take n = b := by
    rw [← List.drop_drop, List.drop_left]
    by_cases h0 : n = 0
    · subst h0
      rw [List.take_zero]
      exact (List.eq_nil_of_length_eq_zero hl).symm
    · rw [hb] at hl
      simp only [List.length_take, List.length_drop] at hl
      rw [List.drop_append_of_le_length (by omega), List.take_append_of_le_length (by simp; omega), hb]
  rw [read_eq (by simp only [e, hl])]
  simp only [e, Nat.add_assoc]

theorem seek_nat (f : File) (p : Nat) : f.seek (p : Int) = .ok ⟨f.data, p⟩ := by
  unfold File.seek
  rw [if_neg (by omega)]
  simp

theorem seekCur_nat (f : File) (n : Nat) : f.seekCur (n : Int) = .ok ⟨f.data, f.pos + n⟩ := by
  unfold File.seekCur
  rw [show ((f.pos : Int) + (n : Int)) = ((f.pos + n : Nat) : Int) by omega, seek_nat]

theorem seek_ok {f f' : File} {p : Int} (h : f.seek p = .ok f') :
    0 ≤ p ∧ f' = ⟨f.data, p.toNat⟩ := by
  unfold File.seek at h
  split at h
  · cases h
  · rename_i hp
    exact ⟨by omega, (Except.ok.inj h).symm⟩

theorem seekEnd_zero (f : File) : f.seekEnd 0 = .ok ⟨f.data, f.data.length⟩ := by
  unfold File.seekEnd
  rw [Int.add_zero, seek_nat]

/-- Writing at the end of the file appends. -/
theorem write_append {f : File} (h : f.pos = f.data.length) (bs : Bytes) :
    f.write bs = ⟨f.data ++ bs, f.data.length + bs.length⟩ := by
  unfold File.write
  rw [h, Nat.sub_self, List.replicate_zero, List.append_nil, List.take_length,
    List.drop_of_length_le (by omega), List.append_nil]

/-- Writing over a middle part of the same length. -/
theorem write_over (a b c bs : Bytes) (h : bs.length = b.length) :
    File.write ⟨a ++ (b ++ c), a.length⟩ bs = ⟨a ++ (bs ++ c), a.length + bs.length⟩ := by
  unfold File.write
  simp only
  rw [show a.length - (a ++ (b ++ c)).length = 0 by simp, List.replicate_zero, List.append_nil,
    List.take_left, h, ← List.append_assoc a b c, ← List.length_append, List.drop_left,
    List.append_assoc, List.length_append]

theorem write_pos (f : File) (bs : Bytes) : (f.write bs).pos = f.pos + bs.length := rfl

theorem resizeVec_ok {buf out : Bytes} {n : Nat} (h : resizeVec buf n = .ok out) :
    n < 2 ^ 63 ∧ out.length = n ∧ out = buf.take n ++ List.replicate (n - buf.length) 0 := by
  unfold resizeVec at h
  split at h
  · cases h
  · rename_i hn
    have e := (Except.ok.inj h).symm
    refine ⟨by omega, ?_, e⟩
    rw [e, List.length_append, List.length_take, List.length_replicate]
    omega

theorem resizeVec_of_lt {buf : Bytes} {n : Nat} (h : n < 2 ^ 63) :
    resizeVec buf n = .ok (buf.take n ++ List.replicate (n - buf.length) 0) := if_neg (by omega)

theorem mulInt32_ok {a b p : Int} (h : mulInt32 a b = .ok p) :
    p = a * b ∧ -2 ^ 31 ≤ a * b ∧ a * b < 2 ^ 31 := by
  unfold mulInt32 at h
  split at h
  · rename_i hb
    exact ⟨(Except.ok.inj h).symm, hb⟩
  · cases h

theorem mulInt64_ok {a b p : Int} (h : mulInt64 a b = .ok p) :
    p = a * b ∧ -2 ^ 63 ≤ a * b ∧ a * b < 2 ^ 63 := by
  unfold mulInt64 at h
  split at h
  · rename_i hb
    exact ⟨(Except.ok.inj h).symm, hb⟩
  · cases h

/-- Splitting a successful `do` block. -/
theorem bind_ok {α β : Type} {x : Out α} {f : α → Out β} {b : β} (h : (x >>= f) = .ok b) :
    ∃ a, x = .ok a ∧ f a = .ok b := by
  cases x with
  | error e => cases h
  | ok a => exact ⟨a, rfl, h⟩

end Sedaman
