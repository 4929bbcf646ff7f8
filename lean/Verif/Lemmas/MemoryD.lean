import Verif.Spec.Memory
import Verif.Lemmas.SegdFail

/-!
# Lemmas about the memory a SEG-D reader takes
-/

namespace Sedaman

open Spec

/-- A decoder that takes at least one byte when it succeeds. -/
def Takes {α : Type} (x : Rd α) : Prop := ∀ s a rest, x s = .ok (a, rest) → rest.length < s.length

theorem Takes.bind {α β : Type} {x : Rd α} {f : α → Rd β} (hx : Takes x)
    (hf : ∀ a s b rest, f a s = .ok (b, rest) → rest.length ≤ s.length) : Takes (x >>= f) := by
  intro s b rest h
  rw [rd_bind] at h
  obtain ⟨⟨a, s1⟩, h1, h2⟩ := bind_ok h
  exact Nat.lt_of_le_of_lt (hf a s1 b rest h2) (hx s a s1 h1)

theorem Takes.le {α : Type} {x : Rd α} (hx : Takes x) : ∀ s a rest, x s = .ok (a, rest) → rest.length ≤ s.length :=
  fun s a rest h => Nat.le_of_lt (hx s a rest h)

theorem Takes.map {α β : Type} {x : Rd α} (hx : Takes x) (g : α → β) : Takes (x >>= fun a => pure (g a)) :=
  hx.bind fun _ _ _ _ h => by cases h; exact Nat.le_refl _

theorem takes_bytes {n : Nat} (hn : 0 < n) : Takes (rdBytes n) := by
  intro s a rest h
  unfold rdBytes at h
  split at h
  · cases h
    rw [List.length_drop]
    omega
  · cases h

theorem takes_readU {n : Nat} (hn : 0 < n) : Takes (readU n) := (takes_bytes hn).map _
theorem takes_readS {n : Nat} (hn : 0 < n) : Takes (readS n) := (takes_bytes hn).map _

theorem takes_readU24 (bo : ByteOrder) : Takes (readU24 bo) := by
  cases bo <;> exact (takes_readU (by decide)).bind fun _ => ((takes_readU (by decide)).map _).le

theorem takes_readU32 (bo : ByteOrder) : Takes (readU32 bo) := by
  cases bo
  · exact takes_readU (by decide)
  · exact (takes_readU (by decide)).map _

theorem takes_readU64 (bo : ByteOrder) : Takes (readU64 bo) := by
  cases bo
  · exact takes_readU (by decide)
  · exact (takes_readU (by decide)).map _

theorem takes_readI32 (bo : ByteOrder) : Takes (readI32 bo) := by
  cases bo
  · exact takes_readS (by decide)
  · exact (takes_readS (by decide)).map _

/-- Every format but 8022 and 8042 takes at least a byte for a sample; these two have eight bits. -/
theorem segd_takes {fmt : Int} {bits : Nat} {r : Rd Dbl} (h : segdReader fmt = .ok (bits, r)) :
    Takes r ∨ (fmt = 8022 ∨ fmt = 8042) ∧ bits = 8 := by
  unfold segdReader at h
  split at h <;> first
    | (cases h
       first
         | exact .inr ⟨.inl rfl, rfl⟩
         | exact .inr ⟨.inr rfl, rfl⟩
         | exact .inl fun _ _ _ h => by cases h
         | exact .inl ((takes_readU24 _).map _ |>.map _)
         | exact .inl ((takes_readI32 _).map _)
         | exact .inl ((takes_readU32 _).map _)
         | exact .inl ((takes_readU64 _).map _)
         | exact .inl ((takes_readS (by decide)).map _)
         | exact .inl ((takes_readU (by decide)).bind fun _ => ((takes_readU (by decide)).map _).le))
    | cases h

theorem rdSamples_len {r : Rd Dbl} {d : Dbl} {n : Nat} {s rest : Bytes} {xs : List Dbl}
    (h : rdSamples r d n s = .ok (xs, rest)) : xs.length = n := by
  induction n generalizing s xs rest with
  | zero => cases h; rfl
  | succ n ih =>
    unfold rdSamples at h
    rw [rd_bind] at h
    obtain ⟨⟨x, s1⟩, -, h⟩ := bind_ok h
    rw [rd_bind] at h
    obtain ⟨⟨t, s2⟩, h2, h⟩ := bind_ok h
    cases h
    rw [List.length_cons, ih h2]

theorem rdSamples_takes {r : Rd Dbl} (hr : Takes r) {d : Dbl} {n : Nat} {s rest : Bytes} {xs : List Dbl}
    (h : rdSamples r d n s = .ok (xs, rest)) : rest.length + n ≤ s.length := by
  induction n generalizing s xs rest with
  | zero => cases h; exact Nat.le_refl _
  | succ n ih =>
    unfold rdSamples at h
    rw [rd_bind] at h
    obtain ⟨⟨x, s1⟩, h1, h⟩ := bind_ok h
    rw [rd_bind] at h
    obtain ⟨⟨t, s2⟩, h2, h⟩ := bind_ok h
    cases h
    have := hr _ _ _ h1
    have := ih h2
    simp only at *
    omega

theorem readSamplesD_len {fmt : Int} {d : Dbl} {n : Nat} {s rest : Bytes} {xs : List Dbl}
    (h : readSamplesD fmt d n s = .ok (xs, rest)) (hf : n < 2 ^ 29 ∨ fmt ≠ 8022 ∧ fmt ≠ 8042) :
    xs.length = n ∧ n ≤ s.length := by
  unfold readSamplesD at h
  obtain ⟨⟨bits, r⟩, h1, h⟩ := bind_ok h
  simp only at h
  split at h
  · rename_i hs
    rw [ok_bind] at h
    obtain ⟨⟨ys, q⟩, h2, h⟩ := bind_ok h
    cases h
    refine ⟨rdSamples_len h2, ?_⟩
    rcases segd_takes h1 with ht | ⟨hq, rfl⟩
    · have := rdSamples_takes ht h2
      rw [List.length_take] at this
      omega
    · rcases hf with hf | hf
      · rw [Nat.mod_eq_of_lt (by omega)] at hs
        omega
      · rcases hq with rfl | rfl
        · exact absurd rfl hf.1
        · exact absurd rfl hf.2
  · cases h

theorem rdSamplesD_count {fmt : Int} {d : Dbl} {n : Nat} {s rest : Bytes} {xs : List Dbl}
    (h : readSamplesD fmt d n s = .ok (xs, rest)) : xs.length = n := by
  unfold readSamplesD at h
  obtain ⟨⟨bits, r⟩, h1, h⟩ := bind_ok h
  simp only at h
  split at h
  · rw [ok_bind] at h
    obtain ⟨⟨ys, q⟩, h2, h⟩ := bind_ok h
    cases h
    exact rdSamples_len h2
  · cases h

theorem blocks32_len : ∀ {n : Nat} {s s' : ISegd} {bs : List Bytes}, readBlocks32 n s = .ok (bs, s') →
    s'.file.pos = s.file.pos + 32 * n ∧ s'.file.data = s.file.data ∧ bs.flatten.length = 32 * n ∧
      (n = 0 ∨ s'.file.pos ≤ s.file.data.length) := by
  intro n
  induction n with
  | zero => intro s s' bs h; cases h; exact ⟨rfl, rfl, rfl, .inl rfl⟩
  | succ n ih =>
    intro s s' bs h
    obtain ⟨⟨b, s1⟩, h1, h⟩ := bind_ok h
    obtain ⟨⟨t, s2⟩, h2, h⟩ := bind_ok h
    have hb : b.length = 32 := (fill_ok h1).2.1
    obtain ⟨e1, e2, e3⟩ := fill_ok h1
    obtain ⟨i1, i2, i3, i4⟩ := ih h2
    cases h
    subst e3
    simp only [ISegd.at] at i1 i2 i4
    rw [e1, List.length_take, List.length_drop] at e2
    refine ⟨by omega, i2, ?_, .inr ?_⟩
    · rw [List.flatten_cons, List.length_append, i3, hb]
      omega
    · rcases i4 with rfl | i4 <;> omega

theorem headers_held {s s' : ISegd} (h : readHeaders s = .ok s') :
    heldSegd s' ≤ 2 * s'.file.data.length := by
  obtain ⟨s1, h1, h⟩ := bind_ok h
  obtain ⟨_, h2, h⟩ := bind_ok h
  obtain ⟨s3, h3, h⟩ := bind_ok h
  obtain ⟨⟨ex, s4⟩, h4, h⟩ := bind_ok h
  obtain ⟨⟨el, s5⟩, h5, h⟩ := bind_ok h
  obtain ⟨a1, a2, a3, a4⟩ := blocks32_len h4
  obtain ⟨b1, b2, b3, b4⟩ := blocks32_len h5
  cases h
  unfold heldSegd
  simp only at *
  have hx : ex.flatten.length ≤ s3.file.data.length := by
    rcases a4 with hz | a4
    · rw [a3, hz]; omega
    · omega
  have hy : el.flatten.length ≤ s4.file.data.length := by
    rcases b4 with hz | b4
    · rw [b3, hz]; omega
    · omega
  obtain ⟨p5, rfl, -⟩ := readBlocks32_ok h5
  simp only [ISegd.at] at *
  rw [a2] at hy
  rw [a2]
  show ex.flatten.length + el.flatten.length ≤ _
  omega

end Sedaman
