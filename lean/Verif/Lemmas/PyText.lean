import Verif.Model.PyText
import Verif.Lemmas.TraceHdr

/-!
# UTF-8
-/

namespace Sedaman

theorem utf8Char_cases {c : Nat} {b : List Nat} (h : utf8Char c = some b) :
    (c < 0x80 ∧ b = [c]) ∨
    (0x80 ≤ c ∧ c < 0x800 ∧ b = [0xC0 + c / 64, 0x80 + c % 64]) ∨
    (0x800 ≤ c ∧ c < 0x10000 ∧ ¬ (0xD800 ≤ c ∧ c < 0xE000) ∧
      b = [0xE0 + c / 4096, 0x80 + c / 64 % 64, 0x80 + c % 64]) ∨
    (0x10000 ≤ c ∧ c < 0x110000 ∧
      b = [0xF0 + c / 262144, 0x80 + c / 4096 % 64, 0x80 + c / 64 % 64, 0x80 + c % 64]) := by
  unfold utf8Char at h
  split at h
  · exact .inl ⟨by assumption, (Option.some.inj h).symm⟩
  split at h
  · exact .inr (.inl ⟨by omega, by assumption, (Option.some.inj h).symm⟩)
  split at h
  · cases h
  split at h
  · exact .inr (.inr (.inl ⟨by omega, by assumption, by assumption, (Option.some.inj h).symm⟩))
  split at h
  · exact .inr (.inr (.inr ⟨by omega, by assumption, (Option.some.inj h).symm⟩))
  · cases h

theorem utf8Decode_char {c : Nat} {b : List Nat} (h : utf8Char c = some b) (r : List Nat) :
    utf8Decode (b ++ r) = (utf8Decode r).map fun cs => c :: cs := by
  rcases utf8Char_cases h with ⟨h1, rfl⟩ | ⟨h1, h2, rfl⟩ | ⟨h1, h2, h3, rfl⟩ | ⟨h1, h2, rfl⟩
  · rw [List.singleton_append, utf8Decode.eq_def]
    simp only [if_pos h1]
  · simp only [List.cons_append, List.nil_append]
    rw [utf8Decode.eq_def]
    simp only
    rw [if_neg (by omega), if_pos (by simp [utf8Cont]; omega)]
    have e : (0xC0 + c / 64 - 0xC0) * 64 + (0x80 + c % 64 - 0x80) = c := by omega
    rw [e]
  · simp only [List.cons_append, List.nil_append]
    rw [utf8Decode.eq_def]
    simp only
    have e : (0xE0 + c / 4096 - 0xE0) * 4096 + (0x80 + c / 64 % 64 - 0x80) * 64 + (0x80 + c % 64 - 0x80) = c := by omega
    rw [if_neg (by omega), if_neg (by simp), e, if_pos (by simp [utf8Cont]; omega)]
  · simp only [List.cons_append, List.nil_append]
    rw [utf8Decode.eq_def]
    simp only
    have e : (0xF0 + c / 262144 - 0xF0) * 262144 + (0x80 + c / 4096 % 64 - 0x80) * 4096 +
        (0x80 + c / 64 % 64 - 0x80) * 64 + (0x80 + c % 64 - 0x80) = c := by omega
    rw [if_neg (by omega), if_neg (by simp; omega), if_neg (by simp), e, if_pos (by simp [utf8Cont]; omega)]

theorem utf8Encode_cons {c : Nat} {cs bs : List Nat} (h : utf8Encode (c :: cs) = some bs) :
    ∃ b r, utf8Char c = some b ∧ utf8Encode cs = some r ∧ bs = b ++ r := by
  unfold utf8Encode at h
  cases h1 : utf8Char c with
  | none => rw [h1] at h; cases h
  | some b =>
    cases h2 : utf8Encode cs with
    | none => rw [h1, h2] at h; cases h
    | some r =>
      rw [h1, h2] at h
      exact ⟨b, r, rfl, rfl, (Option.some.inj h).symm⟩

/-- What was encoded is decoded. -/
theorem utf8_decode_encode {cs bs : List Nat} (h : utf8Encode cs = some bs) : utf8Decode bs = some cs := by
  induction cs generalizing bs with
  | nil =>
    have := Option.some.inj h
    subst this
    rfl
  | cons c cs ih =>
    obtain ⟨b, r, h1, h2, rfl⟩ := utf8Encode_cons h
    rw [utf8Decode_char h1, ih h2]
    rfl

theorem utf8Encode_of {c : Nat} {cs b r : List Nat} (h1 : utf8Char c = some b) (h2 : utf8Encode cs = some r) :
    utf8Encode (c :: cs) = some (b ++ r) := by
  unfold utf8Encode
  rw [h1, h2]
  rfl

/-- What is decoded was encoded. -/
theorem utf8_encode_decode {bs cs : List Nat} (h : utf8Decode bs = some cs) : utf8Encode cs = some bs := by
  induction hn : bs.length using Nat.strongRecOn generalizing bs cs with
  | ind n ih =>
    subst hn
    match bs, ih, h with
    | [], _, h =>
      have := Option.some.inj h
      subst this
      rfl
    | a :: r, ih, h =>
      rw [utf8Decode.eq_def] at h
      simp only at h
      split at h
      · rename_i ha
        obtain ⟨cs', h1, rfl⟩ := Option.map_eq_some_iff.1 h
        exact utf8Encode_of (b := [a]) (by unfold utf8Char; rw [if_pos ha]) (ih r.length (by simp) h1 rfl)
      rename_i ha
      match r, ih, h with
      | [], _, h => cases h
      | b :: r, ih, h =>
        simp only at h
        split at h
        · rename_i hb
          obtain ⟨cs', h1, rfl⟩ := Option.map_eq_some_iff.1 h
          simp [utf8Cont] at hb
          refine utf8Encode_of (b := [a, b]) ?_ (ih r.length (by simp; omega) h1 rfl)
          generalize hn : (a - 0xC0) * 64 + (b - 0x80) = n
          have e1 : 0xC0 + n / 64 = a := by omega
          have e2 : 0x80 + n % 64 = b := by omega
          unfold utf8Char
          rw [if_neg (by omega), if_pos (by omega), e1, e2]
        rename_i hb
        match r, ih, h with
        | [], _, h => cases h
        | c :: r, ih, h =>
          simp only at h
          split at h
          · rename_i hc
            obtain ⟨cs', h1, rfl⟩ := Option.map_eq_some_iff.1 h
            simp [utf8Cont] at hc
            refine utf8Encode_of (b := [a, b, c]) ?_ (ih r.length (by simp; omega) h1 rfl)
            generalize hn : (a - 0xE0) * 4096 + (b - 0x80) * 64 + (c - 0x80) = n at hc ⊢
            have e1 : 0xE0 + n / 4096 = a := by omega
            have e2 : 0x80 + n / 64 % 64 = b := by omega
            have e3 : 0x80 + n % 64 = c := by omega
            unfold utf8Char
            rw [if_neg (by omega), if_neg (by omega), if_neg (by omega), if_pos (by omega), e1, e2, e3]
          match r, ih, h with
          | [], _, h => cases h
          | d :: r, ih, h =>
            simp only at h
            split at h
            · rename_i hd
              obtain ⟨cs', h1, rfl⟩ := Option.map_eq_some_iff.1 h
              simp [utf8Cont] at hd
              refine utf8Encode_of (b := [a, b, c, d]) ?_ (ih r.length (by simp; omega) h1 rfl)
              generalize hn : (a - 0xF0) * 262144 + (b - 0x80) * 4096 + (c - 0x80) * 64 + (d - 0x80) = n at hd ⊢
              have e1 : 0xF0 + n / 262144 = a := by omega
              have e2 : 0x80 + n / 4096 % 64 = b := by omega
              have e3 : 0x80 + n / 64 % 64 = c := by omega
              have e4 : 0x80 + n % 64 = d := by omega
              unfold utf8Char
              rw [if_neg (by omega), if_neg (by omega), if_neg (by omega), if_neg (by omega), if_pos (by omega), e1, e2,
                e3, e4]
            · cases h

/-- In UTF-8 a byte from 0xC0 on is followed by one that continues the character. -/
theorem utf8_lead {cs bs x y : List Nat} {a b : Nat} (h : utf8Encode cs = some bs) (hb : bs = x ++ a :: b :: y)
    (ha : 0xC0 ≤ a) : utf8Cont b = true := by
  induction cs generalizing bs x with
  | nil =>
    have := Option.some.inj h
    subst this
    simp at hb
  | cons c cs ih =>
    obtain ⟨e, r, h1, h2, rfl⟩ := utf8Encode_cons h
    rcases utf8Char_cases h1 with ⟨k1, rfl⟩ | ⟨k1, k2, rfl⟩ | ⟨k1, k2, k3, rfl⟩ | ⟨k1, k2, rfl⟩
    · match x, hb with
      | [], hb => simp at hb; omega
      | _ :: x, hb => exact ih h2 (by simpa using (List.cons.inj hb).2)
    · match x, hb with
      | [], hb => simp at hb; simp [utf8Cont]; omega
      | [_], hb => simp at hb; omega
      | _ :: _ :: x, hb => simp at hb; exact ih h2 hb.2.2
    · match x, hb with
      | [], hb => simp at hb; simp [utf8Cont]; omega
      | [_], hb => simp at hb; omega
      | [_, _], hb => simp at hb; omega
      | _ :: _ :: _ :: x, hb => simp at hb; exact ih h2 hb.2.2.2
    · match x, hb with
      | [], hb => simp at hb; simp [utf8Cont]; omega
      | [_], hb => simp at hb; omega
      | [_, _], hb => simp at hb; omega
      | [_, _, _], hb => simp at hb; omega
      | _ :: _ :: _ :: _ :: x, hb => simp at hb; exact ih h2 hb.2.2.2.2

/-- The encoding has as many bytes as there are characters only if all are ASCII. -/
theorem utf8_length {cs bs : List Nat} (h : utf8Encode cs = some bs) :
    cs.length ≤ bs.length ∧ (bs.length = cs.length → bs = cs ∧ ∀ c ∈ cs, c < 0x80) := by
  induction cs generalizing bs with
  | nil =>
    have := Option.some.inj h
    subst this
    simp
  | cons c cs ih =>
    obtain ⟨e, r, h1, h2, rfl⟩ := utf8Encode_cons h
    obtain ⟨i1, i2⟩ := ih h2
    rcases utf8Char_cases h1 with ⟨k1, rfl⟩ | ⟨k1, k2, rfl⟩ | ⟨k1, k2, k3, rfl⟩ | ⟨k1, k2, rfl⟩
    · refine ⟨by simp; omega, fun hl => ?_⟩
      obtain ⟨j1, j2⟩ := i2 (by simpa using hl)
      exact ⟨by rw [j1]; rfl, by simpa using ⟨k1, j2⟩⟩
    all_goals
      refine ⟨by simp; omega, fun hl => ?_⟩
      simp at hl
      omega

end Sedaman
