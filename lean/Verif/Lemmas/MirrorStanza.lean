import Verif.Lemmas.Mirror
import Verif.Lemmas.E2E

/-!
# Trailer stanzas behind traces of variable length, in both byte orders
-/

namespace Sedaman

open Spec

theorem numAt {α : Type} {n : Nat} {g : Nat → α} {r : ByteOrder → Rd α} (h : NumRd n g r) (bo : ByteOrder) {b : Bytes} {i : Nat}
    (hi : i + n ≤ b.length) : readAt b i (r bo) = .ok (g (decNat bo ((b.drop i).take n))) := by
  unfold readAt
  rw [if_pos (by omega), h, if_pos (by rw [List.length_drop]; omega), ok_bind]
  rfl

theorem slice_slice (c : Bytes) {p n i k : Nat} (h : i + k ≤ n) :
    ((((c.drop p).take n).drop i).take k) = (c.drop (p + i)).take k := by
  rw [List.drop_take, List.take_take, Nat.min_eq_left (by omega), List.drop_drop]

/-- The walk passes over a trace that says how long it is. -/
theorem walk_announced {bo : ByteOrder} {ma : Int} {w : Nat} {c : Bytes} (hw : w ≤ 8) (h : Announces bo ma w c)
    (pre rest : Bytes) :
    skipVarTrace bo ma w ⟨pre ++ (c ++ rest), pre.length⟩ = .ok ⟨pre ++ (c ++ rest), (pre ++ c).length⟩ := by
  unfold Announces at h
  by_cases hz : ma = 0
  · rw [if_pos hz] at h
    obtain ⟨n, hn, hl⟩ := h
    have e1 : c = c.take 240 ++ c.drop 240 := (List.take_append_drop 240 c).symm
    have l1 : (c.take 240).length = 240 := by rw [List.length_take]; omega
    have r1 : File.read ⟨pre ++ (c ++ rest), pre.length⟩ trHeaderSize =
        .ok (c.take 240, ⟨pre ++ (c ++ rest), pre.length + 240⟩) := by
      have := read_chunk pre (c.take 240) (c.drop 240 ++ rest) (n := 240) l1
      rw [← List.append_assoc (c.take 240), ← e1] at this
      exact this
    have hs : ((c.take 240).drop 114).take 2 = (c.drop 114).take 2 := by
      have := slice_slice c (p := 0) (n := 240) (i := 114) (k := 2) (by omega)
      rw [List.drop_zero, Nat.zero_add] at this
      exact this
    have hl2 : ((c.drop 114).take 2).length = 2 := by rw [List.length_take, List.length_drop]; omega
    have hr := numAt numRd_i16 bo (b := c.take 240) (i := 114) (by rw [l1]; omega)
    rw [hs] at hr
    rw [decInt_eq, hl2] at hn
    rw [hn] at hr
    have hbound : n < 32768 := by
      have := (toS_fits (n := 2) (by decide) (decNat bo ((c.drop 114).take 2))).2
      rw [hn] at this
      norm_num at this
      omega
    have hu : toU 4 (n : Int) = n := by
      unfold toU
      norm_num
      omega
    have hmul : n * w < 2 ^ 32 := by
      have : n * w ≤ n * 8 := Nat.mul_le_mul (Nat.le_refl _) hw
      omega
    unfold skipVarTrace
    rw [r1, ok_bind]
    simp only
    rw [hr, ok_bind, if_neg (by rw [hz]; simp), hu, Nat.mod_eq_of_lt hmul, seekCur_nat]
    simp only [List.length_append]
    rw [hl, ← Nat.add_assoc]
  · rw [if_neg hz] at h
    obtain ⟨n, k, hn, hk, hk0, hk1, hmul, hl⟩ := h
    have l1 : (c.take 240).length = 240 := by rw [List.length_take]; omega
    have l2 : ((c.drop 240).take 240).length = 240 := by rw [List.length_take, List.length_drop]; omega
    have e2 : c.drop 240 = (c.drop 240).take 240 ++ (c.drop 240).drop 240 := (List.take_append_drop 240 _).symm
    have e1 : c = c.take 240 ++ ((c.drop 240).take 240 ++ (c.drop 240).drop 240) := by
      rw [← e2, List.take_append_drop]
    have r1 : File.read ⟨pre ++ (c ++ rest), pre.length⟩ trHeaderSize =
        .ok (c.take 240, ⟨pre ++ (c ++ rest), pre.length + 240⟩) := by
      have := read_chunk pre (c.take 240) (c.drop 240 ++ rest) (n := 240) l1
      rw [← List.append_assoc (c.take 240), List.take_append_drop] at this
      exact this
    have r2 : File.read ⟨pre ++ (c ++ rest), pre.length + 240⟩ trHeaderSize =
        .ok ((c.drop 240).take 240, ⟨pre ++ (c ++ rest), pre.length + 240 + 240⟩) := by
      have := read_chunk (pre ++ c.take 240) ((c.drop 240).take 240) ((c.drop 240).drop 240 ++ rest) (n := 240) l2
      rw [List.append_assoc pre, ← List.append_assoc ((c.drop 240).take 240), List.take_append_drop,
        ← List.append_assoc (c.take 240), List.take_append_drop, List.length_append, l1] at this
      exact this
    have hr1 := numAt numRd_i16 bo (b := c.take 240) (i := 114) (by rw [l1]; omega)
    have hr2 := numAt numRd_u32 bo (b := (c.drop 240).take 240) (i := 136) (by rw [l2]; omega)
    have hr3 := numAt numRd_u16 bo (b := (c.drop 240).take 240) (i := 156) (by rw [l2]; omega)
    rw [slice_slice c (by omega)] at hr2 hr3
    rw [show 240 + 136 = 376 from rfl, hn] at hr2
    have hk' : (if decNat bo ((c.drop 396).take 2) ≠ 0 then decNat bo ((c.drop 396).take 2) else toU 2 ma) = k := by
      rcases hk with hk | ⟨hk, hm⟩
      · rw [hk, if_pos (by omega)]
      · rw [hk, if_neg (by simp), hm]
        unfold toU
        norm_num
        omega
    unfold skipVarTrace
    rw [r1, ok_bind]
    simp only
    rw [hr1, ok_bind, if_pos hz, r2, ok_bind]
    simp only
    rw [hr2, ok_bind, hr3, ok_bind]
    simp only [id]
    rw [show 240 + 156 = 396 from rfl, hk', show ((k : Int) - 1) * (trHeaderSize : Nat) = (((k - 1) * 240 : Nat) : Int) by
      unfold trHeaderSize; omega, seekCur_nat, ok_bind, Nat.mod_eq_of_lt hmul, seekCur_nat]
    simp only [List.length_append]
    congr 2
    omega

theorem walks_announced {bo : ByteOrder} {ma : Int} {w : Nat} {cs : List Bytes} (hw : w ≤ 8)
    (h : ∀ c ∈ cs, Announces bo ma w c) (pre rest : Bytes) :
    skipVarTraces bo ma w cs.length ⟨pre ++ (cs.flatten ++ rest), pre.length⟩ =
      .ok ⟨pre ++ (cs.flatten ++ rest), (pre ++ cs.flatten).length⟩ := by
  induction cs generalizing pre with
  | nil => simp [skipVarTraces]
  | cons c cs ih =>
    rw [List.length_cons]
    unfold skipVarTraces
    rw [List.flatten_cons, List.append_assoc, walk_announced hw (h c List.mem_cons_self), ok_bind]
    have := ih (fun x hx => h x (List.mem_cons_of_mem _ hx)) (pre ++ c)
    simp only [List.append_assoc] at this ⊢
    exact this

/-- A trace says the same in the other byte order. -/
theorem announces_mirror {bo bo' : ByteOrder} (hbo : bo ≠ bo') {ma : Int} {w : Nat} {c c' : Bytes} (hl : c'.length = c.length)
    (hm : MirrorCount ma c c') (h : Announces bo ma w c) : Announces bo' ma w c' := by
  unfold Announces MirrorCount at *
  split at h
  · rename_i hz
    rw [if_pos hz] at hm ⊢
    obtain ⟨n, hn, hc⟩ := h
    refine ⟨n, ?_, hl.trans hc⟩
    unfold Mirrored at hm
    rw [decInt_eq] at hn ⊢
    rw [hm, decNat_reverse hbo, List.length_reverse, hn]
  · rename_i hz
    rw [if_neg hz] at hm ⊢
    obtain ⟨n, k, hn, hk, h1, h2, h3, hc⟩ := h
    unfold Mirrored at hm
    refine ⟨n, k, ?_, ?_, h1, h2, h3, hl.trans hc⟩
    · rw [hm.1, decNat_reverse hbo, hn]
    · rw [hm.2, decNat_reverse hbo]
      exact hk

theorem announces_all {bo bo' : ByteOrder} (hbo : bo ≠ bo') {ma : Int} {w : Nat} {cs cs' : List Bytes}
    (hl : List.Forall₂ (fun c c' : Bytes => c'.length = c.length) cs cs') (hm : List.Forall₂ (MirrorCount ma) cs cs')
    (h : ∀ c ∈ cs, Announces bo ma w c) : ∀ c ∈ cs', Announces bo' ma w c := by
  induction hl with
  | nil => intro c hc; cases hc
  | cons k1 k2 ih =>
    cases hm with
    | cons q1 q2 =>
      intro c hc
      rcases List.mem_cons.1 hc with rfl | hc
      · exact announces_mirror hbo k1 q1 (h _ List.mem_cons_self)
      · exact ih q2 (fun x hx => h x (List.mem_cons_of_mem _ hx)) c hc

/-- The search for the end stanza depends on the bytes from the position on. -/
theorem until_tail {n : Nat} {A B t : Bytes} (hl : B.length = A.length) {recs : List Bytes} {f : File} {k : Nat}
    (h : readUntilEnd n ⟨A ++ t, A.length + k⟩ = .ok (recs, f)) :
    readUntilEnd n ⟨B ++ t, A.length + k⟩ = .ok (recs, ⟨B ++ t, f.pos⟩) := by
  induction n generalizing k recs f with
  | zero => cases h
  | succ n ih =>
    unfold readUntilEnd at h ⊢
    obtain ⟨⟨b, f1⟩, h1, h⟩ := bind_ok h
    obtain ⟨e1, e2, rfl⟩ := read_ok h1
    simp only at e1 h
    have hd : ∀ X : Bytes, X.length = A.length → (X ++ t).drop (A.length + k) = t.drop k := by
      intro X hX
      rw [← hX, List.drop_append, List.drop_eq_nil_of_le (by omega), List.nil_append, Nat.add_sub_cancel_left]
    have r1 : File.read ⟨B ++ t, A.length + k⟩ textHeaderSize = .ok (b, ⟨B ++ t, A.length + k + textHeaderSize⟩) := by
      rw [read_eq (f := ⟨B ++ t, A.length + k⟩) (n := textHeaderSize) (by
        simp only
        rw [hd B hl, ← hd A rfl, ← e1, e2])]
      simp only
      rw [hd B hl, ← hd A rfl, ← e1]
    rw [r1, ok_bind]
    simp only
    split at h
    · rename_i he
      rw [if_pos he]
      cases h
      rfl
    · rename_i he
      rw [if_neg he]
      obtain ⟨⟨more, f2⟩, h2, h⟩ := bind_ok h
      cases h
      rw [Nat.add_assoc] at h2
      rw [Nat.add_assoc, ih h2]
      rfl

theorem flatten_same {cs cs' : List Bytes} (h : List.Forall₂ (fun c c' => c'.length = c.length) cs cs') :
    cs'.flatten.length = cs.flatten.length := by
  induction h with
  | nil => rfl
  | cons h _ ih => rw [List.flatten_cons, List.flatten_cons, List.length_append, List.length_append, h, ih]

theorem mirror_length {m : HdrMap} {n w : Nat} {c c' : Bytes} (h : MirrorTrace m n w c c') : c'.length = c.length := by
  obtain ⟨hd, hd', ps, rfl, rfl, hh, hh', hp, -⟩ := h
  rw [List.length_append, List.length_append, hh, hh', flatten_length_const w hp,
    flatten_length_const w (recs := ps.map List.reverse) (by
      intro p hp'
      obtain ⟨q, hq, rfl⟩ := List.mem_map.1 hp'
      rw [List.length_reverse]
      exact hp q hq), List.length_map]

end Sedaman
