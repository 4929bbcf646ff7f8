import Verif.Lemmas.OSEGYDisk
import Verif.Model.Stream

/-!
# Streams on a device that stops accepting bytes
-/

namespace Sedaman

open Spec

/-- The bytes `X` were written to the stream and `j` of them were handed over. -/
structure StreamInv (N : Nat) (X : List (Byte × Nat)) (s : Stream) (j : Nat) : Prop where
  le : j ≤ X.length
  kept : s.kept = X.drop j
  disk : s.disk = (X.take (min j N)).foldl storeByte []
  free : s.free = N - j
  bad : s.bad = decide (N < j)

theorem StreamInv.hand {N : Nat} {X : List (Byte × Nat)} {s : Stream} {j : Nat} (h : StreamInv N X s j) (n : Nat) :
    StreamInv N X (s.hand n) (min (j + n) X.length) := by
  have hlen : (s.kept.take n).length = min (j + n) X.length - j := by
    rw [h.kept, List.length_take, List.length_drop]
    have := h.le
    omega
  refine ⟨Nat.min_le_right _ _, ?_, ?_, ?_, ?_⟩
  · show s.kept.drop n = _
    rw [h.kept, List.drop_drop]
    rcases Nat.le_total (j + n) X.length with hh | hh
    · rw [Nat.min_eq_left hh]
    · rw [Nat.min_eq_right hh, List.drop_of_length_le hh, List.drop_length]
  · show ((s.kept.take n).take s.free).foldl storeByte s.disk = _
    rw [h.disk, ← List.foldl_append, h.kept, h.free]
    congr 1
    have hle := h.le
    rcases Nat.le_total j N with hj | hj
    · rw [Nat.min_eq_left hj, List.take_take, ← List.take_add]
      rcases Nat.le_total (j + n) X.length with hh | hh
      · congr 1
        omega
      · rw [Nat.min_eq_right hh]
        rcases Nat.le_total N X.length with h2 | h2
        · congr 1
          omega
        · rw [Nat.min_eq_left h2, List.take_length, List.take_of_length_le (by omega)]
    · rw [show N - j = 0 by omega, List.take_zero, List.append_nil]
      congr 1
      omega
  · show s.free - _ = _
    rw [hlen, h.free]
    have := h.le
    omega
  · show (s.bad || decide (s.free < _)) = _
    rw [hlen, h.free, h.bad, Bool.eq_iff_iff]
    simp only [Bool.or_eq_true, decide_eq_true_eq]
    have := h.le
    omega

theorem StreamInv.more {N : Nat} {X : List (Byte × Nat)} {s : Stream} {j : Nat} (h : StreamInv N X s j) (Y : List (Byte × Nat)) :
    StreamInv N (X ++ Y) { s with kept := s.kept ++ Y } j := by
  have hle := h.le
  refine ⟨by rw [List.length_append]; omega, ?_, ?_, h.free, h.bad⟩
  · show s.kept ++ Y = _
    rw [h.kept, List.drop_append_of_le_length hle]
  · show s.disk = _
    rw [h.disk, List.take_append_of_le_length (by omega)]

theorem StreamInv.write {N cap : Nat} {X : List (Byte × Nat)} {s : Stream} {j : Nat} (h : StreamInv N X s j) (n : Nat) (p : Put) :
    ∃ j', StreamInv N (X ++ Put.each p) (s.write cap n p) j' ∧ j ≤ j' ∧ (X ++ Put.each p).length ≤ j' + cap := by
  have h1 := (h.more (Put.each p)).hand (max n ((s.kept ++ Put.each p).length - cap))
  refine ⟨_, h1, ?_, ?_⟩
  · have := h.le
    have hl : X.length ≤ (X ++ Put.each p).length := by rw [List.length_append]; omega
    omega
  · have hk : (s.kept ++ Put.each p).length = (X ++ Put.each p).length - j := by
      have := h.le
      rw [List.length_append, List.length_append, h.kept, List.length_drop]
      omega
    rw [hk]
    omega

/-- A call. -/
theorem StreamInv.call {N cap : Nat} {sched : Nat → Nat} {X : List (Byte × Nat)} {s : Stream} {j : Nat} (i : Nat) (ps : List Put)
    (h : StreamInv N X s j) (hc : X.length ≤ j + cap) (hb : s.bad = false) :
    ∃ Y rest j', ps.flatMap Put.each = Y ++ rest ∧ StreamInv N (X ++ Y) (s.call cap sched i ps) j' ∧
      (X ++ Y).length ≤ j' + cap ∧ ((s.call cap sched i ps).bad = false → rest = []) := by
  induction ps generalizing X s j i with
  | nil => exact ⟨[], [], j, rfl, by rw [List.append_nil]; exact h, by rw [List.append_nil]; exact hc, fun _ => rfl⟩
  | cons p ps ih =>
    obtain ⟨j1, h1, -, h3⟩ := h.write (cap := cap) (sched i) p
    unfold Stream.call
    simp only
    cases hb1 : (s.write cap (sched i) p).bad with
    | true =>
      simp only [if_true]
      exact ⟨Put.each p, ps.flatMap Put.each, j1, by rw [List.flatMap_cons], h1, h3, fun c => by rw [hb1] at c; cases c⟩
    | false =>
      simp only [Bool.false_eq_true, if_false]
      obtain ⟨Y, rest, j2, g1, g2, g3, g4⟩ := ih (i + 1) h1 h3 hb1
      refine ⟨Put.each p ++ Y, rest, j2, by rw [List.flatMap_cons, g1, List.append_assoc], ?_, ?_, g4⟩
      · rw [← List.append_assoc]; exact g2
      · rw [← List.append_assoc]; exact g3

theorem each_length (ps : List Put) : (ps.flatMap Put.each).length = handedOver ps := by
  simp [handedOver, List.length_flatMap, Put.each]

/-- A program. -/
theorem StreamInv.run {N cap : Nat} {sched : Nat → Nat} {X : List (Byte × Nat)} {s : Stream} {j : Nat} (i : Nat)
    (cs : List (List Put)) (h : StreamInv N X s j) (hc : X.length ≤ j + cap) (hb : s.bad = false) :
    ∃ Y rest j', cs.flatten.flatMap Put.each = Y ++ rest ∧ StreamInv N (X ++ Y) (s.run cap sched i cs).2 j' ∧
      (X ++ Y).length ≤ j' + cap ∧ (s.run cap sched i cs).1 ≤ cs.length ∧
      X.length + handedOver (cs.take (s.run cap sched i cs).1).flatten ≤ N + cap ∧
      (((s.run cap sched i cs).2.bad = false ∧ (s.run cap sched i cs).1 = cs.length ∧ rest = []) ∨
       ((s.run cap sched i cs).2.bad = true ∧ (s.run cap sched i cs).1 < cs.length ∧
        N < X.length + handedOver (cs.take ((s.run cap sched i cs).1 + 1)).flatten)) := by
  have hjN : j ≤ N := by
    have := h.bad
    rw [hb] at this
    have := of_decide_eq_false this.symm
    omega
  induction cs generalizing X s j i with
  | nil =>
    exact ⟨[], [], j, rfl, by rw [List.append_nil]; exact h, by rw [List.append_nil]; exact hc, Nat.le_refl _,
      by
        show X.length + 0 ≤ N + cap
        omega,
      .inl ⟨hb, rfl, rfl⟩⟩
  | cons c cs ih =>
    obtain ⟨Y, rest, j1, g1, g2, g3, g4⟩ := h.call (cap := cap) (sched := sched) i c hc hb
    unfold Stream.run
    simp only
    cases hb1 : (s.call cap sched i c).bad with
    | true =>
      simp only [if_true]
      have hN : N < j1 := by
        have := g2.bad
        rw [hb1] at this
        exact of_decide_eq_true this.symm
      refine ⟨Y, rest ++ cs.flatten.flatMap Put.each, j1, ?_, g2, g3, Nat.zero_le _, ?_, .inr ⟨hb1, by simp, ?_⟩⟩
      · rw [List.flatten_cons, List.flatMap_append, g1, List.append_assoc]
      · show X.length + 0 ≤ N + cap
        omega
      · have e := congrArg List.length g1
        rw [each_length, List.length_append] at e
        have := g2.le
        rw [List.length_append] at this
        show N < X.length + handedOver ((c :: cs).take 1).flatten
        rw [List.take_succ_cons, List.take_zero, List.flatten_cons, List.flatten_nil, List.append_nil]
        omega
    | false =>
      simp only [Bool.false_eq_true, if_false]
      have hr := g4 hb1
      subst hr
      rw [List.append_nil] at g1
      have hN : j1 ≤ N := by
        have := g2.bad
        rw [hb1] at this
        have := of_decide_eq_false this.symm
        omega
      obtain ⟨Z, rest, j2, k1, k2, k3, k4, k5, k6⟩ := ih (i + c.length) g2 g3 hb1 hN
      have hl : (X ++ Y).length = X.length + handedOver c := by
        rw [List.length_append, ← g1, each_length]
      have hh : ∀ n, handedOver ((c :: cs).take (n + 1)).flatten = handedOver c + handedOver (cs.take n).flatten := by
        intro n
        rw [List.take_succ_cons, List.flatten_cons]
        simp [handedOver]
      refine ⟨Y ++ Z, rest, j2, ?_, by rw [← List.append_assoc]; exact k2, by rw [← List.append_assoc]; exact k3,
        by simpa using k4, ?_, ?_⟩
      · rw [List.flatten_cons, List.flatMap_append, g1, k1, List.append_assoc]
      · rw [hh]
        omega
      · rcases k6 with ⟨a1, a2, a3⟩ | ⟨a1, a2, a3⟩
        · exact .inl ⟨a1, by rw [a2, List.length_cons], a3⟩
        · refine .inr ⟨a1, by rw [List.length_cons]; omega, ?_⟩
          rw [hh]
          omega

theorem streamFresh_inv (N : Nat) : StreamInv N [] (.fresh N) 0 := ⟨Nat.le_refl _, rfl, by simp; rfl, rfl, rfl⟩

/-- All bytes handed over. -/
theorem StreamInv.flush {N : Nat} {X : List (Byte × Nat)} {s : Stream} {j : Nat} (h : StreamInv N X s j) :
    StreamInv N X s.flush X.length := by
  have := h.hand s.kept.length
  have hl : min (j + s.kept.length) X.length = X.length := by
    have := h.le
    rw [h.kept, List.length_drop]
    omega
  rw [hl] at this
  exact this

theorem StreamInv.flushed {N : Nat} {X rest : List (Byte × Nat)} {s : Stream} {j : Nat} (h : StreamInv N X s j)
    (hr : rest = [] ∨ N < j) : s.flush.disk = ((X ++ rest).take N).foldl storeByte [] := by
  have h2 := h.flush
  rw [h2.disk]
  congr 1
  rcases hr with rfl | hr
  · rw [List.append_nil]
    rcases Nat.le_total N X.length with h3 | h3
    · rw [Nat.min_eq_right h3]
    · rw [Nat.min_eq_left h3, List.take_length, List.take_of_length_le h3]
  · have := h.le
    rw [List.take_append_of_le_length (by omega), Nat.min_eq_right (by omega)]

theorem lazy_write {N cap : Nat} {X : List (Byte × Nat)} {s : Stream} (h : StreamInv N X s (X.length - cap)) (p : Put) :
    StreamInv N (X ++ Put.each p) (s.write cap 0 p) ((X ++ Put.each p).length - cap) := by
  have h1 := (h.more (Put.each p)).hand (max 0 ((s.kept ++ Put.each p).length - cap))
  have e : min (X.length - cap + max 0 ((s.kept ++ Put.each p).length - cap)) (X ++ Put.each p).length =
      (X ++ Put.each p).length - cap := by
    rw [List.length_append, List.length_append, h.kept, List.length_drop]
    omega
  rw [e] at h1
  exact h1

/-- A stream that hands over as little as it can. -/
theorem lazy_call {N cap : Nat} {X : List (Byte × Nat)} {s : Stream} (i : Nat) (ps : List Put)
    (h : StreamInv N X s (X.length - cap)) (hb : s.bad = false) (hN : X.length + handedOver ps ≤ N + cap) :
    (s.call cap (fun _ => 0) i ps).bad = false ∧
      StreamInv N (X ++ ps.flatMap Put.each) (s.call cap (fun _ => 0) i ps) ((X ++ ps.flatMap Put.each).length - cap) := by
  induction ps generalizing X s i with
  | nil =>
    refine ⟨hb, ?_⟩
    rw [List.flatMap_nil, List.append_nil]
    exact h
  | cons p ps ih =>
    have h1 := lazy_write h p
    have e : handedOver (p :: ps) = (Put.each p).length + handedOver ps := by
      simp [handedOver, Put.each]
    have hb1 : (s.write cap 0 p).bad = false := by
      rw [h1.bad, decide_eq_false_iff_not, List.length_append]
      omega
    unfold Stream.call
    simp only [hb1, Bool.false_eq_true, if_false]
    have := ih (i + 1) h1 hb1 (by rw [List.length_append]; omega)
    rw [List.flatMap_cons, ← List.append_assoc]
    exact this

theorem lazy_run {N cap : Nat} {X : List (Byte × Nat)} {s : Stream} {j : Nat} (i : Nat) (cs : List (List Put))
    (h : StreamInv N X s j) (hj : j = X.length - cap) (hb : s.bad = false) (hN : X.length + handedOver cs.flatten ≤ N + cap) :
    (s.run cap (fun _ => 0) i cs).1 = cs.length ∧ (s.run cap (fun _ => 0) i cs).2.bad = false := by
  subst hj
  induction cs generalizing X s i with
  | nil => exact ⟨rfl, hb⟩
  | cons c cs ih =>
    have e : handedOver (c :: cs).flatten = handedOver c + handedOver cs.flatten := by
      simp [handedOver]
    obtain ⟨h1, h2⟩ := lazy_call i c h hb (by omega)
    unfold Stream.run
    simp only [h1, Bool.false_eq_true, if_false]
    obtain ⟨h3, h4⟩ := ih (i + c.length) h1 (by rw [List.length_append, each_length]; omega) h2
    exact ⟨by rw [h3, List.length_cons], h4⟩

/-- The calls together are the program. -/
theorem traceCalls_flatten (step : Writer → Trace → Out Writer) (puts : Writer → Trace → List Put) (w : Writer)
    (ts : List Trace) : (traceCalls step puts w ts).flatten = callPuts step puts w ts := by
  induction ts generalizing w with
  | nil => rfl
  | cons t ts ih =>
    unfold traceCalls callPuts
    rw [List.flatten_cons]
    congr 1
    cases step w t with
    | error e => rfl
    | ok w' => exact ih w'

end Sedaman
