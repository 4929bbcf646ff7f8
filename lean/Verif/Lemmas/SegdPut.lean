import Verif.Model.SegdSample
import Verif.Lemmas.SegdCur

/-!
# The loop that writes the samples of a SEG-D trace
-/

namespace Sedaman

theorem wrPut_any {bs : Bytes} (d r : Bytes) (h : bs.length ≤ r.length) :
    wrPut bs ⟨d, r⟩ = .ok ((), ⟨d ++ bs, r.drop bs.length⟩) := by
  unfold wrPut
  exact if_pos h

theorem wrSamples_ok {w : Dbl → Out Bytes} {f : Dbl → Bytes} {descale : Dbl} (n : Nat)
    (xs : List Dbl) (p : List Dbl) (d room : Bytes)
    (h : ∀ x ∈ xs, w (ddiv x descale) = .ok (f x) ∧ (f x).length = n) (hr : xs.length * n ≤ room.length) :
    wrSamples (.bytes w) descale xs p ⟨d, room⟩
      = .ok (p, ⟨d ++ xs.flatMap f, room.drop (xs.length * n)⟩) := by
  induction xs generalizing d room with
  | nil => simp [wrSamples, wr_pure]
  | cons x t ih =>
    obtain ⟨h1, h2⟩ := h x (by simp)
    have hl : (x :: t).length * n = n + t.length * n := by simp [Nat.add_mul, Nat.add_comm]
    rw [hl] at hr ⊢
    unfold wrSamples SampleWr.put
    rw [wr_bind]
    unfold wrLift
    simp only [wr_bind, h1, ok_bind, pure_eq_ok]
    rw [wrPut_any d room (by omega), ok_bind]
    simp only [wr_pure, ok_bind]
    rw [ih _ _ (fun y hy => h y (by simp [hy])) (by simp; omega)]
    rw [List.flatMap_cons, List.append_assoc, h2, List.drop_drop]

/-- What the formats of plain numbers append depends only on the room in the buffer. -/
theorem wrSamples_any {w : Dbl → Out Bytes} {descale : Dbl} (xs : List Dbl) (p : List Dbl) (d r : Bytes)
    (q : List Dbl) (c : Cur) (h : wrSamples (.bytes w) descale xs p ⟨d, r⟩ = .ok (q, c)) (p2 : List Dbl)
    (r2 : Bytes) (hl : r2.length = r.length) :
    ∃ r3, wrSamples (.bytes w) descale xs p2 ⟨d, r2⟩ = .ok (p2, ⟨c.done, r3⟩) ∧
      r3.length = c.rest.length := by
  induction xs generalizing p d r r2 with
  | nil =>
    simp only [wrSamples, wr_pure, Except.ok.injEq, Prod.mk.injEq] at h ⊢
    obtain ⟨-, rfl⟩ := h
    exact ⟨r2, by simp, hl⟩
  | cons x t ih =>
    unfold wrSamples SampleWr.put at h ⊢
    rw [wr_bind] at h ⊢
    unfold wrLift at h ⊢
    simp only [wr_bind] at h ⊢
    cases hw : w (ddiv x descale) with
    | error e => rw [hw] at h; cases h
    | ok bs =>
      rw [hw] at h
      simp only [ok_bind, pure_eq_ok] at h ⊢
      by_cases hb : bs.length ≤ r.length
      · rw [wrPut_any d r hb] at h
        rw [wrPut_any d r2 (by omega)]
        simp only [ok_bind, wr_pure] at h ⊢
        exact ih _ _ _ h _ (by simp [hl])
      · have : wrPut bs ⟨d, r⟩ = isUb .outOfBounds := if_neg hb
        rw [this] at h; cases h

theorem resizeTo_length (n : Nat) (b : Bytes) : (resizeTo n b).length = n := by
  unfold resizeTo; simp; omega

end Sedaman
