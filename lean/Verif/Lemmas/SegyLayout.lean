import Verif.Spec.SegyLayout
import Verif.Lemmas.WriteInv

/-!
# Lemmas about the layout of SEG-Y files
-/

namespace Sedaman
open Spec

theorem sampleSizes_of {f : Int} {n : Nat} (hf : f ∈ supportedFormats) (h : bytesPerSample f = some n) :
    (f, n) ∈ sampleSizes := by
  have e : ∀ g ∈ supportedFormats, ∀ k ∈ bytesPerSample g, (g, k) ∈ sampleSizes := by decide +kernel
  exact e f hf n h

theorem opened_laid {rev0 : Bool} {rev : Rev} {t : Bytes} {ts trailers : List Bytes} {bh : BinHeader}
    {m : HdrMap} {bo : ByteOrder} {bps : Nat} (ht : 3200 ≤ t.length) (hts : ∀ x ∈ ts, 3200 ≤ x.length)
    (h0 : rev0 = true → ts = [])
    (hi : WInv2 rev (openedWriter rev0 t ts trailers bh m bo bps)) :
    LaidOut rev (openedWriter rev0 t ts trailers bh m bo bps).texts
      (openedWriter rev0 t ts trailers bh m bo bps).bh [] []
      (openedWriter rev0 t ts trailers bh m bo bps).file.data := by
  refine ⟨t, ts, binHeaderBytes bo (fmtOr rev0 bh), [], _, rfl, ?_, binHeaderBytes_length _ _,
    sampleSizes_of hi.fmt hi.bps, List.Forall₂.nil, ?_⟩
  · intro x hx
    rcases List.mem_cons.mp hx with rfl | hx
    · exact ht
    · exact hts x hx
  · unfold openedWriter
    cases rev0 with
    | true => simp [h0 rfl]
    | false => simp [textBytes]

theorem opens_laid {rev : Rev} {w : Writer} (h : Opens rev w) : LaidOut rev w.texts w.bh [] [] w.file.data := by
  have hi := opens_inv2 h
  cases rev with
  | r0 =>
    obtain ⟨text, bh, m, h⟩ := h
    obtain ⟨-, t, bo, bps, h1, -, -, -, h2, h3, rfl⟩ := openRev0_ok h
    exact opened_laid h1 (by simp) (by simp) hi
  | r1 =>
    obtain ⟨texts, bh, m, hl, h⟩ := h
    obtain ⟨-, t, ts, bo, bps, h1, h1', h2, h3, -, h4, h5, rfl⟩ := openRev1_ok h
    exact opened_laid h1 h1' (by simp) hi
  | r2 =>
    obtain ⟨texts, bh, trailers, m, hl, h⟩ := h
    obtain ⟨-, -, t, ts, bo, bps, h1, h1', h2, h3, -, h4, h5, rfl⟩ := openRev2_ok h
    exact opened_laid h1 h1' (by simp) hi

theorem furtherBlocks_same {rev : Rev} {a b : BinHeader} (h : a.maxNumAddTrHeaders = b.maxNumAddTrHeaders) :
    furtherBlocks rev a = furtherBlocks rev b := by
  unfold furtherBlocks; rw [h]

set_option maxRecDepth 20000 in
theorem written_laid {est : LogEst} {rev : Rev} {w0 w : Writer} {ts : List Trace} (ho : Opens rev w0)
    (h : Written (rev.write est) w0 ts w) : LaidOut rev w0.texts w.bh ts [] w.file.data := by
  have hi0 := opens_inv2 ho
  induction h with
  | opened => exact opens_laid ho
  | @wrote ts t w w' hw hs ih =>
    obtain ⟨text, others, bin, pieces, size, e1, e2, e3, e4, e5, e6⟩ := ih
    obtain ⟨i1, i2, -, -, -, -, -, i8⟩ := written_inv2 hi0 hw
    obtain ⟨j, s, k0, k1, k2, k3, -, n, hn, hl⟩ := step_full i1 hs
    obtain ⟨ia, ka, hc⟩ := autoHdrs_ok i1.inv s.auto
    have hsz : size = w.bps := by
      have a := sampleSizes_of i1.fmt i1.bps
      have u : ∀ p ∈ sampleSizes, ∀ q ∈ sampleSizes, p.1 = q.1 → p.2 = q.2 := by decide +kernel
      exact u _ e4 _ a rfl
    have hp : TracePiece rev w'.bh size t (s.hb ++ (s.add ++ w'.samp)) := by
      refine ⟨n, hn, ?_⟩
      rw [List.length_append, List.length_append, s.hdrLen, k0, hl, hsz, furtherBlocks_same k3]
      unfold furtherBlocks
      cases rev <;> simp [Nat.mul_add, Nat.add_assoc]
    have hd := s.app.data
    have e4' : (w'.bh.formatCode, size) ∈ sampleSizes := by rw [k2]; exact e4
    split at hc
    · rename_i ha
      have h3600 := i1.inv.autoFirst ha.1
      have hts : ts = [] := by
        by_contra c
        have := i8 c
        omega
      subst hts
      cases e5
      have hot : (others.map (·.take 3200)).flatten = [] := by
        have hlen := congrArg List.length e6
        have := e2 text (by rw [e1]; simp)
        simp only [List.length_append, List.length_take, List.flatten_nil, List.length_nil, e3] at hlen
        apply List.eq_nil_of_length_eq_zero
        omega
      refine ⟨text, others, binHeaderBytes w.bo s.wa.bh, [s.hb ++ (s.add ++ w'.samp)], size, e1, e2,
        binHeaderBytes_length _ _, e4', List.Forall₂.cons hp List.Forall₂.nil, ?_⟩
      rw [hd, hc.2, e6, hot]
      have := e2 text (by rw [e1]; simp)
      have ht : (text.take 3200).length = 3200 := by rw [List.length_take]; omega
      simp only [List.append_nil, List.flatten_nil, List.flatten_cons]
      rw [List.take_append_of_le_length (by omega), List.take_of_length_le (l := text.take 3200) (by omega)]
    · have hb : w'.bh = w.bh := by rw [s.app.bh, hc]
      refine ⟨text, others, bin, pieces ++ [s.hb ++ (s.add ++ w'.samp)], size, e1, e2, e3, e4', ?_, ?_⟩
      · rw [hb] at hp ⊢
        exact List.rel_append e5 (List.Forall₂.cons hp List.Forall₂.nil)
      · rw [hd, hc, e6]
        simp [List.append_assoc]

theorem headLen {text bin : Bytes} {others : List Bytes} (h1 : 3200 ≤ text.length)
    (h2 : ∀ x ∈ others, 3200 ≤ x.length) (h3 : bin.length = 400) :
    (text.take 3200 ++ bin ++ (others.map (·.take 3200)).flatten).length = 3600 + 3200 * others.length := by
  have := textBytes_length h2
  unfold textBytes at this
  rw [List.length_append, List.length_append, List.length_take, h3, this]
  omega

theorem forall₂_right {α β : Type} {R : α → β → Prop} {xs : List α} {ys : List β} (h : List.Forall₂ R xs ys)
    {y : β} (hy : y ∈ ys) : ∃ x ∈ xs, R x y := by
  induction h with
  | nil => cases hy
  | cons r _ ih =>
    rcases List.mem_cons.mp hy with rfl | hy
    · exact ⟨_, by simp, r⟩
    · obtain ⟨x, h1, h2⟩ := ih hy
      exact ⟨x, by simp [h1], h2⟩

theorem piece_at {L : Nat} {ps : List Bytes} (h : ∀ p ∈ ps, p.length = L) {k : Nat} {p : Bytes}
    (hk : ps[k]? = some p) : p = (ps.flatten.drop (k * L)).take L := by
  induction ps generalizing k with
  | nil => simp at hk
  | cons q qs ih =>
    have hq := h q (by simp)
    cases k with
    | zero =>
      simp only [List.getElem?_cons_zero, Option.some.injEq] at hk
      subst hk
      rw [List.flatten_cons, Nat.zero_mul, List.drop_zero, List.take_left' hq]
    | succ k =>
      rw [List.getElem?_cons_succ] at hk
      rw [List.flatten_cons, Nat.succ_mul, Nat.add_comm, ← List.drop_drop, List.drop_left' hq]
      exact ih (fun x hx => h x (by simp [hx])) hk

end Sedaman
