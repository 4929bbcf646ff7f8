import Verif.Lemmas.WriteStep

/-!
# The sample buffer of a writer
-/

namespace Sedaman

open Spec

theorem toU2_toS2 (n : Int) : (toU 2 (toS 2 (toU 2 n)) : Int) = n % 65536 := by
  unfold toS toU
  norm_num
  split <;> omega

theorem toU2_eq (n : Int) : (toU 2 n : Int) = n % 65536 := by
  unfold toU
  norm_num
  omega

/-- Fixed length traces. -/
def Fix (rev : Rev) (bh : BinHeader) : Prop := rev = .r0 ∨ bh.fixedTrLength ≠ 0

structure WInv2 (rev : Rev) (w : Writer) : Prop where
  inv : WInv w
  fmt : w.bh.formatCode ∈ supportedFormats
  bps : bytesPerSample w.bh.formatCode = some w.bps
  autoBh : w.auto = true → w.bh.fixedTrLength = 0 ∧ w.bh.maxNumAddTrHeaders = 0
  small : w.samp.length < 2 ^ 63
  buf : Fix rev w.bh → (w.auto = true → w.firstPos < w.file.data.length) →
    w.samp.length = toU 2 w.bh.sampPerTr * w.bps

theorem bps_small {f : Int} {n : Nat} (h : bytesPerSample f = some n) : 1 ≤ n ∧ n ≤ 8 := by
  unfold bytesPerSample at h
  split at h <;> first | (cases h; decide) | cases h

theorem ite_le {p : Prop} [Decidable p] {a b c : Nat} (h1 : a ≤ c) (h2 : b ≤ c) :
    (if p then a else b) ≤ c := by split <;> assumption

theorem toU2_lt (n : Int) : toU 2 n < 65536 := by
  have := toU_lt 2 n
  norm_num at this
  exact this

theorem opened_inv2 {rev0 : Bool} {rev : Rev} (hr : rev0 = true ↔ rev = .r0) {t : Bytes}
    {ts trailers : List Bytes} {bh : BinHeader}
    {m : HdrMap} {bo : ByteOrder} {bps : Nat} (ht : 3200 ≤ t.length)
    (hn : rev0 = false → ts.length < 65536) (hfmt : (fmtOr rev0 bh).formatCode ∈ supportedFormats)
    (hb : bytesPerSample (fmtOr rev0 bh).formatCode = some bps) :
    WInv2 rev (openedWriter rev0 t ts trailers bh m bo bps) := by
  have hbs := bps_small hb
  refine ⟨openedWriter_inv ht hn, ?_, ?_, ?_, ?_, ?_⟩
  · unfold openedWriter; simp only [memHeader_fmt]; exact hfmt
  · unfold openedWriter; simp only [memHeader_fmt]; exact hb
  · unfold openedWriter
    simp only [decide_eq_true_eq]
    intro h
    rw [h]
    exact ⟨rfl, rfl⟩
  · unfold openedWriter
    simp only [List.length_replicate]
    have h1 := toU2_lt (memHeader rev0 (ts.length + 1) bh).sampPerTr
    have : toU 2 (memHeader rev0 (ts.length + 1) bh).sampPerTr * bps ≤ 65536 * 8 :=
      Nat.mul_le_mul (by omega) hbs.2
    apply Nat.lt_of_le_of_lt (m := toU 2 (memHeader rev0 (ts.length + 1) bh).sampPerTr * bps)
    · apply ite_le
      · exact Nat.le_refl _
      · exact Nat.zero_le _
    · omega
  · unfold openedWriter
    simp only [List.length_replicate, lt_irrefl, imp_false]
    intro hf ha
    rw [if_pos]
    refine ⟨by simpa using ha, ?_⟩
    rcases hf with hf | hf
    · exact .inl (hr.2 hf)
    · exact .inr hf

theorem opens_inv2 {rev : Rev} {w : Writer} (h : Opens rev w) : WInv2 rev w := by
  cases rev with
  | r0 =>
    obtain ⟨text, bh, m, h⟩ := h
    obtain ⟨-, t, bo, bps, h1, -, -, -, h2, h3, rfl⟩ := openRev0_ok h
    exact opened_inv2 (by simp) h1 (by simp) h2 h3
  | r1 =>
    obtain ⟨texts, bh, m, hl, h⟩ := h
    obtain ⟨-, t, ts, bo, bps, h1, -, h2, h3, -, h4, h5, rfl⟩ := openRev1_ok h
    refine opened_inv2 (by simp) h1 (fun _ => ?_) h4 h5
    by_cases c : texts = []
    · rw [(h3 c).1]; simp
    · rw [(h2 c).1, List.length_cons] at hl; omega
  | r2 =>
    obtain ⟨texts, bh, trailers, m, hl, h⟩ := h
    obtain ⟨-, -, t, ts, bo, bps, h1, -, h2, h3, -, h4, h5, rfl⟩ := openRev2_ok h
    refine opened_inv2 (by simp) h1 (fun _ => ?_) h4 h5
    by_cases c : texts = []
    · rw [(h3 c).1]; simp
    · rw [(h2 c).1, List.length_cons] at hl; omega

theorem mul_neg_toU {n : Int} {b : Nat} (hn : n < 0) (hb : 1 ≤ b) (hl : -2 ^ 63 ≤ n * b) :
    2 ^ 63 ≤ toU 8 (n * b) := by
  have : n * b < 0 := Int.mul_neg_of_neg_of_pos hn (by omega)
  unfold toU
  norm_num
  omega

theorem toU8_nat {n : Nat} (h : n < 2 ^ 63) : toU 8 (n : Int) = n := by
  unfold toU
  norm_num
  omega

/-- One step in detail. -/
theorem step_full {est : LogEst} {rev : Rev} {w w' : Writer} {t : Trace} (hi : WInv2 rev w)
    (h : rev.write est w t = .ok w') :
    WInv2 rev w' ∧ ∃ s : Step est w w' t (Rev.onlyInt rev),
      s.add.length = (if rev = .r2 then 240 * (w.bh.maxNumAddTrHeaders - 1).toNat else 0) ∧
      w'.bh.fixedTrLength = w.bh.fixedTrLength ∧ w'.bh.formatCode = w.bh.formatCode ∧
      w'.bh.maxNumAddTrHeaders = w.bh.maxNumAddTrHeaders ∧
      w'.bh.numOfTrailerStanza = w.bh.numOfTrailerStanza ∧
      ∃ n, Announced rev w'.bh t n ∧ w'.samp.length = n * w.bps := by
  obtain ⟨s, hadd, hbuf⟩ := step_any hi.inv h
  obtain ⟨ia, ka, hc⟩ := autoHdrs_ok hi.inv s.auto
  have hbs := bps_small hi.bps
  -- the header after the automatic step
  have hbh : s.wa.bh.fixedTrLength = w.bh.fixedTrLength ∧ s.wa.bh.formatCode = w.bh.formatCode ∧
      s.wa.bh.maxNumAddTrHeaders = w.bh.maxNumAddTrHeaders ∧
      s.wa.bh.numOfTrailerStanza = w.bh.numOfTrailerStanza ∧ s.wa.samp.length < 2 ^ 63 ∧
      (Fix rev s.wa.bh → s.wa.samp.length = toU 2 s.wa.bh.sampPerTr * w.bps) := by
    split at hc
    · rename_i ha
      obtain ⟨n, d, si, -, g1, -, -, -, -, g2, g3, g4, g5⟩ :=
        setMinHdrs_first (by rw [hi.inv.atEnd]; exact ha.2) hc.1
      have e : s.wa.bh = { w.bh with sampPerTr := toS 2 (toU 2 n), sampInt := si } := by rw [g5]
      refine ⟨by rw [e], by rw [e], by rw [e], by rw [e], by omega, fun _ => ?_⟩
      rw [e]
      simp only
      have hn0 : 0 ≤ n := by
        by_contra hneg
        have := mul_neg_toU (by omega) hbs.1 (mulInt64_ok g2).2.1
        omega
      obtain ⟨k, rfl⟩ := Int.eq_ofNat_of_zero_le hn0
      have hk : k * w.bps < 2 ^ 63 := by
        have : k * w.bps ≤ 32767 * 8 := Nat.mul_le_mul (by omega) hbs.2
        omega
      rw [g4, show ((k : Int) * (w.bps : Int)) = ((k * w.bps : Nat) : Int) by push_cast; rfl, toU8_nat hk]
      have h2 := toU2_toS2 k
      have h3 : toU 2 (toS 2 (toU 2 (k : Int))) = k := by
        generalize toU 2 (toS 2 (toU 2 (k : Int))) = q at h2 ⊢
        omega
      rw [h3]
    · rename_i ha
      rw [hc]
      refine ⟨rfl, rfl, rfl, rfl, hi.small, fun hf => hi.buf hf fun hau => ?_⟩
      have := hi.inv.first.2
      have : w.file.data.length ≠ w.firstPos := fun c => ha ⟨hau, c⟩
      omega
  obtain ⟨b1, b2, b3, b4, b5, b6⟩ := hbh
  have hbh' := s.app.bh
  have hann : ∃ n, Announced rev w'.bh t n ∧ w'.samp.length = n * w.bps := by
    by_cases hf : Fix rev w.bh
    · have hfa : rev = .r0 ∨ (s.wa.bh.fixedTrLength ≠ 0 ∧ (rev = .r1 → w.auto = false)) := by
        rcases hf with hf | hf
        · exact .inl hf
        · refine .inr ⟨by rw [b1]; exact hf, fun _ => ?_⟩
          by_contra hau
          exact hf (hi.autoBh (by simpa using hau)).1
      rw [if_pos hfa] at hbuf
      refine ⟨toU 2 s.wa.bh.sampPerTr, ?_, ?_⟩
      · unfold Announced
        rw [if_pos (by rw [hbh', b1]; exact hf), hbh', toU2_eq]
      · rw [s.sampLen, hbuf]
        exact b6 (by unfold Fix; rw [b1]; exact hf)
    · have hfa : ¬ (rev = .r0 ∨ (s.wa.bh.fixedTrLength ≠ 0 ∧ (rev = .r1 → w.auto = false))) := by
        rintro (c | ⟨c, -⟩)
        · exact hf (.inl c)
        · exact hf (.inr (by rw [← b1]; exact c))
      rw [if_neg hfa] at hbuf
      obtain ⟨n, g1, g2, g3⟩ := hbuf
      have hl := fitBuf_ok g3
      have hlt : toU 8 (n * w.bps) < 2 ^ 63 := by
        unfold fitBuf at g3
        split at g3
        · exact (resizeVec_ok g3).1
        · rename_i hne
          simp only [ne_eq, Decidable.not_not] at hne
          omega
      have hn0 : 0 ≤ n := by
        by_contra hneg
        have := mul_neg_toU (by omega) hbs.1 (mulInt64_ok g2).2.1
        omega
      obtain ⟨k, rfl⟩ := Int.eq_ofNat_of_zero_le hn0
      refine ⟨k, ?_, ?_⟩
      · unfold Announced
        rw [if_neg (by rw [hbh', b1]; exact hf)]
        exact g1
      · have := (mulInt64_ok g2).2.2
        rw [s.sampLen, hl, show ((k : Int) * (w.bps : Int)) = ((k * w.bps : Nat) : Int) by push_cast; rfl]
        exact toU8_nat (by have : ((k * w.bps : Nat) : Int) < 2 ^ 63 := by push_cast; exact this
                           omega)
  refine ⟨⟨s.inv, ?_, ?_, ?_, ?_, ?_⟩, s, ?_, by rw [hbh', b1], by rw [hbh', b2], by rw [hbh', b3],
    by rw [hbh', b4], hann⟩
  · rw [hbh', b2]; exact hi.fmt
  · rw [hbh', b2, (s.kept hi.inv).bps]; exact hi.bps
  · rw [hbh', b1, b3, (s.kept hi.inv).auto]; exact hi.autoBh
  · rw [s.sampLen]
    split at hbuf
    · rw [hbuf]; exact b5
    · obtain ⟨n, g1, g2, g3⟩ := hbuf
      unfold fitBuf at g3
      split at g3
      · obtain ⟨q1, q2, -⟩ := resizeVec_ok g3
        omega
      · rw [← Except.ok.inj g3]; exact b5
  · intro hf _
    obtain ⟨n, hn, hl⟩ := hann
    unfold Announced at hn
    rw [if_pos (show rev = .r0 ∨ w'.bh.fixedTrLength ≠ 0 from hf), ← toU2_eq] at hn
    rw [hl, (s.kept hi.inv).bps, Int.ofNat.inj hn]
  · rw [hadd, b3]

theorem written_inv2 {est : LogEst} {rev : Rev} {w0 w : Writer} {ts : List Trace} (hi : WInv2 rev w0)
    (h : Written (rev.write est) w0 ts w) :
    WInv2 rev w ∧ Kept w0 w ∧ w.bh.fixedTrLength = w0.bh.fixedTrLength ∧
      w.bh.formatCode = w0.bh.formatCode ∧ w.bh.maxNumAddTrHeaders = w0.bh.maxNumAddTrHeaders ∧
      w.bh.numOfTrailerStanza = w0.bh.numOfTrailerStanza ∧
      (ts = [] → w = w0) ∧ (ts ≠ [] → w.firstPos < w.file.data.length) := by
  induction h with
  | opened => exact ⟨hi, Kept.refl _, rfl, rfl, rfl, rfl, fun _ => rfl, fun c => absurd rfl c⟩
  | @wrote ts t w w' _ hs ih =>
    obtain ⟨i1, i2, i3, i4, i5, i6, i7, i8⟩ := ih
    obtain ⟨j, s, -, k1, k2, k3, k4, -⟩ := step_full i1 hs
    refine ⟨j, i2.trans (s.kept i1.inv), k1.trans i3, k2.trans i4, k3.trans i5, k4.trans i6,
      by simp, fun _ => ?_⟩
    have h1 := (winv_of_auto i1.inv s.auto).1.first.2
    rw [s.app.kept.first, s.app.data, List.length_append, List.length_append, s.hdrLen]
    omega

end Sedaman
