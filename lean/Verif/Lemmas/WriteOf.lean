import Verif.Lemmas.WriteInv

/-!
# Writing succeeds
-/

namespace Sedaman

open Spec

theorem writeSamplesFix_eq (est : LogEst) (w : Writer) (xs : List Dbl) :
    writeSamplesFix est w xs = (do
      let enc ← sampleWriter est w.bh.formatCode
      let b ← storeSamples (enc w.bo) xs 0 w.samp
      .ok { w with samp := b, file := w.file.write b }) := rfl

/-- What a `write_trace` call does once the automatic header step is over. -/
theorem write_eq {est : LogEst} {rev : Rev} {w wa : Writer} {t : Trace} {b : HBlock} {m : HdrMap}
    {hb : Bytes} {n : Nat} (ha : autoHdrs (Rev.onlyInt rev) w t.header = .ok wa)
    (hauto : wa.auto = true → wa.bh.fixedTrLength = 0)
    (hlen : wa.hdrBuf.length = 240) (hmap : wa.map = b :: m)
    (hblk : writeBlock est wa.bo b.fields t.header (List.replicate 240 0) = .ok hb)
    (hadd : rev = .r2 → wa.bh.maxNumAddTrHeaders = 0) (hn : Announced rev wa.bh t n)
    (hsz : n * wa.bps < 2 ^ 63)
    (hbuf : Fix rev wa.bh → wa.samp.length = toU 2 wa.bh.sampPerTr * wa.bps) :
    ∃ buf : Bytes, buf.length = n * wa.bps ∧ rev.write est w t = (do
      let enc ← sampleWriter est wa.bh.formatCode
      let s ← storeSamples (enc wa.bo) t.samples 0 buf
      .ok { wa with hdrBuf := hb, samp := s, file := (wa.file.write hb).write s }) := by
  have hp := putTraceHeader_of (m := m) hlen hmap hblk
  have hfixlen : Fix rev wa.bh → wa.samp.length = n * wa.bps := by
    intro hf
    unfold Announced at hn
    rw [if_pos (show rev = .r0 ∨ wa.bh.fixedTrLength ≠ 0 from hf), ← toU2_eq] at hn
    rw [hbuf hf, Int.ofNat.inj hn]
  have hvar : ¬ Fix rev wa.bh → ∃ buf : Bytes, buf.length = n * wa.bps ∧
      ∀ w2 : Writer, w2.bps = wa.bps → w2.samp = wa.samp →
        writeSamplesVar est w2 t = writeSamplesFix est { w2 with samp := buf } t.samples := by
    intro hf
    unfold Announced at hn
    rw [if_neg (show ¬ (rev = .r0 ∨ wa.bh.fixedTrLength ≠ 0) from hf)] at hn
    obtain ⟨buf, h1, h2⟩ := fitBuf_of (buf := wa.samp) hsz
    refine ⟨buf, h2, fun w2 e1 e2 => ?_⟩
    unfold writeSamplesVar needInt
    rw [hn]
    simp only
    rw [ok_bind, e1, e2]
    have hm : mulInt64 (n : Int) wa.bps = .ok ((n * wa.bps : Nat) : Int) := by
      unfold mulInt64
      rw [← Int.natCast_mul, if_pos ⟨by omega, by omega⟩]
    rw [hm, ok_bind, toU8_nat hsz, h1, ok_bind]
  cases rev with
  | r0 =>
    refine ⟨wa.samp, hfixlen (.inl rfl), ?_⟩
    show writeTraceRev0 est w t = _
    unfold writeTraceRev0
    rw [show autoHdrs false w t.header = .ok wa from ha, ok_bind, hp, ok_bind, writeSamplesFix_eq]
  | r1 =>
    show ∃ buf, _ ∧ writeTraceRev1 est w t = _
    unfold writeTraceRev1
    rw [show autoHdrs false w t.header = .ok wa from ha, ok_bind, hp, ok_bind]
    simp only
    by_cases hf : wa.bh.fixedTrLength ≠ 0
    · have hau : wa.auto = false := by
        by_contra c
        exact hf (hauto (by simpa using c))
      rw [if_pos ⟨by rw [hau]; rfl, hf⟩]
      exact ⟨wa.samp, hfixlen (.inr hf), by rw [writeSamplesFix_eq]⟩
    · rw [if_neg (fun c => hf c.2)]
      obtain ⟨buf, h1, h2⟩ := hvar (by
        rintro (c | c)
        · cases c
        · exact hf c)
      refine ⟨buf, h1, ?_⟩
      rw [h2 { wa with hdrBuf := hb, file := wa.file.write hb } rfl rfl, writeSamplesFix_eq]
  | r2 =>
    show ∃ buf, _ ∧ writeTraceRev2 est w t = _
    unfold writeTraceRev2
    rw [show autoHdrs true w t.header = .ok wa from ha, ok_bind, hp, ok_bind]
    unfold addHdrs
    rw [if_neg (by simp only; rw [hadd rfl]; decide), ok_bind]
    simp only
    by_cases hf : wa.bh.fixedTrLength ≠ 0
    · rw [if_pos hf]
      exact ⟨wa.samp, hfixlen (.inr hf), by rw [writeSamplesFix_eq]⟩
    · rw [if_neg hf]
      obtain ⟨buf, h1, h2⟩ := hvar (by
        rintro (c | c)
        · cases c
        · exact hf c)
      refine ⟨buf, h1, ?_⟩
      rw [h2 { wa with hdrBuf := hb, file := wa.file.write hb } rfl rfl, writeSamplesFix_eq]

/-- Without the automatic mode, or after the first trace, nothing happens before the header block. -/
theorem autoHdrs_idle {onlyInt : Bool} {w : Writer} {hdr : Header} (hi : WInv w)
    (h : w.auto = true → w.firstPos < w.file.data.length) : autoHdrs onlyInt w hdr = .ok w := by
  unfold autoHdrs
  split
  · rename_i ha
    unfold setMinHdrs
    have := h ha
    rw [if_neg (by rw [hi.atEnd]; omega)]
  · rfl

/-! ## Opening with texts of the right size -/

theorem openRev0_of {t : Bytes} {bh : BinHeader} {m : HdrMap} {bo : ByteOrder} {bps : Nat}
    (hm : checkMap bh m = .ok ()) (ht : t.length = 3200) (hbo : byteOrderOf bh.endianness = .ok bo)
    (hf : (fmtOr true bh).formatCode ∈ supportedFormats)
    (hb : bytesPerSample (fmtOr true bh).formatCode = some bps) :
    openRev0 t bh m = .ok (openedWriter true t [] [] bh m bo bps) := by
  have htn : t ≠ [] := by intro c; rw [c] at ht; cases ht
  unfold openRev0
  rw [hm, ok_bind, if_neg htn, textsOr_good (by simp) (by simpa using ht), ok_bind]
  exact openWriter_of (by omega) (by simp) hbo hf hb

theorem openRev1_of {t : Bytes} {ts : List Bytes} {bh : BinHeader} {m : HdrMap} {bo : ByteOrder}
    {bps : Nat} (hm : checkMap bh m = .ok ()) (hl : ∀ x ∈ t :: ts, x.length = 3200)
    (hbo : byteOrderOf bh.endianness = .ok bo)
    (hf : (fmtOr false bh).formatCode ∈ supportedFormats)
    (hb : bytesPerSample (fmtOr false bh).formatCode = some bps) :
    openRev1 (t :: ts) bh m = .ok (openedWriter false t ts [] bh m bo bps) := by
  have h1 := hl t List.mem_cons_self
  unfold openRev1
  rw [hm, ok_bind, textsOr_good (by simp) hl, ok_bind]
  exact openWriter_of (by omega) (fun _ x hx => by rw [hl x (List.mem_cons_of_mem _ hx)]) hbo hf hb

theorem openRev2_of {t : Bytes} {ts trl : List Bytes} {bh : BinHeader} {m : HdrMap} {bo : ByteOrder}
    {bps : Nat} (hm : checkMap bh m = .ok ()) (hl : ∀ x ∈ t :: ts, x.length = 3200)
    (htr : ∀ x ∈ trl, x.length = 3200) (hbo : byteOrderOf bh.endianness = .ok bo)
    (hf : (fmtOr false bh).formatCode ∈ supportedFormats)
    (hb : bytesPerSample (fmtOr false bh).formatCode = some bps) :
    openRev2 (t :: ts) bh trl m = .ok (openedWriter false t ts trl bh m bo bps) := by
  have h1 := hl t List.mem_cons_self
  have hc : checkSizes .trailerSize trl = .ok () := by
    unfold checkSizes
    rw [if_pos]
    simpa [List.all_eq_true] using htr
  unfold openRev2
  rw [hm, ok_bind, textsOr_good (by simp) hl, ok_bind, hc, ok_bind]
  exact openWriter_of (by omega) (fun _ x hx => by rw [hl x (List.mem_cons_of_mem _ hx)]) hbo hf hb

end Sedaman
