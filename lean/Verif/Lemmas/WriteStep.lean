import Verif.Lemmas.OpenWriter
import Verif.Spec.OSEGY

/-!
# One `write_trace` call and histories of them
-/

namespace Sedaman

open Spec

/-- The bytes of one trace: the header block, further blocks, the sample buffer. -/
structure Step (est : LogEst) (w w' : Writer) (t : Trace) (onlyInt : Bool) where
  wa : Writer
  blk : HBlock
  rest : HdrMap
  hb : Bytes
  add : Bytes
  auto : autoHdrs onlyInt w t.header = .ok wa
  map : w.map = blk :: rest
  hdr : writeBlock est w.bo blk.fields t.header (List.replicate 240 0) = .ok hb
  hdrLen : hb.length = 240
  app : Appends wa w' (hb ++ (add ++ w'.samp))
  enc : ByteOrder → Dbl → Out Bytes
  encOk : sampleWriter est wa.bh.formatCode = .ok enc
  buf : Bytes
  store : storeSamples (enc w.bo) t.samples 0 buf = .ok w'.samp

theorem winv_of_auto {onlyInt : Bool} {w wa : Writer} {hdr : Header} (hi : WInv w)
    (h : autoHdrs onlyInt w hdr = .ok wa) : WInv wa ∧ Kept w wa :=
  ⟨(autoHdrs_ok hi h).1, (autoHdrs_ok hi h).2.1⟩

theorem step0 {est : LogEst} {w w' : Writer} {t : Trace} (hi : WInv w)
    (h : writeTraceRev0 est w t = .ok w') :
    ∃ s : Step est w w' t false, s.add = [] ∧ s.buf = s.wa.samp := by
  unfold writeTraceRev0 at h
  obtain ⟨wa, h1, h⟩ := bind_ok h
  obtain ⟨wb, h2, h⟩ := bind_ok h
  obtain ⟨i1, k1⟩ := winv_of_auto hi h1
  obtain ⟨b, m, hb, e1, e2, e3, e4, a1⟩ := putTraceHeader_appends i1 h2
  obtain ⟨enc, f1, f2, f3, a2⟩ := writeSamplesFix_appends a1.inv h
  rw [a1.bh] at f1
  rw [a1.kept.bo, e4, k1.bo] at f2
  rw [k1.bo] at e2
  rw [k1.map] at e1
  refine ⟨⟨wa, b, m, hb, [], h1, e1, e2, e3, ?_, enc, f1, wa.samp, f2⟩, rfl, rfl⟩
  rw [List.nil_append]
  exact a1.trans a2

theorem step1 {est : LogEst} {w w' : Writer} {t : Trace} (hi : WInv w)
    (h : writeTraceRev1 est w t = .ok w') :
    ∃ s : Step est w w' t false, s.add = [] ∧
      (if !w.auto ∧ s.wa.bh.fixedTrLength ≠ 0 then s.buf = s.wa.samp
       else ∃ n : Int, t.header.get "SAMP_NUM" = some (.int n) ∧ mulInt64 n w.bps = .ok (n * w.bps) ∧
        fitBuf s.wa.samp (toU 8 (n * w.bps)) = .ok s.buf) := by
  unfold writeTraceRev1 at h
  obtain ⟨wa, h1, h⟩ := bind_ok h
  obtain ⟨wb, h2, h⟩ := bind_ok h
  obtain ⟨i1, k1⟩ := winv_of_auto hi h1
  obtain ⟨b, m, hb, e1, e2, e3, e4, a1⟩ := putTraceHeader_appends i1 h2
  rw [k1.bo] at e2
  rw [k1.map] at e1
  rw [a1.kept.auto, k1.auto, a1.bh] at h
  split at h
  · rename_i hc
    obtain ⟨enc, f1, f2, f3, a2⟩ := writeSamplesFix_appends a1.inv h
    rw [a1.bh] at f1
    rw [a1.kept.bo, e4, k1.bo] at f2
    refine ⟨⟨wa, b, m, hb, [], h1, e1, e2, e3, ?_, enc, f1, wa.samp, f2⟩, rfl, ?_⟩
    · rw [List.nil_append]
      exact a1.trans a2
    · simp only
      rw [if_pos hc]
      trivial
  · rename_i hc
    obtain ⟨n, enc, buf, g1, g2, g3, f1, f2, f3, a2⟩ := writeSamplesVar_appends a1.inv h
    rw [a1.bh] at f1
    rw [a1.kept.bo, k1.bo] at f2
    rw [a1.kept.bps, k1.bps] at g2
    rw [a1.kept.bps, k1.bps, e4] at g3
    refine ⟨⟨wa, b, m, hb, [], h1, e1, e2, e3, ?_, enc, f1, buf, f2⟩, rfl, ?_⟩
    · rw [List.nil_append]
      exact a1.trans a2
    · simp only
      rw [if_neg hc]
      exact ⟨n, g1, g2, g3⟩

theorem step2 {est : LogEst} {w w' : Writer} {t : Trace} (hi : WInv w)
    (h : writeTraceRev2 est w t = .ok w') :
    ∃ s : Step est w w' t true, s.add.length = 240 * (s.wa.bh.maxNumAddTrHeaders - 1).toNat ∧
      (if s.wa.bh.fixedTrLength ≠ 0 then s.buf = s.wa.samp
       else ∃ n : Int, t.header.get "SAMP_NUM" = some (.int n) ∧ mulInt64 n w.bps = .ok (n * w.bps) ∧
        fitBuf s.wa.samp (toU 8 (n * w.bps)) = .ok s.buf) := by
  unfold writeTraceRev2 at h
  obtain ⟨wa, h1, h⟩ := bind_ok h
  obtain ⟨wb, h2, h⟩ := bind_ok h
  obtain ⟨wc, h3, h⟩ := bind_ok h
  obtain ⟨i1, k1⟩ := winv_of_auto hi h1
  obtain ⟨b, m, hb, e1, e2, e3, e4, a1⟩ := putTraceHeader_appends i1 h2
  obtain ⟨add, l1, e5, a1'⟩ := addHdrs_appends a1.inv h3
  rw [a1.bh] at l1
  have a12 := a1.trans a1'
  rw [k1.bo] at e2
  rw [k1.map] at e1
  rw [a12.bh] at h
  split at h
  · rename_i hc
    obtain ⟨enc, f1, f2, f3, a2⟩ := writeSamplesFix_appends a1'.inv h
    rw [a12.bh] at f1
    rw [a12.kept.bo, e5, e4, k1.bo] at f2
    refine ⟨⟨wa, b, m, hb, add, h1, e1, e2, e3, ?_, enc, f1, wa.samp, f2⟩, l1, ?_⟩
    · rw [← List.append_assoc]
      exact a12.trans a2
    · simp only
      rw [if_pos hc]
      trivial
  · rename_i hc
    obtain ⟨n, enc, buf, g1, g2, g3, f1, f2, f3, a2⟩ := writeSamplesVar_appends a1'.inv h
    rw [a12.bh] at f1
    rw [a12.kept.bo, k1.bo] at f2
    rw [a12.kept.bps, k1.bps] at g2
    rw [a12.kept.bps, k1.bps, e5, e4] at g3
    refine ⟨⟨wa, b, m, hb, add, h1, e1, e2, e3, ?_, enc, f1, buf, f2⟩, l1, ?_⟩
    · rw [← List.append_assoc]
      exact a12.trans a2
    · simp only
      rw [if_neg hc]
      exact ⟨n, g1, g2, g3⟩

/-- The revision 2 writer alone refuses a sample interval of type `double`. -/
def Rev.onlyInt : Rev → Bool
  | .r2 => true
  | _ => false

/-- The size of the sample buffer of each step is that of the samples announced. -/
theorem step_any {est : LogEst} {rev : Rev} {w w' : Writer} {t : Trace} (hi : WInv w)
    (h : rev.write est w t = .ok w') :
    ∃ s : Step est w w' t (Rev.onlyInt rev),
      s.add.length = (if rev = .r2 then 240 * (s.wa.bh.maxNumAddTrHeaders - 1).toNat else 0) ∧
      (if rev = .r0 ∨ (s.wa.bh.fixedTrLength ≠ 0 ∧ (rev = .r1 → w.auto = false)) then s.buf = s.wa.samp
       else ∃ n : Int, t.header.get "SAMP_NUM" = some (.int n) ∧ mulInt64 n w.bps = .ok (n * w.bps) ∧
        fitBuf s.wa.samp (toU 8 (n * w.bps)) = .ok s.buf) := by
  cases rev with
  | r0 =>
    obtain ⟨s, h1, h2⟩ := step0 hi h
    exact ⟨s, by rw [h1]; rfl, by simp [h2]⟩
  | r1 =>
    obtain ⟨s, h1, h2⟩ := step1 hi h
    refine ⟨s, by rw [h1]; rfl, ?_⟩
    by_cases hc : (!w.auto) = true ∧ s.wa.bh.fixedTrLength ≠ 0
    · rw [if_pos hc] at h2
      rw [if_pos (.inr ⟨hc.2, fun _ => by simpa using hc.1⟩)]
      exact h2
    · rw [if_neg hc] at h2
      rw [if_neg]
      · exact h2
      · rintro (hh | ⟨h3, h4⟩)
        · cases hh
        · exact hc ⟨by simp [h4 rfl], h3⟩
  | r2 =>
    obtain ⟨s, h1, h2⟩ := step2 hi h
    refine ⟨s, by rw [h1]; rfl, ?_⟩
    simpa using h2

theorem Step.inv {est : LogEst} {w w' : Writer} {t : Trace} {o : Bool} (s : Step est w w' t o) :
    WInv w' := s.app.inv

theorem Step.kept {est : LogEst} {w w' : Writer} {t : Trace} {o : Bool} (s : Step est w w' t o)
    (hi : WInv w) : Kept w w' := (winv_of_auto hi s.auto).2.trans s.app.kept

theorem Step.sampLen {est : LogEst} {w w' : Writer} {t : Trace} {o : Bool} (s : Step est w w' t o) :
    w'.samp.length = s.buf.length := storeSamples_length s.store

/-! ## Histories -/

theorem textsOr_ne {d : Option (List Bytes)} {ts out : List Bytes} (hd : ∀ x, d = some x → x ≠ [])
    (h : textsOr d ts = .ok out) :
    out ≠ [] ∧ (ts ≠ [] → out = ts ∧ ∀ t ∈ ts, t.length = 3200) ∧ (ts = [] → d = some out) := by
  unfold textsOr at h
  split at h
  · rename_i e
    cases hdd : d with
    | none => rw [hdd] at h; cases h
    | some x =>
      rw [hdd] at h
      simp only [Except.ok.injEq] at h
      subst h
      exact ⟨hd _ hdd, fun c => absurd e c, fun _ => rfl⟩
  · rename_i e
    obtain ⟨u, h1, h⟩ := bind_ok h
    simp only [pure_eq_ok, Except.ok.injEq] at h
    subst h
    refine ⟨e, fun _ => ⟨rfl, ?_⟩, fun c => absurd c e⟩
    unfold checkSizes at h1
    split at h1
    · rename_i hall
      simpa [List.all_eq_true] using hall
    · cases h1

theorem textsOr_bad {d : Option (List Bytes)} {ts : List Bytes} {t : Bytes} (ht : t ∈ ts)
    (hl : t.length ≠ 3200) : textsOr d ts = throwExn .textHeaderSize := by
  unfold textsOr
  rw [if_neg (List.ne_nil_of_mem ht)]
  unfold checkSizes
  rw [if_neg]
  · rfl
  · simp only [List.all_eq_true, decide_eq_true_eq]
    exact fun c => hl (c t ht)

theorem textsOr_good {d : Option (List Bytes)} {ts : List Bytes} (hn : ts ≠ [])
    (hl : ∀ t ∈ ts, t.length = 3200) : textsOr d ts = .ok ts := by
  unfold textsOr
  rw [if_neg hn]
  unfold checkSizes
  rw [if_pos]
  · rfl
  · simpa [List.all_eq_true] using hl

theorem openRev0_ok {text : Bytes} {bh : BinHeader} {m : HdrMap} {w : Writer}
    (h : openRev0 text bh m = .ok w) :
    checkMap bh m = .ok () ∧ ∃ t bo bps, 3200 ≤ t.length ∧
      (text ≠ [] → t = text ∧ text.length = 3200) ∧ (text = [] → defaultTextRev0 = some t) ∧
      byteOrderOf bh.endianness = .ok bo ∧ (fmtOr true bh).formatCode ∈ supportedFormats ∧
      bytesPerSample (fmtOr true bh).formatCode = some bps ∧
      w = openedWriter true t [] [] bh m bo bps := by
  unfold openRev0 at h
  obtain ⟨_, h1, h⟩ := bind_ok h
  obtain ⟨texts, h2, h⟩ := bind_ok h
  obtain ⟨g1, g2, g3⟩ := textsOr_ne (by
    intro x hx
    cases hd : defaultTextRev0 with
    | none => rw [hd] at hx; cases hx
    | some y => rw [hd] at hx; cases hx; simp) h2
  refine ⟨h1, ?_⟩
  have e : ∃ t, texts = [t] ∧ (text ≠ [] → t = text ∧ text.length = 3200) ∧
      (text = [] → defaultTextRev0 = some t) := by
    by_cases ht : text = []
    · rw [if_pos ht] at g3
      have := g3 rfl
      cases hd : defaultTextRev0 with
      | none => rw [hd] at this; cases this
      | some y =>
        rw [hd] at this
        have e := Option.some.inj this
        exact ⟨y, e.symm, fun c => absurd ht c, fun _ => rfl⟩
    · rw [if_neg ht] at g2
      obtain ⟨e1, e2⟩ := g2 (by simp)
      exact ⟨text, e1, fun _ => ⟨rfl, e2 text (by simp)⟩, fun c => absurd c ht⟩
  obtain ⟨t, rfl, k1, k2⟩ := e
  obtain ⟨q1, -, bo, bps, q2, q3, q4, q5⟩ := openWriter_ok h
  exact ⟨t, bo, bps, q1, k1, k2, q2, q3, q4, q5⟩

theorem openRev1_ok {texts : List Bytes} {bh : BinHeader} {m : HdrMap} {w : Writer}
    (h : openRev1 texts bh m = .ok w) :
    checkMap bh m = .ok () ∧ ∃ t ts bo bps, 3200 ≤ t.length ∧ (∀ x ∈ ts, 3200 ≤ x.length) ∧
      (texts ≠ [] → texts = t :: ts ∧ ∀ x ∈ texts, x.length = 3200) ∧
      (texts = [] → ts = [] ∧ defaultTextRev1 = some t) ∧
      byteOrderOf bh.endianness = .ok bo ∧ (fmtOr false bh).formatCode ∈ supportedFormats ∧
      bytesPerSample (fmtOr false bh).formatCode = some bps ∧
      w = openedWriter false t ts [] bh m bo bps := by
  unfold openRev1 at h
  obtain ⟨_, h1, h⟩ := bind_ok h
  obtain ⟨txs, h2, h⟩ := bind_ok h
  obtain ⟨g1, g2, g3⟩ := textsOr_ne (by
    intro x hx
    cases hd : defaultTextRev1 with
    | none => rw [hd] at hx; cases hx
    | some y => rw [hd] at hx; cases hx; simp) h2
  refine ⟨h1, ?_⟩
  obtain ⟨t, ts, rfl⟩ := List.exists_cons_of_ne_nil g1
  obtain ⟨q1, q0, bo, bps, q2, q3, q4, q5⟩ := openWriter_ok h
  refine ⟨t, ts, bo, bps, q1, q0 rfl, fun c => ⟨(g2 c).1.symm, (g2 c).2⟩, fun c => ?_, q2, q3, q4, q5⟩
  have := g3 c
  cases hd : defaultTextRev1 with
  | none => rw [hd] at this; cases this
  | some y =>
    rw [hd] at this
    have e := Option.some.inj this
    simp only [List.cons.injEq] at e
    exact ⟨e.2.symm, by rw [e.1]⟩

theorem openRev2_ok {texts trailers : List Bytes} {bh : BinHeader} {m : HdrMap} {w : Writer}
    (h : openRev2 texts bh trailers m = .ok w) :
    checkMap bh m = .ok () ∧ (∀ x ∈ trailers, x.length = 3200) ∧
      ∃ t ts bo bps, 3200 ≤ t.length ∧ (∀ x ∈ ts, 3200 ≤ x.length) ∧
      (texts ≠ [] → texts = t :: ts ∧ ∀ x ∈ texts, x.length = 3200) ∧
      (texts = [] → ts = [] ∧ t = defaultTextRev2) ∧
      byteOrderOf bh.endianness = .ok bo ∧ (fmtOr false bh).formatCode ∈ supportedFormats ∧
      bytesPerSample (fmtOr false bh).formatCode = some bps ∧
      w = openedWriter false t ts trailers bh m bo bps := by
  unfold openRev2 at h
  obtain ⟨_, h1, h⟩ := bind_ok h
  obtain ⟨txs, h2, h⟩ := bind_ok h
  obtain ⟨_, h3, h⟩ := bind_ok h
  obtain ⟨g1, g2, g3⟩ := textsOr_ne (by intro x hx; cases hx; simp) h2
  refine ⟨h1, ?_, ?_⟩
  · unfold checkSizes at h3
    split at h3
    · rename_i hall
      simpa [List.all_eq_true] using hall
    · cases h3
  obtain ⟨t, ts, rfl⟩ := List.exists_cons_of_ne_nil g1
  obtain ⟨q1, q0, bo, bps, q2, q3, q4, q5⟩ := openWriter_ok h
  refine ⟨t, ts, bo, bps, q1, q0 rfl, fun c => ⟨(g2 c).1.symm, (g2 c).2⟩, fun c => ?_, q2, q3, q4, q5⟩
  have e := Option.some.inj (g3 c)
  simp only [List.cons.injEq] at e
  exact ⟨e.2.symm, e.1.symm⟩

theorem opens_inv {rev : Rev} {w : Writer} (h : Opens rev w) : WInv w := by
  cases rev with
  | r0 =>
    obtain ⟨text, bh, m, h⟩ := h
    obtain ⟨-, t, bo, bps, h1, -, -, -, -, -, rfl⟩ := openRev0_ok h
    exact openedWriter_inv h1 (by simp)
  | r1 =>
    obtain ⟨texts, bh, m, hl, h⟩ := h
    obtain ⟨-, t, ts, bo, bps, h1, -, h2, h3, -, -, -, rfl⟩ := openRev1_ok h
    refine openedWriter_inv h1 fun _ => ?_
    by_cases c : texts = []
    · rw [(h3 c).1]; simp
    · rw [(h2 c).1, List.length_cons] at hl; omega
  | r2 =>
    obtain ⟨texts, bh, trailers, m, hl, h⟩ := h
    obtain ⟨-, -, t, ts, bo, bps, h1, -, h2, h3, -, -, -, rfl⟩ := openRev2_ok h
    refine openedWriter_inv h1 fun _ => ?_
    by_cases c : texts = []
    · rw [(h3 c).1]; simp
    · rw [(h2 c).1, List.length_cons] at hl; omega

theorem written_inv {est : LogEst} {rev : Rev} {w0 w : Writer} {ts : List Trace} (hi : WInv w0)
    (h : Written (rev.write est) w0 ts w) : WInv w ∧ Kept w0 w := by
  induction h with
  | opened => exact ⟨hi, Kept.refl _⟩
  | wrote _ hs ih =>
    obtain ⟨s, -⟩ := step_any ih.1 hs
    exact ⟨s.inv, ih.2.trans (s.kept ih.1)⟩

end Sedaman
