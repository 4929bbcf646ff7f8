import Verif.Lemmas.OSEGY
import Verif.Lemmas.Open

/-!
# Lemmas about opening SEG-Y writers
-/

namespace Sedaman

open Spec

/-- The bytes `writeTexts` stores. -/
def textBytes (ts : List Bytes) : Bytes := (ts.map (·.take 3200)).flatten

theorem textBytes_length {ts : List Bytes} (h : ∀ t ∈ ts, 3200 ≤ t.length) :
    (textBytes ts).length = 3200 * ts.length := by
  induction ts with
  | nil => rfl
  | cons t ts ih =>
    have h1 := h t List.mem_cons_self
    have h2 := ih fun x hx => h x (List.mem_cons_of_mem _ hx)
    unfold textBytes at h2 ⊢
    rw [List.map_cons, List.flatten_cons, List.length_append, h2, List.length_take, List.length_cons]
    omega

theorem textBytes_exact {ts : List Bytes} (h : ∀ t ∈ ts, t.length = 3200) :
    textBytes ts = ts.flatten := by
  unfold textBytes
  congr 1
  conv_rhs => rw [← List.map_id ts]
  apply List.map_congr_left
  intro t ht
  exact List.take_of_length_le (by rw [h t ht])

theorem writeTexts_ok {ts : List Bytes} {f f' : File} (h : writeTexts ts f = .ok f') :
    ∀ t ∈ ts, 3200 ≤ t.length := by
  induction ts generalizing f with
  | nil => simp
  | cons t ts ih =>
    unfold writeTexts at h
    split at h
    · rename_i hl
      intro x hx
      rcases List.mem_cons.1 hx with rfl | hx
      · exact hl
      · exact ih h x hx
    · cases h

theorem writeTexts_of {ts : List Bytes} (hl : ∀ t ∈ ts, 3200 ≤ t.length) {f : File}
    (hf : f.pos = f.data.length) :
    writeTexts ts f = .ok ⟨f.data ++ textBytes ts, f.data.length + 3200 * ts.length⟩ := by
  induction ts generalizing f with
  | nil =>
    obtain ⟨d, p⟩ := f
    simp only at hf
    subst hf
    simp [writeTexts, textBytes]
  | cons t ts ih =>
    have h1 := hl t List.mem_cons_self
    have hlen : (t.take 3200).length = 3200 := by rw [List.length_take]; omega
    unfold writeTexts
    rw [if_pos h1, write_append hf, ih fun x hx => hl x (List.mem_cons_of_mem _ hx)]
    · unfold textBytes
      simp only [List.map_cons, List.flatten_cons, List.append_assoc, List.length_append, hlen,
        List.length_cons, Except.ok.injEq, File.mk.injEq, true_and]
      omega
    · simp only [List.length_append]

/-- The binary header a writer stores when it is opened: format 0 stands for the default. -/
def fmtOr (rev0 : Bool) (bh : BinHeader) : BinHeader :=
  if bh.formatCode = 0 then { bh with formatCode := if rev0 then 1 else 5 } else bh

/-- The binary header a writer keeps in memory. -/
def memHeader (rev0 : Bool) (n : Nat) (bh : BinHeader) : BinHeader :=
  if rev0 then fmtOr rev0 bh
  else { fmtOr rev0 bh with extTextHeadersNum := toS 2 (toU 2 ((n : Int) - 1)) }

theorem memHeader_fmt (rev0 : Bool) (n : Nat) (bh : BinHeader) :
    (memHeader rev0 n bh).formatCode = (fmtOr rev0 bh).formatCode := by
  unfold memHeader
  split <;> rfl

/-- A writer just opened. -/
def openedWriter (rev0 : Bool) (t : Bytes) (ts trailers : List Bytes) (bh : BinHeader) (m : HdrMap)
    (bo : ByteOrder) (bps : Nat) : Writer :=
  let data := t.take 3200 ++ (binHeaderBytes bo (fmtOr rev0 bh) ++ if rev0 then [] else textBytes ts)
  let h := memHeader rev0 (ts.length + 1) bh
  let auto := decide (h = { formatCode := if rev0 then 1 else 5 })
  { bh := h, bo, map := m, file := ⟨data, data.length⟩
    samp := List.replicate
      (if !auto ∧ (rev0 ∨ h.fixedTrLength ≠ 0) then toU 2 h.sampPerTr * bps else 0) 0
    hdrBuf := List.replicate 240 0, bps, firstPos := data.length, auto, texts := t :: ts, trailers }

theorem openWriter_of {rev0 : Bool} {t : Bytes} {ts trailers : List Bytes} {bh : BinHeader}
    {m : HdrMap} {bo : ByteOrder} {bps : Nat} (ht : 3200 ≤ t.length)
    (hts : rev0 = false → ∀ x ∈ ts, 3200 ≤ x.length)
    (hbo : byteOrderOf bh.endianness = .ok bo) (hfmt : (fmtOr rev0 bh).formatCode ∈ supportedFormats)
    (hbps : bytesPerSample (fmtOr rev0 bh).formatCode = some bps) :
    openWriter rev0 (t :: ts) trailers bh m = .ok (openedWriter rev0 t ts trailers bh m bo bps) := by
  have hlen : (t.take 3200).length = 3200 := by rw [List.length_take]; omega
  unfold openWriter
  have w1 : writeTexts ((t :: ts).take 1) ⟨[], 0⟩ = .ok ⟨t.take 3200, 3200⟩ := by
    rw [show (t :: ts).take 1 = [t] by simp]
    rw [writeTexts_of (by simpa using ht) rfl]
    simp [textBytes]
  simp only
  rw [w1, ok_bind]
  have eF : (if bh.formatCode = 0 then { bh with formatCode := (if rev0 then 1 else 5) } else bh) =
    fmtOr rev0 bh := rfl
  have hbo' : byteOrderOf (fmtOr rev0 bh).endianness = .ok bo := by
    unfold fmtOr; split <;> exact hbo
  rw [eF, hbo', ok_bind]
  have w2 : writeBinHeader bo (fmtOr rev0 bh) ⟨t.take 3200, 3200⟩ =
      ⟨t.take 3200 ++ binHeaderBytes bo (fmtOr rev0 bh), 3600⟩ := by
    unfold writeBinHeader
    rw [write_append (by simp only [hlen])]
    simp only [hlen, binHeaderBytes_length]
  rw [w2]
  have w3 : writeExts rev0 (t :: ts) ⟨t.take 3200 ++ binHeaderBytes bo (fmtOr rev0 bh), 3600⟩ =
      .ok ⟨t.take 3200 ++ (binHeaderBytes bo (fmtOr rev0 bh) ++ if rev0 then [] else textBytes ts),
        (t.take 3200 ++ (binHeaderBytes bo (fmtOr rev0 bh) ++ if rev0 then [] else textBytes ts)).length⟩ := by
    unfold writeExts
    cases rev0 with
    | true =>
      rw [if_pos rfl, if_pos rfl, List.append_nil, List.length_append, hlen, binHeaderBytes_length]
    | false =>
      rw [if_neg (by decide), if_neg (by decide), show (t :: ts).drop 1 = ts by simp]
      rw [writeTexts_of (hts rfl) (by simp only [List.length_append, hlen, binHeaderBytes_length])]
      simp only [List.length_append, hlen, binHeaderBytes_length, textBytes_length (hts rfl),
        List.append_assoc, Nat.add_assoc]
  rw [w3, ok_bind]
  have eM : (if rev0 then fmtOr rev0 bh
      else { fmtOr rev0 bh with
        extTextHeadersNum := toS 2 (toU 2 (((t :: ts).length : Int) - 1)) }) =
    memHeader rev0 (ts.length + 1) bh := rfl
  rw [eM, memHeader_fmt]
  obtain ⟨n, wr, -, hwr, -⟩ := writer_shape (.strict fun _ => 0) hfmt
  rw [hwr, ok_bind, hbps]
  rfl

/-- When opening succeeds it was as in `openWriter_of`. -/
theorem openWriter_ok {rev0 : Bool} {t : Bytes} {ts trailers : List Bytes} {bh : BinHeader}
    {m : HdrMap} {w : Writer} (h : openWriter rev0 (t :: ts) trailers bh m = .ok w) :
    3200 ≤ t.length ∧ (rev0 = false → ∀ x ∈ ts, 3200 ≤ x.length) ∧
    ∃ bo bps, byteOrderOf bh.endianness = .ok bo ∧ (fmtOr rev0 bh).formatCode ∈ supportedFormats ∧
      bytesPerSample (fmtOr rev0 bh).formatCode = some bps ∧
      w = openedWriter rev0 t ts trailers bh m bo bps := by
  have h0 := h
  unfold openWriter at h
  obtain ⟨f1, h1, h⟩ := bind_ok h
  have ht := writeTexts_ok h1 t (by simp)
  have eF : (if bh.formatCode = 0 then { bh with formatCode := (if rev0 then 1 else 5) } else bh) =
    fmtOr rev0 bh := rfl
  simp only [eF] at h
  obtain ⟨bo, h2, h⟩ := bind_ok h
  obtain ⟨f2, h3, h⟩ := bind_ok h
  obtain ⟨wr, h4, h⟩ := bind_ok h
  have hbo' : byteOrderOf bh.endianness = .ok bo := by
    rw [← h2]; unfold fmtOr; split <;> rfl
  have hts : rev0 = false → ∀ x ∈ ts, 3200 ≤ x.length := by
    rintro rfl
    unfold writeExts at h3
    rw [if_neg (by decide)] at h3
    have := writeTexts_ok h3
    simpa using this
  have eM : (if rev0 then fmtOr rev0 bh
      else { fmtOr rev0 bh with
        extTextHeadersNum := toS 2 (toU 2 (((t :: ts).length : Int) - 1)) }) =
    memHeader rev0 (ts.length + 1) bh := rfl
  rw [eM, memHeader_fmt] at h4
  have hs : (fmtOr rev0 bh).formatCode ∈ supportedFormats := by
    by_contra hc
    rw [writer_error _ hc] at h4
    cases h4
  obtain ⟨n, _, hn, -, -⟩ := writer_shape (.strict fun _ => 0) hs
  refine ⟨ht, hts, bo, n, hbo', hs, hn, ?_⟩
  rw [openWriter_of ht hts hbo' hs hn] at h0
  exact (Except.ok.inj h0).symm

theorem openedWriter_inv {rev0 : Bool} {t : Bytes} {ts trailers : List Bytes} {bh : BinHeader}
    {m : HdrMap} {bo : ByteOrder} {bps : Nat} (ht : 3200 ≤ t.length)
    (hn : rev0 = false → ts.length < 65536) : WInv (openedWriter rev0 t ts trailers bh m bo bps) := by
  have hlen : (t.take 3200).length = 3200 := by rw [List.length_take]; omega
  unfold openedWriter
  refine ⟨rfl, by rw [List.length_replicate], ⟨?_, Nat.le_refl _⟩, ?_⟩
  · simp only [List.length_append, hlen, binHeaderBytes_length]; omega
  · simp only [decide_eq_true_eq, List.length_append, hlen, binHeaderBytes_length]
    intro hauto
    cases rev0 with
    | true => simp
    | false =>
      have e : (memHeader false (ts.length + 1) bh).extTextHeadersNum = 0 := by rw [hauto]
      have hts : ts = [] := by
        unfold memHeader at e
        simp only [Bool.false_eq_true, if_false] at e
        have h1 := hn rfl
        rw [← List.length_eq_zero_iff]
        generalize ts.length = k at *
        unfold toS toU at e
        norm_num at e
        split at e <;> omega
      rw [hts]
      simp [textBytes]

end Sedaman
