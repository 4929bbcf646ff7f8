import Verif.Props.Samples
import Verif.Props.ISEGY
import Verif.Lemmas.WriteStep

/-!
# Property C09 for whole readers and writers

Opening is where an unsupported format code shows.
-/

namespace Sedaman.Props

open Spec

/-- **C09.** A reader that opens has a supported format. -/
theorem C09_reader_accepts (data : Bytes) (ub : Option BinHeader) (m : HdrMap) (r : Reader)
    (h : openReader data ub m = .ok r) : r.bh.formatCode ∈ supportedFormats := by
  obtain ⟨_, _, rd, _, -, -, -, h4, -⟩ := openReader_ok h
  by_contra hc
  rw [reader_error hc] at h4
  cases h4

/-- **C09.** A file that is long enough, whose binary header (or the one the user supplied) can be
used but has an unsupported format code: opening throws "unsupported format". -/
theorem C09_reader_rejects (data : Bytes) (ub : Option BinHeader) (m : HdrMap) (bo : ByteOrder)
    (bh : BinHeader) (hm : checkMap (initHeader ub) m = .ok ()) (hl : 3600 ≤ data.length)
    (hf : fillBinHeader (initHeader ub) ub.isSome ((data.drop 3200).take 400) = .ok (bo, bh))
    (hn : bh.formatCode ∉ supportedFormats) :
    openReader data ub m = throwExn .unsupportedFormat := by
  have r1 : File.read ⟨data, 0⟩ textHeaderSize = .ok (data.take 3200, ⟨data, 3200⟩) := by
    have := read_chunk [] (data.take 3200) (data.drop 3200) (n := 3200) (by rw [List.length_take]; omega)
    rw [List.nil_append, List.take_append_drop] at this
    exact this
  have r2 : File.read ⟨data, 3200⟩ binHeaderSize = .ok ((data.drop 3200).take 400, ⟨data, 3600⟩) := by
    have := read_chunk (data.take 3200) ((data.drop 3200).take 400) ((data.drop 3200).drop 400)
      (n := 400) (by rw [List.length_take, List.length_drop]; omega)
    rw [List.take_append_drop, List.take_append_drop, List.length_take,
      Nat.min_eq_left (by omega)] at this
    exact this
  unfold openReader
  rw [hm, ok_bind]; simp only
  rw [r1, ok_bind]; simp only
  rw [r2, ok_bind]; simp only
  rw [hf, ok_bind]; simp only
  rw [reader_error hn]
  rfl

/-- **C09.** A writer that opens has a supported format. -/
theorem C09_writer_accepts (text : Bytes) (texts trailers : List Bytes) (bh : BinHeader) (m : HdrMap)
    (w : Writer)
    (h : openRev0 text bh m = .ok w ∨ openRev1 texts bh m = .ok w ∨ openRev2 texts bh trailers m = .ok w) :
    w.bh.formatCode ∈ supportedFormats := by
  have key : ∀ rev0 ts tr, openWriter rev0 ts tr bh m = .ok w → w.bh.formatCode ∈ supportedFormats := by
    intro rev0 ts tr hw
    unfold openWriter at hw
    obtain ⟨_, _, hw⟩ := bind_ok hw
    obtain ⟨bo, _, hw⟩ := bind_ok hw
    obtain ⟨_, _, hw⟩ := bind_ok hw
    obtain ⟨wr, h4, hw⟩ := bind_ok hw
    split at hw
    · cases hw
    · simp only [pure_eq_ok, Except.ok.injEq] at hw
      subst hw
      simp only
      by_contra hc
      rw [writer_error _ hc] at h4
      cases h4
  rcases h with h | h | h
  · obtain ⟨_, _, h⟩ := bind_ok h
    obtain ⟨_, _, h⟩ := bind_ok h
    exact key _ _ _ h
  · obtain ⟨_, _, h⟩ := bind_ok h
    obtain ⟨_, _, h⟩ := bind_ok h
    exact key _ _ _ h
  · obtain ⟨_, _, h⟩ := bind_ok h
    obtain ⟨_, _, h⟩ := bind_ok h
    obtain ⟨_, _, h⟩ := bind_ok h
    exact key _ _ _ h

/-- **C09.** With texts of the right size, a valid map and a valid byte order, a format code that is
neither supported nor zero makes all three writers throw "unsupported format". -/
theorem C09_writer_rejects (t : Bytes) (ts trailers : List Bytes) (bh : BinHeader) (m : HdrMap)
    (bo : ByteOrder) (hm : checkMap bh m = .ok ()) (ht : t.length = 3200)
    (hts : ∀ x ∈ ts, x.length = 3200) (htr : ∀ x ∈ trailers, x.length = 3200)
    (hbo : byteOrderOf bh.endianness = .ok bo) (h0 : bh.formatCode ≠ 0)
    (hn : bh.formatCode ∉ supportedFormats) :
    openRev0 t bh m = throwExn .unsupportedFormat ∧
    openRev1 (t :: ts) bh m = throwExn .unsupportedFormat ∧
    openRev2 (t :: ts) bh trailers m = throwExn .unsupportedFormat := by
  have hne : t ≠ [] := by rintro rfl; cases ht
  have key : ∀ rev0 us tr, (∀ x ∈ us, x.length = 3200) →
      openWriter rev0 (t :: us) tr bh m = throwExn .unsupportedFormat := by
    intro rev0 us tr hus
    unfold openWriter
    simp only
    rw [show (t :: us).take 1 = [t] from rfl,
      writeTexts_of (ts := [t]) (by simp [ht]) (f := ⟨[], 0⟩) rfl, ok_bind]
    simp only [if_neg h0]
    rw [hbo, ok_bind]
    have hlen : (textBytes [t]).length = 3200 := textBytes_length (ts := [t]) (by simp [ht])
    have w2 : writeBinHeader bo bh ⟨[] ++ textBytes [t], List.length ([] : Bytes) + 3200 * [t].length⟩ =
        ⟨textBytes [t] ++ binHeaderBytes bo bh, 3600⟩ := by
      unfold writeBinHeader
      rw [List.nil_append, show List.length ([] : Bytes) + 3200 * [t].length = 3200 from rfl,
        write_append (by simp only [hlen])]
      simp only [hlen, binHeaderBytes_length]
    rw [w2]
    have we : ∃ f, writeExts rev0 (t :: us) ⟨textBytes [t] ++ binHeaderBytes bo bh, 3600⟩ = .ok f := by
      unfold writeExts
      split
      · exact ⟨_, rfl⟩
      · refine ⟨_, writeTexts_of (fun x hx => Nat.le_of_eq (hus x hx).symm) ?_⟩
        simp only [List.length_append, hlen, binHeaderBytes_length]
    obtain ⟨f, hf⟩ := we
    rw [hf, ok_bind]
    cases rev0 <;> simp only [Bool.false_eq_true, ↓reduceIte] <;> rw [writer_error _ hn] <;> rfl
  have hall : ∀ x ∈ t :: ts, x.length = 3200 := by
    intro x hx
    rcases List.mem_cons.1 hx with rfl | hx
    exacts [ht, hts x hx]
  refine ⟨?_, ?_, ?_⟩
  · unfold openRev0
    rw [hm, ok_bind, if_neg hne, textsOr_good (by simp) (by simp [ht]), ok_bind]
    exact key _ _ _ (by simp)
  · unfold openRev1
    rw [hm, ok_bind, textsOr_good (by simp) hall, ok_bind]
    exact key _ _ _ hts
  · unfold openRev2
    rw [hm, ok_bind, textsOr_good (by simp) hall, ok_bind]
    have : checkSizes .trailerSize trailers = .ok () := by
      unfold checkSizes
      rw [if_pos]
      simpa [List.all_eq_true, textHeaderSize] using htr
    rw [this, ok_bind]
    exact key _ _ _ hts

/-- Format 4 (fixed point with gain): refused by the reader and the writers. -/
example : (openReader (exFile { exRev0 with formatCode := 4 } []) none exMap).map (fun r => r.bps) =
      throwExn .unsupportedFormat ∧
    (openRev0 (List.replicate 3200 0x40) { formatCode := 4, endianness := 0x01020304 } exMap).map
      (fun w => w.bps) = throwExn .unsupportedFormat ∧
    (openRev1 [List.replicate 3200 0x40] { formatCode := 4, endianness := 0x01020304 } exMap).map
      (fun w => w.bps) = throwExn .unsupportedFormat := by decide +kernel

end Sedaman.Props
