import Verif.Lemmas.BinHeader

/-!
# Properties C07 and C08: the binary header

`binHeaderBytes bo h` are the 400 bytes the writer stores for header `h` once the byte order
`bo` has been chosen from the header's own marker, `fillBinHeader {} false` is the reader applied
to a value-initialised header.
-/

namespace Sedaman.Props

open Spec

/-- Marker as the reader sees it: bytes 97..100 of the binary header in host (little endian)
order. -/
private theorem marker_read (bo : ByteOrder) (h : BinHeader) :
    ((binHeaderBytes bo h).drop 96).take 4 = encInt bo 4 h.endianness :=
  bin_slice bo h 34 96 4 _ (by simp [binSegs, writeI32_eq]) (by simp) rfl

/-- **C07.** A header whose marker is absent (0, big endian) or the little endian marker is read
back with every member as written; members that exist from revision 2 on are zero when the major
revision is below 2. -/
theorem C07_roundtrip_partial (h : BinHeader) (hw : BinHeader.WF h)
    (hm : h.endianness = 0 ∨ h.endianness = 0x01020304) :
    ∃ bo, byteOrderOf h.endianness = .ok bo ∧
      fillBinHeader {} false (binHeaderBytes bo h) = .ok (bo, visible h) := by
  obtain ⟨bo, hb, hmark⟩ : ∃ bo, byteOrderOf h.endianness = .ok bo ∧
      toS 4 (leVal (encInt bo 4 h.endianness)) = h.endianness := by
    rcases hm with e | e <;> rw [e]
    · exact ⟨.be, rfl, by decide +kernel⟩
    · exact ⟨.le, rfl, by decide +kernel⟩
  refine ⟨bo, hb, ?_⟩
  unfold fillBinHeader
  rw [marker_read]
  simp only [hmark, hb, ok_bind]
  obtain ⟨r, hr⟩ := parse_written bo h { endianness := h.endianness } hw [] rfl ⟨rfl, rfl, rfl, rfl, rfl⟩
  rw [List.append_nil] at hr
  simp only [hr, ok_bind]
  rfl

/-- A revision 2 header with values at both ends of their ranges. -/
example : BinHeader.WF {
    jobId := -2147483648, sampInt := -32768, formatCode := 6, endianness := 0x01020304,
    extSampInt := 0x408f400000000000, revMajor := 2, revMinor := 255, fixedTrLength := 1,
    numOfTrInFile := 18446744073709551615, byteOffOfFirstTr := 3600, numOfTrailerStanza := -1 } := by
  decide +kernel

/-- **C07 fails for the third accepted marker.** A header with marker `0x04030201` is stored big
endian, which puts the bytes `04 03 02 01` in the file; the reader takes them for the little
endian marker, so the header does not come back: the line number 1 is read as 16777216. -/
theorem C07_swapped_marker_lost :
    ∃ h : BinHeader, BinHeader.WF h ∧ ∃ bo, byteOrderOf h.endianness = .ok bo ∧
      ∃ bo' h', fillBinHeader {} false (binHeaderBytes bo h) = .ok (bo', h') ∧
        bo' ≠ bo ∧ h'.lineNum = 16777216 ∧ h.lineNum = 1 := by
  refine ⟨{ lineNum := 1, endianness := 0x04030201 }, by decide +kernel, .be, rfl, .le, ?_⟩
  refine ⟨{ lineNum := 16777216, endianness := 0x01020304 }, by decide +kernel, by decide, rfl, rfl⟩

/-- **C07.** The marker decides: no other marker is written or read. -/
theorem C07_other_markers (init : BinHeader) (ov : Bool) (buf : Bytes)
    (h : decInt .le ((buf.drop 96).take 4) ∉ [0, 0x01020304, 0x04030201])
    (hl : 100 ≤ buf.length) :
    fillBinHeader init ov buf = throwExn .unsupportedEndianness := by
  have e : decInt .le ((buf.drop 96).take 4) = toS 4 (leVal ((buf.drop 96).take 4)) := by
    have : ((buf.drop 96).take 4).length = 4 := by simp; omega
    rw [decInt_eq, decNat_le, this]
  rw [e] at h
  unfold fillBinHeader byteOrderOf
  simp only [List.mem_cons, List.not_mem_nil, or_false, not_or] at h
  simp only
  rw [if_neg h.2.1, if_neg (by simp [h.1, h.2.2])]
  rfl

example : decInt .le (((List.replicate 96 0 ++ [1, 0, 0, 0] : Bytes).drop 96).take 4) = 1 := by
  decide +kernel

/-- **C08.** The binary header takes bytes 3201 to 3600 of the file: it is 400 bytes long and
follows the 3200 byte text header. -/
theorem C08_size (bo : ByteOrder) (h : BinHeader) : (binHeaderBytes bo h).length = 400 :=
  binHeaderBytes_length bo h

/-- **C08.** Every field is at the position and with the width the SEG-Y standard assigns to it
(`binLayout`, bytes counted from 1 in the file), in the selected byte order. -/
theorem C08_layout (bo : ByteOrder) (h : BinHeader) (text rest : Bytes) (ht : text.length = 3200) :
    ∀ f ∈ binLayout,
      ((text ++ binHeaderBytes bo h ++ rest).drop (f.byte - 1)).take f.width =
        encInt bo f.width (f.value h) := by
  have key : ∀ b w s, ((binHeaderBytes bo h).drop (b - 3201)).take w = s → 3201 ≤ b → b + w ≤ 3601 →
      ((text ++ binHeaderBytes bo h ++ rest).drop (b - 1)).take w = s := by
    intro b w s hs h1 h2
    rw [List.append_assoc, show b - 1 = text.length + (b - 3201) by omega, ← List.drop_drop,
      List.drop_left, List.drop_append_of_le_length (by simp; omega),
      List.take_append_of_le_length (by simp; omega), hs]
  unfold binLayout
  simp only [List.forall_mem_cons, List.not_mem_nil, false_imp_iff, implies_true, and_true]
  refine ⟨?_, ?_, ?_, ?_, ?_, ?_, ?_, ?_, ?_, ?_, ?_, ?_, ?_, ?_, ?_, ?_, ?_, ?_, ?_, ?_, ?_, ?_, ?_, ?_,
    ?_, ?_, ?_, ?_, ?_, ?_, ?_, ?_, ?_, ?_, ?_, ?_, ?_, ?_, ?_, ?_, ?_, ?_, ?_, ?_⟩
  · exact key _ _ _ (bin_slice bo h 0 _ _ _ (by simp [binSegs, writeI32_eq, writeI16_eq, writeU64_eq, writeU8_eq bo, writeIeeeDouble]) (by simp) rfl) (by omega) (by omega)
  · exact key _ _ _ (bin_slice bo h 1 _ _ _ (by simp [binSegs, writeI32_eq, writeI16_eq, writeU64_eq, writeU8_eq bo, writeIeeeDouble]) (by simp) rfl) (by omega) (by omega)
  · exact key _ _ _ (bin_slice bo h 2 _ _ _ (by simp [binSegs, writeI32_eq, writeI16_eq, writeU64_eq, writeU8_eq bo, writeIeeeDouble]) (by simp) rfl) (by omega) (by omega)
  · exact key _ _ _ (bin_slice bo h 3 _ _ _ (by simp [binSegs, writeI32_eq, writeI16_eq, writeU64_eq, writeU8_eq bo, writeIeeeDouble]) (by simp) rfl) (by omega) (by omega)
  · exact key _ _ _ (bin_slice bo h 4 _ _ _ (by simp [binSegs, writeI32_eq, writeI16_eq, writeU64_eq, writeU8_eq bo, writeIeeeDouble]) (by simp) rfl) (by omega) (by omega)
  · exact key _ _ _ (bin_slice bo h 5 _ _ _ (by simp [binSegs, writeI32_eq, writeI16_eq, writeU64_eq, writeU8_eq bo, writeIeeeDouble]) (by simp) rfl) (by omega) (by omega)
  · exact key _ _ _ (bin_slice bo h 6 _ _ _ (by simp [binSegs, writeI32_eq, writeI16_eq, writeU64_eq, writeU8_eq bo, writeIeeeDouble]) (by simp) rfl) (by omega) (by omega)
  · exact key _ _ _ (bin_slice bo h 7 _ _ _ (by simp [binSegs, writeI32_eq, writeI16_eq, writeU64_eq, writeU8_eq bo, writeIeeeDouble]) (by simp) rfl) (by omega) (by omega)
  · exact key _ _ _ (bin_slice bo h 8 _ _ _ (by simp [binSegs, writeI32_eq, writeI16_eq, writeU64_eq, writeU8_eq bo, writeIeeeDouble]) (by simp) rfl) (by omega) (by omega)
  · exact key _ _ _ (bin_slice bo h 9 _ _ _ (by simp [binSegs, writeI32_eq, writeI16_eq, writeU64_eq, writeU8_eq bo, writeIeeeDouble]) (by simp) rfl) (by omega) (by omega)
  · exact key _ _ _ (bin_slice bo h 10 _ _ _ (by simp [binSegs, writeI32_eq, writeI16_eq, writeU64_eq, writeU8_eq bo, writeIeeeDouble]) (by simp) rfl) (by omega) (by omega)
  · exact key _ _ _ (bin_slice bo h 11 _ _ _ (by simp [binSegs, writeI32_eq, writeI16_eq, writeU64_eq, writeU8_eq bo, writeIeeeDouble]) (by simp) rfl) (by omega) (by omega)
  · exact key _ _ _ (bin_slice bo h 12 _ _ _ (by simp [binSegs, writeI32_eq, writeI16_eq, writeU64_eq, writeU8_eq bo, writeIeeeDouble]) (by simp) rfl) (by omega) (by omega)
  · exact key _ _ _ (bin_slice bo h 13 _ _ _ (by simp [binSegs, writeI32_eq, writeI16_eq, writeU64_eq, writeU8_eq bo, writeIeeeDouble]) (by simp) rfl) (by omega) (by omega)
  · exact key _ _ _ (bin_slice bo h 14 _ _ _ (by simp [binSegs, writeI32_eq, writeI16_eq, writeU64_eq, writeU8_eq bo, writeIeeeDouble]) (by simp) rfl) (by omega) (by omega)
  · exact key _ _ _ (bin_slice bo h 15 _ _ _ (by simp [binSegs, writeI32_eq, writeI16_eq, writeU64_eq, writeU8_eq bo, writeIeeeDouble]) (by simp) rfl) (by omega) (by omega)
  · exact key _ _ _ (bin_slice bo h 16 _ _ _ (by simp [binSegs, writeI32_eq, writeI16_eq, writeU64_eq, writeU8_eq bo, writeIeeeDouble]) (by simp) rfl) (by omega) (by omega)
  · exact key _ _ _ (bin_slice bo h 17 _ _ _ (by simp [binSegs, writeI32_eq, writeI16_eq, writeU64_eq, writeU8_eq bo, writeIeeeDouble]) (by simp) rfl) (by omega) (by omega)
  · exact key _ _ _ (bin_slice bo h 18 _ _ _ (by simp [binSegs, writeI32_eq, writeI16_eq, writeU64_eq, writeU8_eq bo, writeIeeeDouble]) (by simp) rfl) (by omega) (by omega)
  · exact key _ _ _ (bin_slice bo h 19 _ _ _ (by simp [binSegs, writeI32_eq, writeI16_eq, writeU64_eq, writeU8_eq bo, writeIeeeDouble]) (by simp) rfl) (by omega) (by omega)
  · exact key _ _ _ (bin_slice bo h 20 _ _ _ (by simp [binSegs, writeI32_eq, writeI16_eq, writeU64_eq, writeU8_eq bo, writeIeeeDouble]) (by simp) rfl) (by omega) (by omega)
  · exact key _ _ _ (bin_slice bo h 21 _ _ _ (by simp [binSegs, writeI32_eq, writeI16_eq, writeU64_eq, writeU8_eq bo, writeIeeeDouble]) (by simp) rfl) (by omega) (by omega)
  · exact key _ _ _ (bin_slice bo h 22 _ _ _ (by simp [binSegs, writeI32_eq, writeI16_eq, writeU64_eq, writeU8_eq bo, writeIeeeDouble]) (by simp) rfl) (by omega) (by omega)
  · exact key _ _ _ (bin_slice bo h 23 _ _ _ (by simp [binSegs, writeI32_eq, writeI16_eq, writeU64_eq, writeU8_eq bo, writeIeeeDouble]) (by simp) rfl) (by omega) (by omega)
  · exact key _ _ _ (bin_slice bo h 24 _ _ _ (by simp [binSegs, writeI32_eq, writeI16_eq, writeU64_eq, writeU8_eq bo, writeIeeeDouble]) (by simp) rfl) (by omega) (by omega)
  · exact key _ _ _ (bin_slice bo h 25 _ _ _ (by simp [binSegs, writeI32_eq, writeI16_eq, writeU64_eq, writeU8_eq bo, writeIeeeDouble]) (by simp) rfl) (by omega) (by omega)
  · exact key _ _ _ (bin_slice bo h 26 _ _ _ (by simp [binSegs, writeI32_eq, writeI16_eq, writeU64_eq, writeU8_eq bo, writeIeeeDouble]) (by simp) rfl) (by omega) (by omega)
  · exact key _ _ _ (bin_slice bo h 27 _ _ _ (by simp [binSegs, writeI32_eq, writeI16_eq, writeU64_eq, writeU8_eq bo, writeIeeeDouble]) (by simp) rfl) (by omega) (by omega)
  · exact key _ _ _ (bin_slice bo h 28 _ _ _ (by simp [binSegs, writeI32_eq, writeI16_eq, writeU64_eq, writeU8_eq bo, writeIeeeDouble]) (by simp) rfl) (by omega) (by omega)
  · exact key _ _ _ (bin_slice bo h 29 _ _ _ (by simp [binSegs, writeI32_eq, writeI16_eq, writeU64_eq, writeU8_eq bo, writeIeeeDouble]) (by simp) rfl) (by omega) (by omega)
  · exact key _ _ _ (bin_slice bo h 30 _ _ _ (by simp [binSegs, writeI32_eq, writeI16_eq, writeU64_eq, writeU8_eq bo, writeIeeeDouble]) (by simp) rfl) (by omega) (by omega)
  · exact key _ _ _ (bin_slice bo h 31 _ _ _ (by simp [binSegs, writeI32_eq, writeI16_eq, writeU64_eq, writeU8_eq bo, writeIeeeDouble]) (by simp) rfl) (by omega) (by omega)
  · exact key _ _ _ (bin_slice bo h 32 _ _ _ (by simp [binSegs, writeI32_eq, writeI16_eq, writeU64_eq, writeU8_eq bo, writeIeeeDouble]) (by simp) rfl) (by omega) (by omega)
  · exact key _ _ _ (bin_slice bo h 33 _ _ _ (by simp [binSegs, writeI32_eq, writeI16_eq, writeU64_eq, writeU8_eq bo, writeIeeeDouble]) (by simp) rfl) (by omega) (by omega)
  · exact key _ _ _ (bin_slice bo h 34 _ _ _ (by simp [binSegs, writeI32_eq, writeI16_eq, writeU64_eq, writeU8_eq bo, writeIeeeDouble]) (by simp) rfl) (by omega) (by omega)
  · exact key _ _ _ (bin_slice bo h 36 _ _ _ (by simp [binSegs, writeI32_eq, writeI16_eq, writeU64_eq, writeU8_eq bo, writeIeeeDouble]) (by simp) rfl) (by omega) (by omega)
  · exact key _ _ _ (bin_slice bo h 37 _ _ _ (by simp [binSegs, writeI32_eq, writeI16_eq, writeU64_eq, writeU8_eq bo, writeIeeeDouble]) (by simp) rfl) (by omega) (by omega)
  · exact key _ _ _ (bin_slice bo h 38 _ _ _ (by simp [binSegs, writeI32_eq, writeI16_eq, writeU64_eq, writeU8_eq bo, writeIeeeDouble]) (by simp) rfl) (by omega) (by omega)
  · exact key _ _ _ (bin_slice bo h 39 _ _ _ (by simp [binSegs, writeI32_eq, writeI16_eq, writeU64_eq, writeU8_eq bo, writeIeeeDouble]) (by simp) rfl) (by omega) (by omega)
  · exact key _ _ _ (bin_slice bo h 40 _ _ _ (by simp [binSegs, writeI32_eq, writeI16_eq, writeU64_eq, writeU8_eq bo, writeIeeeDouble]) (by simp) rfl) (by omega) (by omega)
  · exact key _ _ _ (bin_slice bo h 41 _ _ _ (by simp [binSegs, writeI32_eq, writeI16_eq, writeU64_eq, writeU8_eq bo, writeIeeeDouble]) (by simp) rfl) (by omega) (by omega)
  · exact key _ _ _ (bin_slice bo h 42 _ _ _ (by simp [binSegs, writeI32_eq, writeI16_eq, writeU64_eq, writeU8_eq bo, writeIeeeDouble]) (by simp) rfl) (by omega) (by omega)
  · exact key _ _ _ (bin_slice bo h 43 _ _ _ (by simp [binSegs, writeI32_eq, writeI16_eq, writeU64_eq, writeU8_eq bo, writeIeeeDouble]) (by simp) rfl) (by omega) (by omega)
  · exact key _ _ _ (bin_slice bo h 44 _ _ _ (by simp [binSegs, writeI32_eq, writeI16_eq, writeU64_eq, writeU8_eq bo, writeIeeeDouble]) (by simp) rfl) (by omega) (by omega)

/-- **C08.** The fields of the standard do not overlap. -/
theorem C08_disjoint :
    (binLayout.map fun f => (f.byte, f.width)).Pairwise fun a b => a.1 + a.2 ≤ b.1 := by
  decide +kernel

/-- **C08.** Every byte that the standard does not assign is zero. -/
theorem C08_unassigned_zero (bo : ByteOrder) (h : BinHeader) (p : Nat) (hp : 3201 ≤ p ∧ p ≤ 3600)
    (hn : ∀ f ∈ binLayout, ¬ (f.byte ≤ p ∧ p < f.byte + f.width)) :
    (binHeaderBytes bo h)[p - 3201]? = some 0 := by
  have cov : ∀ i : Fin 400, ((binLayout.map fun f => (f.byte, f.width)).any fun f =>
      decide (f.1 ≤ i.val + 3201) && decide (i.val + 3201 < f.1 + f.2)) = true ∨
      (100 ≤ i.val ∧ i.val < 300) ∨ 332 ≤ i.val := by decide +kernel
  have hz : (100 ≤ p - 3201 ∧ p - 3201 < 300) ∨ 332 ≤ p - 3201 := by
    rcases cov ⟨p - 3201, by omega⟩ with c | c
    · exfalso
      simp only [List.any_map, List.any_eq_true, Function.comp_apply, Bool.and_eq_true,
        decide_eq_true_eq] at c
      obtain ⟨f, hf, h1, h2⟩ := c
      exact hn f hf (by omega)
    · exact c
  have get : ∀ (off w : Nat), ((binHeaderBytes bo h).drop off).take w = List.replicate w 0 →
      off ≤ p - 3201 → p - 3201 < off + w → (binHeaderBytes bo h)[p - 3201]? = some 0 := by
    intro off w e h1 h2
    have e2 : (((binHeaderBytes bo h).drop off).take w)[p - 3201 - off]? = some 0 := by
      rw [e, List.getElem?_replicate, if_pos (by omega)]
    rw [List.getElem?_take, if_pos (by omega), List.getElem?_drop] at e2
    rwa [show off + (p - 3201 - off) = p - 3201 by omega] at e2
  rcases hz with ⟨h1, h2⟩ | h1
  · exact get 100 200 (bin_slice bo h 35 _ _ _ (by simp only [binSegs]; rfl) List.length_replicate rfl) h1 h2
  · exact get 332 68 (bin_slice bo h 45 _ _ _ (by simp only [binSegs]; rfl) List.length_replicate rfl) h1 (by omega)

/-- Bytes 3301 and 3600 are unassigned. -/
example : ∀ p ∈ [3301, 3600], ∀ f ∈ binLayout, ¬ (f.byte ≤ p ∧ p < f.byte + f.width) := by
  decide +kernel

/-- The format code of a big endian file is at bytes 3225-3226. -/
example : ((List.replicate 3200 0 ++ binHeaderBytes .be { formatCode := 5 } : Bytes).drop 3224).take 2
    = [0x00, 0x05] := by decide +kernel

end Sedaman.Props
