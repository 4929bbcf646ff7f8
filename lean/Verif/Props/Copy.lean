import Verif.Lemmas.Copy
import Verif.Lemmas.BinRewrite
import Verif.Props.E2E

/-!
# C55: copying a file (and the part of C07 that starts from the bytes)
-/

namespace Sedaman.Props

open Spec

/-! ## C07, from the bytes -/

private theorem slice_zero {bin : Bytes} {off n : Nat} (hl : off + n ≤ bin.length)
    (h : ∀ i, off ≤ i → i < off + n → bin[i]? = some 0) : (bin.drop off).take n = List.replicate n 0 := by
  apply List.ext_getElem?
  intro i
  rw [List.getElem?_take, List.getElem?_drop, List.getElem?_replicate]
  split
  · exact h _ (by omega) (by omega)
  · rfl

/-- **C07, from the bytes.** Any 400 bytes with marker 0 or `0x01020304` that are zero where the
standard assigns no field (revision 2 fields being assigned from revision 2 on) are read as a header
from which the writer produces the same 400 bytes. -/
theorem C07_rewrite_partial (bin : Bytes) (hl : bin.length = 400)
    (hm : decInt .le ((bin.drop 96).take 4) = 0 ∨ decInt .le ((bin.drop 96).take 4) = 0x01020304)
    (hz : ∀ i, i < 400 → ¬ BinCovered bin i → bin[i]? = some 0) :
    ∃ bo h, fillBinHeader {} false bin = .ok (bo, h) ∧ BinHeader.WF h ∧ visible h = h ∧
      byteOrderOf h.endianness = .ok bo ∧ (h.endianness = 0 ∨ h.endianness = 0x01020304) ∧
      binHeaderBytes bo h = bin := by
  have z1 : (bin.drop 100).take 200 = List.replicate 200 0 := slice_zero (by omega) (fun i h1 h2 =>
    hz i (by omega) (by
      rintro ⟨f, hf, c1, c2, -⟩
      have : ∀ f ∈ binLayout, f.byte + f.width ≤ 3301 ∨ 3501 ≤ f.byte := by decide
      rcases this f hf <;> omega))
  have z2 : (bin.drop 332).take 68 = List.replicate 68 0 := slice_zero (by omega) (fun i h1 h2 =>
    hz i (by omega) (by
      rintro ⟨f, hf, c1, c2, -⟩
      have : ∀ f ∈ binLayout, f.byte + f.width ≤ 3533 := by decide
      have := this f hf
      omega))
  have hsplit : bin = bin.take 100 ++ (List.replicate 200 0 ++ ((bin.drop 300).take 32 ++ List.replicate 68 0)) := by
    rw [← z2, ← z1]
    rw [show bin.drop 332 = (bin.drop 300).drop 32 by rw [List.drop_drop],
      List.take_of_length_le (i := 68) (by rw [List.length_drop, List.length_drop]; omega), List.take_append_drop,
      show bin.drop 300 = (bin.drop 100).drop 200 by rw [List.drop_drop], List.take_append_drop,
      List.take_append_drop]
  have hml : ((bin.drop 96).take 4).length = 4 := by rw [List.length_take, List.length_drop]; omega
  -- the byte order and the header
  obtain ⟨bo, e, hbo, he⟩ : ∃ bo e, byteOrderOf e = .ok bo ∧ (e = 0 ∨ e = 0x01020304) ∧
      decInt bo ((bin.drop 96).take 4) = e := by
    rcases hm with hm | hm
    · refine ⟨.be, 0, rfl, .inl rfl, ?_⟩
      have e1 := encInt_decInt .le ((bin.drop 96).take 4)
      rw [hm, hml] at e1
      rw [← e1]
      decide +kernel
    · exact ⟨.le, _, rfl, .inr rfl, hm⟩
  obtain ⟨h, hw, hb⟩ := bin_exists bo (bin.take 100) ((bin.drop 300).take 32)
    (by rw [List.length_take]; omega) (by rw [List.length_take, List.length_drop]; omega)
  rw [← hsplit] at hb
  have hlay := C08_layout bo h (List.replicate 3200 0) [] (by rw [List.length_replicate])
  have hsl : ∀ f ∈ binLayout, (bin.drop (f.byte - 3201)).take f.width = encInt bo f.width (f.value h) := by
    intro f hf
    rw [← hlay f hf, hb, List.append_nil]
    have : 3201 ≤ f.byte := by
      have : ∀ f ∈ binLayout, 3201 ≤ f.byte := by decide
      exact this f hf
    rw [show f.byte - 1 = (List.replicate 3200 (0 : Byte)).length + (f.byte - 3201) by
      rw [List.length_replicate]; omega, ← List.drop_drop, List.drop_left]
  have hend : h.endianness = e := by
    have := hsl ⟨3297, 4, fun h => h.endianness⟩ (by simp [binLayout])
    simp only [Nat.reduceSub] at this
    rw [← he.2, this, decInt_encInt]
    have hr : IntKind.i32.InRange h.endianness := hw.2.2.2.2.2.2.2.2.2.2.2.2.2.2.2.2.2.2.2.2.2.2.2.2.2.2.2.2.2.2.2.2.1
    have hr : -(2 : Int) ^ 31 ≤ h.endianness ∧ h.endianness < (2 : Int) ^ 31 := hr
    unfold toS toU
    norm_num at hr ⊢
    split <;> omega
  have hmark : h.endianness = 0 ∨ h.endianness = 0x01020304 := by rw [hend]; exact he.1
  have hvis : visible h = h := by
    by_cases hr : 1 < h.revMajor
    · unfold visible
      rw [if_pos hr]
    · have hr0 : 0 ≤ h.revMajor ∧ h.revMajor < 256 :=
        hw.2.2.2.2.2.2.2.2.2.2.2.2.2.2.2.2.2.2.2.2.2.2.2.2.2.2.2.2.2.2.2.2.2.1
      have hrev : ∀ v, bin[300]? = some v → v.toNat ≤ 1 := by
        intro v hv
        have := hsl ⟨3501, 1, fun h => h.revMajor⟩ (by simp [binLayout])
        simp only [Nat.reduceSub] at this
        have h1 : (bin.drop 300).take 1 = [v] := by
          apply List.ext_getElem?
          intro i
          rw [List.getElem?_take, List.getElem?_drop]
          cases i with
          | zero => simpa using hv
          | succ i => simp
        rw [h1] at this
        have h2 := decNat_encInt bo 1 h.revMajor
        rw [← this] at h2
        have h3 : decNat bo [v] = v.toNat := by cases bo <;> simp [decNat, beNat]
        rw [h3] at h2
        unfold toU at h2
        omega
      have hzero : ∀ f ∈ binLayout, 3507 ≤ f.byte → f.byte + f.width ≤ 3533 → toU f.width (f.value h) = 0 := by
        intro f hf h1 h2
        have h3 := slice_zero (bin := bin) (off := f.byte - 3201) (n := f.width) (by omega) (fun i c1 c2 =>
          hz i (by omega) (by
            rintro ⟨g, hg, d1, d2, d3⟩
            rcases d3 with d3 | ⟨v, d3, d4⟩
            · have : ∀ g ∈ binLayout, g.byte < 3507 → g.byte + g.width ≤ 3507 := by decide
              have := this g hg d3
              omega
            · have := hrev v d3
              omega))
        have h4 := hsl f hf
        rw [h3] at h4
        have h5 := decNat_encInt bo f.width (f.value h)
        rw [← h4] at h5
        rw [← h5]
        have key : ∀ n, beNat (List.replicate n 0) = 0 := by
          intro n
          induction n with
          | zero => rfl
          | succ n ih =>
            rw [List.replicate_succ', beNat_append, ih]
            rfl
        cases bo <;> simp only [decNat, List.reverse_replicate] <;> exact key _
      have r1 : -(2 : Int) ^ 31 ≤ h.maxNumAddTrHeaders ∧ h.maxNumAddTrHeaders < (2 : Int) ^ 31 :=
        hw.2.2.2.2.2.2.2.2.2.2.2.2.2.2.2.2.2.2.2.2.2.2.2.2.2.2.2.2.2.2.2.2.2.2.2.2.2.1
      have r2 : -(2 : Int) ^ 15 ≤ h.timeBasisCode ∧ h.timeBasisCode < (2 : Int) ^ 15 :=
        hw.2.2.2.2.2.2.2.2.2.2.2.2.2.2.2.2.2.2.2.2.2.2.2.2.2.2.2.2.2.2.2.2.2.2.2.2.2.2.1
      have r3 : 0 ≤ h.numOfTrInFile ∧ h.numOfTrInFile < (2 : Int) ^ 64 :=
        hw.2.2.2.2.2.2.2.2.2.2.2.2.2.2.2.2.2.2.2.2.2.2.2.2.2.2.2.2.2.2.2.2.2.2.2.2.2.2.2.1
      have r4 : 0 ≤ h.byteOffOfFirstTr ∧ h.byteOffOfFirstTr < (2 : Int) ^ 64 :=
        hw.2.2.2.2.2.2.2.2.2.2.2.2.2.2.2.2.2.2.2.2.2.2.2.2.2.2.2.2.2.2.2.2.2.2.2.2.2.2.2.2.1
      have r5 : -(2 : Int) ^ 31 ≤ h.numOfTrailerStanza ∧ h.numOfTrailerStanza < (2 : Int) ^ 31 :=
        hw.2.2.2.2.2.2.2.2.2.2.2.2.2.2.2.2.2.2.2.2.2.2.2.2.2.2.2.2.2.2.2.2.2.2.2.2.2.2.2.2.2
      have q1 := hzero ⟨3507, 4, fun h => h.maxNumAddTrHeaders⟩ (by simp [binLayout]) (by simp) (by simp)
      have q2 := hzero ⟨3511, 2, fun h => h.timeBasisCode⟩ (by simp [binLayout]) (by simp) (by simp)
      have q3 := hzero ⟨3513, 8, fun h => h.numOfTrInFile⟩ (by simp [binLayout]) (by simp) (by simp)
      have q4 := hzero ⟨3521, 8, fun h => h.byteOffOfFirstTr⟩ (by simp [binLayout]) (by simp) (by simp)
      have q5 := hzero ⟨3529, 4, fun h => h.numOfTrailerStanza⟩ (by simp [binLayout]) (by simp) (by simp)
      simp only [toU] at q1 q2 q3 q4 q5
      have w1 : h.maxNumAddTrHeaders = 0 := by omega
      have w2 : h.timeBasisCode = 0 := by omega
      have w3 : h.numOfTrInFile = 0 := by omega
      have w4 : h.byteOffOfFirstTr = 0 := by omega
      have w5 : h.numOfTrailerStanza = 0 := by omega
      unfold visible
      rw [if_neg hr]
      cases h
      simp only at w1 w2 w3 w4 w5
      subst w1 w2 w3 w4 w5
      rfl
  obtain ⟨bo', h1, h2⟩ := C07_roundtrip_partial h hw hmark
  rw [hend, hbo] at h1
  have := Except.ok.inj h1
  subst this
  rw [hb, hvis] at h2
  exact ⟨bo, h, h2, hw, hvis, by rw [hend]; exact hbo, hmark, hb⟩

/-- A header with a line number, two samples of 16 bits and the little endian marker. -/
def exBin : Bytes := binHeaderBytes .le { lineNum := 5, sampPerTr := 2, formatCode := 3, endianness := 0x01020304 }

example : exBin.length = 400 ∧ decInt .le ((exBin.drop 96).take 4) = 0x01020304 ∧
    exBin[4]? = some 5 ∧ exBin[100]? = some 0 := by decide +kernel

/-! ## C55 -/

/-- **C55.** Samples that are rewritten: any eight bytes in format 6. -/
theorem C55_sample_double (est : LogEst) (bo : ByteOrder) (p : Bytes) (h : p.length = 8) :
    Rewrites est 6 bo p := by
  have hlt : decNat bo p < 2 ^ 64 := by
    have := decNat_lt bo p
    rw [h] at this
    exact this
  refine ⟨_, _, BitVec.ofNat 64 (decNat bo p), rfl, rfl, fun rest => ?_, ?_⟩
  · simp only [readIeeeDouble, readU64_eq]
    rw [rd_map_nat, if_pos (by simp; omega), List.take_left' h, List.drop_left' h]
  · simp only [writeIeeeDouble, writeU64_eq, BitVec.toNat_ofNat]
    rw [Nat.mod_eq_of_lt hlt]
    have := encInt_decNat bo p
    rw [h] at this
    rw [this]

/-- **C55.** Samples that are rewritten: any four bytes in format 5 that are not a NaN. -/
theorem C55_sample_single (est : LogEst) (bo : ByteOrder) (p : Bytes) (h : p.length = 4)
    (hn : Sgl.val (BitVec.ofNat 32 (decNat bo p)) ≠ .nan) : Rewrites est 5 bo p := by
  have hlt : decNat bo p < 2 ^ 32 := by
    have := decNat_lt bo p
    rw [h] at this
    exact this
  refine ⟨_, _, sglToDbl (BitVec.ofNat 32 (decNat bo p)), rfl, rfl, fun rest => ?_, ?_⟩
  · simp only [readIeeeFloat, readU32_eq]
    rw [rd_map_nat, if_pos (by simp; omega), List.take_left' h, List.drop_left' h]
  · simp only [writeIeeeFloat, writeU32_eq]
    rw [dblToSgl_sglToDbl (by
      generalize Sgl.val (BitVec.ofNat 32 (decNat bo p)) = v at hn
      cases v <;> simp_all [FVal.isNan]), BitVec.toNat_ofNat, Nat.mod_eq_of_lt hlt]
    have := encInt_decNat bo p
    rw [h] at this
    rw [this]

/-- **C55.** Samples that are rewritten: integers that are not negative, below 2^53. -/
theorem C55_sample_integer (est : LogEst) (fmt : Int) (k : IntKind) (hk : intFormat fmt = some k)
    (bo : ByteOrder) (n : Nat) (hr : k.InRange n) (hn : n < 2 ^ 53) :
    Rewrites est fmt bo (encInt bo k.size n) := by
  have his : Is (dblOfInt (n : Int)) false n 0 := by
    have := is_ofInt (n := (n : Int)) (by simpa using hn)
    rw [decide_eq_false (by omega)] at this
    simpa using this
  have hlt : n < 256 ^ paramSize k := by
    unfold IntKind.InRange at hr
    have h2 : (n : Int) < (2 : Int) ^ (8 * k.size) := by
      cases k <;> simp only [IntKind.signed, IntKind.size] at hr ⊢ <;> norm_num at hr ⊢ <;> omega
    have h3 : (2 : Int) ^ (8 * k.size) ≤ ((256 ^ paramSize k : Nat) : Int) := by
      cases k <;> decide
    have h4 : (n : Int) < ((256 ^ paramSize k : Nat) : Int) := lt_of_lt_of_le h2 h3
    exact_mod_cast h4
  refine ⟨_, _, dblOfInt n, sampleWriter_int est hk, sampleReader_int hk, fun rest => ?_, ?_⟩
  · rw [rd_bind, ← kind_write_eq, C04_roundtrip bo k (n : Int) hr rest]
    rfl
  · simp only [LogEst.toU_ok (Is.toU (n := n) his hlt), ok_bind]
    rw [kind_write_eq]
    rfl

/-- **C55.** Samples that are rewritten: normalised IBM words, when the logarithm estimate is exact. -/
theorem C55_sample_ibm (est : LogEst) (bo : ByteOrder) (p : Bytes) (h : p.length = 4)
    (hn : ibmNormalised (decNat bo p))
    (hest : IbmExponent (ibmValue (decNat bo p)) (est (dblAbs (ibmDecode (decNat bo p))))) :
    Rewrites est 1 bo p := by
  have hlt : decNat bo p < 2 ^ 32 := by
    have := decNat_lt bo p
    rw [h] at this
    exact this
  refine ⟨_, _, ibmDecode (decNat bo p), rfl, rfl, fun rest => ?_, ?_⟩
  · simp only [readIbm, readU32_eq]
    rw [rd_map_nat, if_pos (by simp; omega), List.take_left' h, List.drop_left' h]
  · simp only [writeIbm, C12_encode_decode_partial est _ hlt hn hest, ok_bind, writeU32_eq]
    have := encInt_decNat bo p
    rw [h] at this
    rw [this]
    rfl

/-- **C55 fails for negative samples.** A file with the 16 bit sample -1 can be read; writing what was
read is undefined behaviour. -/
theorem C55_negative_sample_fails : (do
      let bin := binHeaderBytes .be { sampPerTr := 1, formatCode := 3 }
      let r ← openReader (exText ++ bin ++ (List.replicate 240 0 ++ [0xff, 0xff])) none exWMap
      let (t, _) ← readTrace r
      let w ← openRev0 exText r.bh exWMap
      writeTraceRev0 (.strict fun _ => 0) w t) = isUb .floatToInt := by decide +kernel

/-- **C55 fails for zero samples in IBM format.** -/
theorem C55_zero_sample_fails : (do
      let bin := binHeaderBytes .be { sampPerTr := 1, formatCode := 1 }
      let r ← openReader (exText ++ bin ++ List.replicate 244 0) none exWMap
      let (t, _) ← readTrace r
      let w ← openRev0 exText r.bh exWMap
      writeTraceRev0 (.strict fun _ => 0) w t) = isUb .floatToInt := by decide +kernel

/-- **C55 fails for floating point header fields.** They are read as doubles, which the writer
refuses. -/
theorem C55_float_field_fails : (do
      let bin := binHeaderBytes .be { sampPerTr := 1, formatCode := 3 }
      let m : HdrMap := [⟨"SEG00000", [⟨8, "GAIN", .ieeeSingle⟩]⟩]
      let r ← openReader (exText ++ bin ++ List.replicate 242 0) none m
      let (t, _) ← readTrace r
      let w ← openRev0 exText r.bh m
      writeTraceRev0 (.strict fun _ => 0) w t) = throwExn .badVariantAccess := by decide +kernel

/-- **C55 fails for big endian files that carry a marker.** -/
theorem C55_marker_fails : (do
      let bin : Bytes := (binHeaderBytes .be { sampPerTr := 1, formatCode := 3, endianness := 0x01020304 })
      let r ← openReader (exText ++ bin) none exWMap
      let w ← openRev0 exText r.bh exWMap
      pure ((w.file.data.drop 3296).take 4, ((exText ++ bin).drop 3296).take 4)) =
    (Except.ok ([4, 3, 2, 1], [1, 2, 3, 4]) : Out (Bytes × Bytes)) := by decide +kernel

/-- **C55 (part).** A fixed length revision 0 file is copied byte for byte: opening it, reading all
traces and writing text header, binary header and traces with `OSEGYRev0` gives the file again. The
file consists of a text header, a binary header that is zero where the standard assigns no field, and
traces of the announced number of samples whose header blocks are zero outside the map. The map has
integer fields only, and each sample is one the library writes as it reads it. Missing: markers
`0x04030201`, floating point header fields, and samples that are not rewritten (see below). -/
theorem C55_copy_partial (est : LogEst) (text bin : Bytes) (cs : List Bytes) (m : HdrMap) (b : HBlock)
    (bo : ByteOrder) (bh : BinHeader)
    (ht : text.length = 3200) (hl : bin.length = 400)
    (hm : decInt .le ((bin.drop 96).take 4) = 0 ∨ decInt .le ((bin.drop 96).take 4) = 0x01020304)
    (hz : ∀ i, i < 400 → ¬ BinCovered bin i → bin[i]? = some 0)
    (hf : fillBinHeader {} false bin = .ok (bo, bh)) (hfmt : bh.formatCode ∈ supportedFormats)
    (hrev : bh.revMajor = 0) (hexts : bh.extTextHeadersNum = 0) (hext : bh.extSampPerTr = 0)
    (hexplicit : bh ≠ { formatCode := 1 })
    (hmap : MapOk bh m b) (hint : ∀ f ∈ b.fields, ∃ k, intKind f.ty = some k)
    (hcs : ∀ c ∈ cs, CopyableTrace est bh.formatCode bo b.fields (bh.sampPerTr % 65536).toNat c) :
    ∃ r ts w0 w, openReader (text ++ bin ++ cs.flatten) none m = .ok r ∧ Visits r ts ∧ ts.length = cs.length ∧
      r.texts = [text] ∧ openRev0 text r.bh m = .ok w0 ∧ writeAll (writeTraceRev0 est) w0 ts = .ok w ∧
      w.file.data = text ++ bin ++ cs.flatten := by
  obtain ⟨bo', bh', g1, g2, g3, g4, g5, g6⟩ := C07_rewrite_partial bin hl hm hz
  rw [hf] at g1
  have := Except.ok.inj g1
  simp only [Prod.mk.injEq] at this
  obtain ⟨rfl, rfl⟩ := this
  have hbh : HeaderOk bh := ⟨g2, g5, hfmt⟩
  have hbo : bo = orderOfMarker bh.endianness := by
    rw [order_ok hbh] at g4
    exact (Except.ok.inj g4).symm
  obtain ⟨ts, h1, h2⟩ := traces_of hfmt hmap.safe hmap.names hint hcs (by omega)
  have hn : (((bh.sampPerTr % 65536).toNat : Nat) : Int) = bh.sampPerTr % 65536 := by omega
  obtain ⟨w0, w, r, backs, k1, k2, k3, k4, k5, k6, k7⟩ := C20_roundtrip_partial est text bh m b ts ht hbh hmap
    hrev hexts hext hexplicit (fun t ht' => by
      obtain ⟨a1, a2, -⟩ := h2 t ht'
      rw [← hbo]
      exact ⟨a1, by rw [a2, hn]⟩)
  obtain ⟨bps, hbps⟩ := bps_exists hfmt
  have hopen := openRev0_of hmap.accepted ht (order_ok hbh) (by rw [fmt_ne hbh]; exact hfmt)
    (by rw [fmt_ne hbh]; exact hbps)
  rw [hopen] at k1
  have hw0 := Except.ok.inj k1
  have hi : WInv2 .r0 w0 := by
    rw [← hw0]
    exact opened_inv2 (by simp) (by omega) (by simp) (by rw [fmt_ne hbh]; exact hfmt) (by rw [fmt_ne hbh]; exact hbps)
  have e1 : w0.bh = bh := by
    rw [← hw0]
    unfold openedWriter memHeader
    simp only [if_true]
    exact fmt_ne hbh true
  have e2 : w0.bo = bo := by rw [← hw0, hbo]; rfl
  have e3 : w0.map = m := by rw [← hw0]; rfl
  have e4 : w0.auto = false := by
    rw [← hw0]
    unfold openedWriter memHeader
    simp only [if_true, decide_eq_false_iff_not]
    rw [fmt_ne hbh]
    exact hexplicit
  have e6 : w0.file.data = text ++ bin := by
    rw [← hw0]
    unfold openedWriter
    simp only [if_true, List.append_nil]
    rw [fmt_ne hbh, List.take_of_length_le (by rw [ht]), ← hbo, g6]
  obtain ⟨m', hmm⟩ : ∃ m', m = b :: m' := by
    have := hmap.head
    cases m with
    | nil => cases this
    | cons x y => simp only [List.head?_cons, Option.some.injEq] at this; exact ⟨y, by rw [this]⟩
  have hdata : ∀ us : List Trace, (∀ t ∈ us, Storable est bh.formatCode bo b.fields t ∧
        t.samples.length = (bh.sampPerTr % 65536).toNat) →
      List.Forall₂ (Chunk est bo bh.formatCode b.fields) us cs →
      ∃ w, writeAll (writeTraceRev0 est) w0 us = .ok w ∧ w.file.data = text ++ bin ++ cs.flatten := by
    intro us hus hch
    obtain ⟨w, cs', q1, q2, q3, -, -⟩ := writeAll_chunks (est := est) us hi (by rw [e4]; intro c; cases c)
      (e3.trans hmm) (by simp) hmap.safe (fun t ht' => by
        obtain ⟨a1, a2⟩ := hus t ht'
        refine ⟨by rw [e2]; exact a1.ints, by rw [e1, e2]; exact a1.samples, ?_, a1.size⟩
        unfold Announced
        rw [if_pos (.inl rfl), e1, a2, hn])
    rw [e1, e2] at q2
    rw [chunks_unique hch q2]
    exact ⟨w, q1, by rw [q3, e6]⟩
  obtain ⟨w1, q1, q2⟩ := hdata ts (fun t ht' => ⟨(h2 t ht').1, (h2 t ht').2.1⟩) h1
  rw [q1] at k2
  have := Except.ok.inj k2
  subst this
  rw [q2] at k3
  have hst : ∀ t ∈ backs, Storable est bh.formatCode bo b.fields t ∧
      t.samples.length = (bh.sampPerTr % 65536).toNat := by
    intro t ht'
    obtain ⟨o, ho, hb⟩ := forall₂_mem_right k6 ht'
    rw [← hbo] at hb
    exact ⟨storable_back hint (h2 o ho).1 hb (h2 o ho).2.2, by rw [samples_same hb.1 (h2 o ho).2.2]; exact (h2 o ho).2.1⟩
  obtain ⟨w2, q3, q4⟩ := hdata backs hst (chunks_back hint
    (fun t ht' f hf => ((h2 t ht').1.ints f hf).imp fun _ h => h.1) (by rw [hbo]; exact k6) (fun t ht' => (h2 t ht').2.2) h1)
  refine ⟨r, backs, w0, w2, k3, k7, ?_, k4, ?_, q3, q4⟩
  · rw [← k6.length_eq, h1.length_eq]
  · rw [k5, g3, ← hw0]
    exact hopen

/-- A file with two traces of two samples. -/
example := C55_copy_partial (.strict fun _ => 0) exText exBin
  [List.replicate 8 0 ++ [7, 0, 0, 0] ++ List.replicate 228 0 ++ [[1, 0], [2, 0]].flatten,
   List.replicate 8 0 ++ [8, 1, 0, 0x80] ++ List.replicate 228 0 ++ [[0, 0], [0xff, 0x7f]].flatten]
  exWMap exB .le { lineNum := 5, sampPerTr := 2, formatCode := 3, endianness := 0x01020304 }
  (by decide +kernel) (by decide +kernel) (.inr (by decide +kernel))
  (fun i hi hc => by
    have h : ∀ i, i < 400 → (∃ f ∈ binLayout, f.byte ≤ i + 3201 ∧ i + 3201 < f.byte + f.width ∧ f.byte < 3507) ∨
        exBin[i]? = some 0 := by decide +kernel
    rcases h i hi with ⟨f, h1, h2, h3, h4⟩ | h
    · exact absurd ⟨f, h1, h2, h3, .inl h4⟩ hc
    · exact h)
  (by decide +kernel) (by decide) rfl rfl rfl (by decide) (exMapOk _ rfl)
  (fun f hf => by
    simp only [exB, List.mem_cons, List.not_mem_nil, or_false] at hf
    rcases hf with rfl | rfl <;> exact ⟨_, rfl⟩)
  (fun c hc => by
    have hr : ∀ n : Nat, n < 32768 → Rewrites (.strict fun _ => 0) 3 .le (encInt .le 2 n) := fun n hn =>
      C55_sample_integer _ 3 .i16 rfl .le n (i16_range hn) (by omega)
    simp only [List.mem_cons, List.not_mem_nil, or_false] at hc
    rcases hc with rfl | rfl
    · refine ⟨_, _, rfl, by decide +kernel, by decide +kernel, rfl, ?_⟩
      intro p hp
      simp only [List.mem_cons, List.not_mem_nil, or_false] at hp
      rcases hp with rfl | rfl
      · exact hr 1 (by decide)
      · exact hr 2 (by decide)
    · refine ⟨_, _, rfl, by decide +kernel, by decide +kernel, rfl, ?_⟩
      intro p hp
      simp only [List.mem_cons, List.not_mem_nil, or_false] at hp
      rcases hp with rfl | rfl
      · exact hr 0 (by decide)
      · exact hr 32767 (by decide))

end Sedaman.Props
