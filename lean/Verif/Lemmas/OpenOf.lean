import Verif.Lemmas.Visits

/-!
# Opening a file of known layout
-/

namespace Sedaman

open Spec

theorem openReader_of {data text bin : Bytes} {ub : Option BinHeader} {m : HdrMap} {bo : ByteOrder}
    {bh : BinHeader} {exts trl : List Bytes} {rest : Bytes} {bps first ed : Nat}
    (hd : data = text ++ (bin ++ rest)) (ht : text.length = 3200) (hb : bin.length = 400)
    (hm : checkMap (initHeader ub) m = .ok ())
    (hf : fillBinHeader (initHeader ub) ub.isSome bin = .ok (bo, bh))
    (hfmt : bh.formatCode ∈ supportedFormats) (hbps : bytesPerSample bh.formatCode = some bps)
    (hx : readExtText bh.extTextHeadersNum ⟨data, 3600⟩ = .ok (exts, ⟨data, 3600 + 3200 * exts.length⟩))
    (hfirst : bh.byteOffOfFirstTr = 0 ∧ first = 3600 + 3200 * exts.length ∨
      bh.byteOffOfFirstTr = (first : Int) ∧ first ≠ 0 ∧ first < 2 ^ 63)
    (htr : readTrailers bo bh (samplesPerTrace bh) bps ⟨data, first⟩ = .ok (trl, ed))
    (hs : 0 ≤ samplesPerTrace bh * bps ∧ samplesPerTrace bh * bps < 2 ^ 31) :
    openReader data ub m = .ok {
      bh, bo, map := m, file := ⟨data, first⟩, curr := first, endData := ed,
      spt := samplesPerTrace bh, bps, bufLen := (samplesPerTrace bh * bps).toNat,
      texts := text :: exts, trailers := trl } := by
  obtain ⟨n, rd, -, hrd, -⟩ := reader_shape hfmt
  unfold openReader
  rw [hm, ok_bind]
  have r1 : File.read ⟨data, 0⟩ textHeaderSize = .ok (text, ⟨data, 3200⟩) := by
    have := read_chunk [] text (bin ++ rest) ht
    rw [List.nil_append, ← hd] at this
    exact this
  have r2 : File.read ⟨data, 3200⟩ binHeaderSize = .ok (bin, ⟨data, 3600⟩) := by
    have := read_chunk text bin rest hb
    rw [← hd, ht] at this
    exact this
  simp only
  rw [r1, ok_bind]; simp only
  rw [r2, ok_bind]; simp only
  rw [hf, ok_bind]; simp only
  rw [hrd, ok_bind, hbps]; simp only
  rw [hx, ok_bind]; simp only
  have hsf : seekFirst bh ⟨data, 3600 + 3200 * exts.length⟩ = .ok ⟨data, first⟩ := by
    unfold seekFirst
    rcases hfirst with ⟨h1, h2⟩ | ⟨h1, h2, h3⟩
    · rw [if_neg (by simp [h1]), h2]
    · rw [if_pos (by omega), h1, toU_of_nat_lt (by omega), toS_small h3, seek_nat]
  rw [hsf, ok_bind]; simp only
  rw [htr, ok_bind]; simp only
  rw [seek_nat, ok_bind]
  have hmul : mulInt32 (samplesPerTrace bh) bps = .ok (samplesPerTrace bh * bps) := if_pos ⟨by omega, hs.2⟩
  rw [hmul, ok_bind]
  have hu := toU_nat_of_nonneg hs.1 (by omega)
  have hlt : toU 8 (samplesPerTrace bh * bps) < 2 ^ 63 := by omega
  rw [resizeVec_of_lt hlt, ok_bind]
  simp only [pure_eq_ok, List.take_nil, List.nil_append, List.length_replicate, List.length_nil, Nat.sub_zero]
  rw [show toU 8 (samplesPerTrace bh * bps) = (samplesPerTrace bh * bps).toNat by omega]

/-- Without trailer stanzas the traces end with the file. -/
theorem readTrailers_none {bo : ByteOrder} {bh : BinHeader} {spt : Int} {bps : Nat} {f : File}
    (h : bh.numOfTrailerStanza = 0) :
    readTrailers bo bh spt bps f = .ok ([], f.data.length) := by
  unfold readTrailers
  rw [if_neg (by rw [h]; decide), h]
  have : mulInt32 0 (textHeaderSize : Nat) = .ok 0 := by decide +kernel
  rw [this, ok_bind, seekEnd_zero, ok_bind]
  rfl

theorem readExtText_none (f : File) : readExtText 0 f = .ok ([], f) := rfl

theorem readExtText_count (pre rest : Bytes) (recs : List Bytes) (hl : ∀ t ∈ recs, t.length = 3200)
    (hn : recs ≠ []) :
    readExtText recs.length ⟨pre ++ (recs.flatten ++ rest), pre.length⟩ =
      .ok (recs, ⟨pre ++ (recs.flatten ++ rest), pre.length + 3200 * recs.length⟩) := by
  have h0 : 0 < recs.length := List.length_pos_iff.2 hn
  unfold readExtText
  rw [if_neg (by omega), if_neg (by omega)]
  have : loopCount (recs.length : Int) ⟨pre ++ (recs.flatten ++ rest), pre.length⟩ = recs.length := by
    unfold loopCount
    rw [if_neg (by omega)]
    simp
  rw [this]
  exact readRecords_of recs hl pre rest

theorem flatten_length_const {recs : List Bytes} (n : Nat) (hl : ∀ t ∈ recs, t.length = n) :
    recs.flatten.length = n * recs.length := by
  induction recs with
  | nil => simp
  | cons t ts ih =>
    rw [List.flatten_cons, List.length_append, hl t List.mem_cons_self,
      ih fun x hx => hl x (List.mem_cons_of_mem _ hx), List.length_cons, Nat.mul_succ, Nat.add_comm]

theorem readExtText_end (pre rest : Bytes) (init : List Bytes) (last : Bytes)
    (hl : ∀ t ∈ init, t.length = 3200) (hn : ∀ t ∈ init, isEndText t = false)
    (hlast : last.length = 3200) (he : isEndText last = true) :
    readExtText (-1) ⟨pre ++ ((init ++ [last]).flatten ++ rest), pre.length⟩ =
      .ok (init ++ [last], ⟨pre ++ ((init ++ [last]).flatten ++ rest),
        pre.length + 3200 * (init.length + 1)⟩) := by
  unfold readExtText
  rw [if_neg (by decide), if_pos rfl]
  apply readUntilEnd_of init last hl hn hlast he
  unfold File.records
  have := flatten_length_const 3200 (recs := init ++ [last]) (by
    intro t ht
    rcases List.mem_append.1 ht with h | h
    · exact hl t h
    · rw [List.mem_singleton.1 h]; exact hlast)
  rw [List.length_append, List.length_append, this]
  simp only [List.length_append, List.length_singleton, textHeaderSize]
  omega

end Sedaman
