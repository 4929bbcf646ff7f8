import Verif.Lemmas.ISEGY
import Verif.Lemmas.SampleFmt
import Verif.Lemmas.BinHeader
import Verif.Spec.SEGY

/-!
# Lemmas about opening a SEG-Y file and about complete traces
-/

namespace Sedaman

open Spec

/-! ## Runs of 3200 byte records -/

theorem readRecords_ok {n : Nat} {f f' : File} {recs : List Bytes}
    (h : readRecords n f = .ok (recs, f')) :
    f' = ⟨f.data, f.pos + 3200 * n⟩ ∧ recs.length = n ∧ (∀ t ∈ recs, t.length = 3200) ∧
      recs.flatten = (f.data.drop f.pos).take (3200 * n) := by
  induction n generalizing f recs f' with
  | zero =>
    simp only [readRecords, Except.ok.injEq, Prod.mk.injEq] at h
    obtain ⟨rfl, rfl⟩ := h
    simp
  | succ n ih =>
    unfold readRecords at h
    obtain ⟨⟨t, f1⟩, h1, h⟩ := bind_ok h
    obtain ⟨⟨more, f2⟩, h2, h⟩ := bind_ok h
    simp only [pure_eq_ok, Except.ok.injEq, Prod.mk.injEq] at h
    obtain ⟨rfl, rfl⟩ := h
    obtain ⟨ht, hl, rfl⟩ := read_ok h1
    obtain ⟨hf, hn, ha, hc⟩ := ih h2
    refine ⟨?_, by rw [List.length_cons, hn], ?_, ?_⟩
    · rw [hf]; congr 1; simp only [textHeaderSize]; omega
    · intro x hx
      rcases List.mem_cons.1 hx with rfl | hx
      · exact hl
      · exact ha x hx
    · rw [List.flatten_cons, hc, ht]
      simp only [textHeaderSize]
      rw [← List.drop_drop, Nat.mul_succ, Nat.add_comm, List.take_add]

theorem readUntilEnd_ok {n : Nat} {f f' : File} {recs : List Bytes}
    (h : readUntilEnd n f = .ok (recs, f')) :
    f' = ⟨f.data, f.pos + 3200 * recs.length⟩ ∧ (∀ t ∈ recs, t.length = 3200) ∧
      recs.flatten = (f.data.drop f.pos).take (3200 * recs.length) ∧
      ∃ init last, recs = init ++ [last] ∧ isEndText last = true ∧
        ∀ t ∈ init, isEndText t = false := by
  induction n generalizing f recs f' with
  | zero => simp only [readUntilEnd] at h; cases h
  | succ n ih =>
    unfold readUntilEnd at h
    obtain ⟨⟨t, f1⟩, h1, h⟩ := bind_ok h
    obtain ⟨ht, hl, rfl⟩ := read_ok h1
    simp only at h
    split at h
    · rename_i he
      simp only [pure_eq_ok, Except.ok.injEq, Prod.mk.injEq] at h
      obtain ⟨rfl, rfl⟩ := h
      refine ⟨rfl, ?_, ?_, [], t, rfl, he, by simp⟩
      · intro x hx; rw [List.mem_singleton] at hx; rw [hx]; exact hl
      · rw [List.flatten_singleton, ht]; rfl
    · rename_i he
      obtain ⟨⟨more, f2⟩, h2, h⟩ := bind_ok h
      simp only [pure_eq_ok, Except.ok.injEq, Prod.mk.injEq] at h
      obtain ⟨rfl, rfl⟩ := h
      obtain ⟨hf, ha, hc, init, last, hrec, hlast, hinit⟩ := ih h2
      refine ⟨?_, ?_, ?_, t :: init, last, by rw [hrec]; rfl, hlast, ?_⟩
      · rw [hf, List.length_cons]; congr 1; simp only [textHeaderSize]; omega
      · intro x hx
        rcases List.mem_cons.1 hx with rfl | hx
        · exact hl
        · exact ha x hx
      · rw [List.flatten_cons, hc, ht, List.length_cons]
        simp only [textHeaderSize]
        rw [← List.drop_drop, Nat.mul_succ, Nat.add_comm (3200 * _), List.take_add]
      · intro x hx
        rcases List.mem_cons.1 hx with rfl | hx
        · simpa using he
        · exact hinit x hx

/-- A run of records is read when it is in the file. -/
theorem readRecords_of (recs : List Bytes) (hl : ∀ t ∈ recs, t.length = 3200) (pre rest : Bytes) :
    readRecords recs.length ⟨pre ++ (recs.flatten ++ rest), pre.length⟩ =
      .ok (recs, ⟨pre ++ (recs.flatten ++ rest), pre.length + 3200 * recs.length⟩) := by
  induction recs generalizing pre with
  | nil => rfl
  | cons t ts ih =>
    have ht : t.length = 3200 := hl t List.mem_cons_self
    rw [List.length_cons]
    unfold readRecords
    have e : pre ++ ((t :: ts).flatten ++ rest) = pre ++ (t ++ (ts.flatten ++ rest)) := by
      rw [List.flatten_cons, List.append_assoc t]
    rw [e, read_chunk pre t _ ht, ok_bind]
    simp only
    have := ih (fun x hx => hl x (List.mem_cons_of_mem _ hx)) (pre ++ t)
    rw [List.append_assoc, List.length_append, ht] at this
    rw [this, ok_bind]
    simp only [pure_eq_ok]
    rw [show pre.length + 3200 + 3200 * ts.length =
      pre.length + 3200 * (ts.length + 1) by omega]

theorem readUntilEnd_of (init : List Bytes) (last : Bytes) (hl : ∀ t ∈ init, t.length = 3200)
    (hn : ∀ t ∈ init, isEndText t = false) (hlast : last.length = 3200)
    (he : isEndText last = true) (pre rest : Bytes) (fuel : Nat) (hf : init.length < fuel) :
    readUntilEnd fuel ⟨pre ++ ((init ++ [last]).flatten ++ rest), pre.length⟩ =
      .ok (init ++ [last], ⟨pre ++ ((init ++ [last]).flatten ++ rest),
        pre.length + 3200 * (init.length + 1)⟩) := by
  induction init generalizing pre fuel with
  | nil =>
    obtain ⟨fuel, rfl⟩ : ∃ n, fuel = n + 1 := ⟨fuel - 1, by simp at hf; omega⟩
    unfold readUntilEnd
    simp only [List.nil_append, List.flatten_singleton]
    rw [read_chunk pre last _ hlast, ok_bind]
    simp only [he, if_true, pure_eq_ok, List.length_nil]
  | cons t ts ih =>
    obtain ⟨fuel, rfl⟩ : ∃ n, fuel = n + 1 := ⟨fuel - 1, by omega⟩
    have ht : t.length = 3200 := hl t List.mem_cons_self
    unfold readUntilEnd
    have e : pre ++ ((t :: ts ++ [last]).flatten ++ rest) =
        pre ++ (t ++ ((ts ++ [last]).flatten ++ rest)) := by
      rw [List.cons_append, List.flatten_cons, List.append_assoc t]
    rw [e, read_chunk pre t _ ht, ok_bind]
    simp only [hn t List.mem_cons_self, Bool.false_eq_true, if_false]
    have := ih (fun x hx => hl x (List.mem_cons_of_mem _ hx))
      (fun x hx => hn x (List.mem_cons_of_mem _ hx)) (pre ++ t) fuel
      (by rw [List.length_cons] at hf; omega)
    rw [List.append_assoc, List.length_append, ht] at this
    rw [this, ok_bind]
    simp only [pure_eq_ok, List.length_cons, List.cons_append]
    rw [show pre.length + 3200 + 3200 * (ts.length + 1) =
      pre.length + 3200 * (ts.length + 1 + 1) by omega]

theorem readExtText_file {n : Int} {f f' : File} {recs : List Bytes}
    (h : readExtText n f = .ok (recs, f')) : f' = ⟨f.data, f.pos + 3200 * recs.length⟩ := by
  unfold readExtText at h
  split at h
  · simp only [Except.ok.injEq, Prod.mk.injEq] at h
    obtain ⟨rfl, rfl⟩ := h
    rfl
  · split at h
    · exact (readUntilEnd_ok h).1
    · obtain ⟨h1, h2, -⟩ := readRecords_ok h
      rw [h2]; exact h1

/-! ## Opening -/

theorem openReader_ok {data : Bytes} {ub : Option BinHeader} {m : HdrMap} {r : Reader}
    (h : openReader data ub m = .ok r) :
    ∃ exts f2 rd size, checkMap (initHeader ub) m = .ok () ∧ 3600 ≤ data.length ∧
      fillBinHeader (initHeader ub) ub.isSome ((data.drop 3200).take 400) = .ok (r.bo, r.bh) ∧
      sampleReader r.bh.formatCode = .ok rd ∧ bytesPerSample r.bh.formatCode = some r.bps ∧
      readExtText r.bh.extTextHeadersNum ⟨data, 3600⟩ = .ok (exts, f2) ∧
      r.texts = data.take 3200 :: exts ∧
      (if r.bh.byteOffOfFirstTr ≠ 0 then
          (r.file.pos : Int) = toS 8 (toU 8 r.bh.byteOffOfFirstTr)
        else r.file.pos = f2.pos) ∧
      readTrailers r.bo r.bh r.spt r.bps r.file = .ok (r.trailers, r.endData) ∧
      r.spt = samplesPerTrace r.bh ∧ r.curr = r.file.pos ∧ r.file.data = data ∧ r.map = m ∧
      mulInt32 r.spt r.bps = .ok size ∧ toU 8 size < 2 ^ 63 ∧ r.bufLen = toU 8 size := by
  unfold openReader at h
  obtain ⟨⟨⟩, h0, h⟩ := bind_ok h
  obtain ⟨⟨text, f1⟩, h1, h⟩ := bind_ok h
  obtain ⟨ht, htl, rfl⟩ := read_ok h1
  obtain ⟨⟨bin, f2⟩, h2, h⟩ := bind_ok h
  obtain ⟨hb, hbl, rfl⟩ := read_ok h2
  obtain ⟨⟨bo, bh⟩, h3, h⟩ := bind_ok h
  obtain ⟨rd, h4, h⟩ := bind_ok h
  simp only at h
  cases h5 : bytesPerSample bh.formatCode with
  | none => rw [h5] at h; cases h
  | some bps =>
    rw [h5] at h
    obtain ⟨⟨exts, f3⟩, h6, h⟩ := bind_ok h
    have hf3 := readExtText_file h6
    simp only at h
    obtain ⟨f4, h7, h⟩ := bind_ok h
    obtain ⟨⟨trl, ed⟩, h8, h⟩ := bind_ok h
    obtain ⟨f5, h9, h⟩ := bind_ok h
    obtain ⟨size, h10, h⟩ := bind_ok h
    obtain ⟨buf, h11, h⟩ := bind_ok h
    simp only [pure_eq_ok, Except.ok.injEq] at h
    subst h
    rw [seek_nat] at h9
    have e5 := (Except.ok.inj h9).symm
    obtain ⟨hs, hlen, -⟩ := resizeVec_ok h11
    simp only [List.drop_zero] at ht
    have hpos : (if bh.byteOffOfFirstTr ≠ 0 then (f4.pos : Int) = toS 8 (toU 8 bh.byteOffOfFirstTr)
        else f4.pos = f3.pos) ∧ f4.data = data := by
      unfold seekFirst at h7
      by_cases hz : bh.byteOffOfFirstTr ≠ 0
      · rw [if_pos hz] at h7 ⊢
        obtain ⟨hp, e4⟩ := seek_ok h7
        rw [e4, hf3]
        exact ⟨by simp only; omega, rfl⟩
      · rw [if_neg hz] at h7 ⊢
        have e4 := Except.ok.inj h7
        rw [← e4, hf3]
        exact ⟨rfl, rfl⟩
    have e54 : f5 = f4 := by rw [e5]
    subst e54
    refine ⟨exts, f3, rd, size, h0, ?_, ?_, h4, h5, h6, ?_, hpos.1, h8, rfl, rfl, hpos.2, rfl, h10, hs, hlen⟩
    · rw [hb] at hbl
      simp only [List.length_take, List.length_drop, textHeaderSize, binHeaderSize] at hbl
      omega
    · rw [← h3, hb]; simp only [textHeaderSize, binHeaderSize, Nat.zero_add]
    · rw [ht]


/-! ## Invariant of open readers -/

/-- What holds in every reachable state. -/
structure Inv (data : Bytes) (m : HdrMap) (r : Reader) : Prop where
  data : r.file.data = data
  map : r.map = m
  buf : r.bufLen < 2 ^ 63
  spt : 0 ≤ r.spt * r.bps ∧ mulInt32 r.spt r.bps = .ok (r.spt * r.bps)
  fix : fixedLength r.bh = true → (r.bufLen : Int) = r.spt * r.bps
  fmt : r.bh.formatCode ∈ supportedFormats
  bps : bytesPerSample r.bh.formatCode = some r.bps

theorem mem_supported {fmt : Int} {rd : ByteOrder → Rd Dbl} (h : sampleReader fmt = .ok rd) :
    fmt ∈ supportedFormats := by
  by_contra hc
  rw [reader_error hc] at h
  cases h

theorem toU_size {size : Int} (h1 : -2 ^ 31 ≤ size) (h3 : toU 8 size < 2 ^ 63) :
    0 ≤ size := by
  unfold toU at h3
  norm_num at h3
  omega

theorem toU_nat_of_nonneg {size : Int} (h0 : 0 ≤ size) (h : size < 2 ^ 64) :
    (toU 8 size : Int) = size := by
  unfold toU
  norm_num
  omega

theorem toS_small {n : Nat} (h : n < 2 ^ 63) : toS 8 n = n := by
  unfold toS
  norm_num
  split <;> omega

theorem inv_opened {data : Bytes} {ub : Option BinHeader} {m : HdrMap} {r : Reader}
    (h : openReader data ub m = .ok r) : Inv data m r := by
  obtain ⟨exts, f2, rd, size, -, -, -, h4, h5, -, -, -, -, -, -, hd, hm, hs, hl, hb⟩ := openReader_ok h
  obtain ⟨e, hlo, hhi⟩ := mulInt32_ok hs
  have h0 : 0 ≤ size := toU_size (by rw [e]; exact hlo) hl
  have hu : (toU 8 size : Int) = size := toU_nat_of_nonneg h0 (by omega)
  refine ⟨hd, hm, by omega, ⟨by omega, by rw [hs, e]⟩, fun _ => ?_, mem_supported h4, h5⟩
  rw [hb, hu, e]

theorem sampleBytes_ok {r : Reader} {h0 hdr : Header} {n : Nat} (hb : r.bufLen < 2 ^ 63)
    (h : sampleBytes r h0 = .ok (n, hdr)) :
    n < 2 ^ 63 ∧ if fixedLength r.bh then n = r.bufLen ∧ hdr = h0
      else ∃ k, sampNum h0 = .ok (k, hdr) ∧ n = toU 8 (k * r.bps) := by
  unfold sampleBytes at h
  split at h
  · rename_i hf
    simp only [Except.ok.injEq, Prod.mk.injEq] at h
    obtain ⟨rfl, rfl⟩ := h
    rw [if_pos hf]
    exact ⟨hb, rfl, rfl⟩
  · rename_i hf
    obtain ⟨⟨k, hd⟩, h1, h⟩ := bind_ok h
    simp only at h
    split at h
    · cases h
    · rename_i hn
      simp only [pure_eq_ok, Except.ok.injEq, Prod.mk.injEq] at h
      obtain ⟨rfl, rfl⟩ := h
      rw [if_neg hf]
      refine ⟨?_, k, h1, rfl⟩
      by_contra hc
      exact hn ⟨by omega, by omega⟩

/-- `sampleBytes` does not depend on the buffer left behind by an earlier variable length trace. -/
theorem sampleBytes_congr {r : Reader} {h0 hdr : Header} {n b : Nat} (hb : r.bufLen < 2 ^ 63)
    (hb' : b < 2 ^ 63) (hbf : fixedLength r.bh = true → b = r.bufLen) (f : File) (c : Nat)
    (h : sampleBytes r h0 = .ok (n, hdr)) :
    sampleBytes { r with bufLen := b, file := f, curr := c } h0 = .ok (n, hdr) := by
  obtain ⟨hn, h2⟩ := sampleBytes_ok hb h
  unfold sampleBytes
  by_cases hf : fixedLength r.bh = true
  · rw [if_pos hf] at h2
    simp only
    rw [if_pos hf, hbf hf, h2.1, h2.2]
  · rw [if_neg hf] at h2
    simp only
    rw [if_neg hf]
    obtain ⟨k, h3, rfl⟩ := h2
    rw [h3, ok_bind]
    simp only
    rw [if_neg (by omega)]
    rfl

theorem inv_trace {data : Bytes} {m : HdrMap} {r r' : Reader} {t : Trace} (hi : Inv data m r)
    (h : readTrace r = .ok (t, r')) : Inv data m r' := by
  obtain ⟨h0, n, buf, rd, rest, h1, h2, h3, h4, h5, rfl⟩ := readTrace_ok h
  obtain ⟨hn, h6⟩ := sampleBytes_ok hi.buf h2
  refine ⟨hi.data, hi.map, hn, hi.spt, fun hf => ?_, hi.fmt, hi.bps⟩
  simp only at hf ⊢
  rw [if_pos hf] at h6
  rw [h6.1]
  exact hi.fix hf

theorem inv_header {data : Bytes} {m : HdrMap} {r r' : Reader} {t : Header} (hi : Inv data m r)
    (h : readHeader r = .ok (t, r')) : Inv data m r' := by
  obtain ⟨h0, off, h1, h2, h3, rfl⟩ := readHeader_ok h
  exact ⟨hi.data, hi.map, hi.buf, hi.spt, hi.fix, hi.fmt, hi.bps⟩

theorem inv_reachable {data : Bytes} {ub : Option BinHeader} {m : HdrMap} {r : Reader}
    (h : Reachable data ub m r) : Inv data m r := by
  induction h with
  | opened h => exact inv_opened h
  | header _ h ih => exact inv_header ih h
  | trace _ h ih => exact inv_trace ih h
  | moved p _ ih => exact ⟨ih.data, ih.map, ih.buf, ih.spt, ih.fix, ih.fmt, ih.bps⟩

/-- When `read_trace` succeeds, `read_header` would have succeeded too, with the same header and
position. -/
theorem header_of_trace {data : Bytes} {m : HdrMap} {r rt : Reader} {t : Trace} (hi : Inv data m r)
    (h : readTrace r = .ok (t, rt)) :
    readHeader r = .ok (t.header, { rt with bufLen := r.bufLen }) := by
  obtain ⟨h0, n, buf, rd, rest, h1, h2, h3, h4, h5, rfl⟩ := readTrace_ok h
  obtain ⟨hn, h6⟩ := sampleBytes_ok hi.buf h2
  have key : if fixedLength r.bh then mulInt32 r.spt r.bps = .ok (n : Int) ∧ t.header = h0
        else ∃ k, sampNum h0 = .ok (k, t.header) ∧ (n : Int) = toS 8 (toU 8 (k * r.bps)) := by
    by_cases hf : fixedLength r.bh = true
    · rw [if_pos hf] at h6 ⊢
      exact ⟨by rw [h6.1, hi.fix hf]; exact hi.spt.2, h6.2⟩
    · rw [if_neg hf] at h6 ⊢
      obtain ⟨k, h7, h8⟩ := h6
      exact ⟨k, h7, by rw [← h8, toS_small hn]⟩
  have := readHeader_of h1 key (by positivity)
  rw [this]
  simp only
  rw [show (((r.file.pos + 240 * hdrBlocks r.bh : Nat) : Int) + (n : Int)).toNat =
    r.file.pos + 240 * hdrBlocks r.bh + n by omega]

/-! ## Traces of a given extent can be read -/

theorem readFields_total (bo : ByteOrder) (fs : List HField) (buf : Bytes) (hl : buf.length = 240)
    (hb : ∀ f ∈ fs, f.off + f.ty.size ≤ 240) (acc : Header) :
    ∃ h, readFields bo fs buf acc = .ok h := by
  have hv : ∀ f ∈ fs, ∃ v, readAt buf f.off (readField bo f.ty) = .ok v := by
    intro f hf
    have := hb f hf
    obtain ⟨v, hv⟩ := readField_ok bo f.ty ((buf.drop f.off).take f.ty.size) (by simp; omega)
    exact ⟨v, readAt_slice buf f.off f.ty.size _ _ v (by omega) rfl hv⟩
  induction fs generalizing acc with
  | nil => exact ⟨acc, rfl⟩
  | cons f t ih =>
    obtain ⟨v, hv1⟩ := hv f List.mem_cons_self
    obtain ⟨h, hh⟩ := ih (fun x hx => hb x (List.mem_cons_of_mem _ hx)) (acc.set f.name v)
      (fun x hx => hv x (List.mem_cons_of_mem _ hx))
    refine ⟨h, ?_⟩
    unfold readFields
    rw [hv1, ok_bind, hh]

theorem readBlocks_total (bo : ByteOrder) (m : HdrMap) (hm : MapInBounds m) (n i : Nat) (f : File)
    (hl : f.pos + 240 * n ≤ f.data.length) (acc : Header) :
    ∃ h, readBlocks bo m n i f acc = .ok (h, ⟨f.data, f.pos + 240 * n⟩) := by
  induction n generalizing i f acc with
  | zero => exact ⟨acc, rfl⟩
  | succ n ih =>
    unfold readBlocks
    cases hmi : m[i]? with
    | some b =>
      simp only
      obtain ⟨⟨buf, f'⟩, hp⟩ := (read_iff f trHeaderSize).2 (.inr (by unfold trHeaderSize; omega))
      obtain ⟨-, hbl, rfl⟩ := read_ok hp
      obtain ⟨a, ha⟩ := readFields_total bo b.fields buf hbl (hm b (List.mem_of_getElem? hmi)) acc
      obtain ⟨h, hh⟩ := ih (i + 1) ⟨f.data, f.pos + trHeaderSize⟩ (by simp only [trHeaderSize]; omega) a
      refine ⟨h, ?_⟩
      rw [hp, ok_bind]
      simp only
      rw [ha, ok_bind, hh]
      congr 3
      simp only [trHeaderSize]; omega
    | none =>
      simp only
      have e : f.seekCur (trHeaderSize : Nat) = .ok ⟨f.data, f.pos + 240⟩ := seekCur_nat f 240
      obtain ⟨h, hh⟩ := ih (i + 1) ⟨f.data, f.pos + 240⟩ (by simp only; omega) acc
      refine ⟨h, ?_⟩
      rw [e, ok_bind, hh]
      congr 3
      simp only; omega

theorem decodeSamples_total {fmt : Int} (h : fmt ∈ supportedFormats) (bo : ByteOrder) :
    ∃ n rd, bytesPerSample fmt = some n ∧ 0 < n ∧ sampleReader fmt = .ok rd ∧
      ∀ k buf, k * n ≤ buf.length → ∃ xs, decodeSamples (rd bo) k buf = .ok (xs, buf.drop (k * n)) := by
  obtain ⟨n, rd, h1, h2, h3⟩ := reader_shape h
  obtain ⟨v, hv⟩ := h3 bo
  have hn : 0 < n := by
    unfold supportedFormats at h
    simp only [List.mem_cons, List.not_mem_nil, or_false] at h
    rcases h with h | h | h | h | h | h | h | h | h | h | h | h | h <;> subst h <;>
      simp [bytesPerSample] at h1 <;> omega
  refine ⟨n, rd, h1, hn, h2, fun k => ?_⟩
  induction k with
  | zero => exact fun buf _ => ⟨[], by simp [decodeSamples]; rfl⟩
  | succ k ih =>
    intro buf hb
    rw [Nat.succ_mul] at hb
    obtain ⟨xs, hx⟩ := ih (buf.drop n) (by simp; omega)
    refine ⟨v (buf.take n) :: xs, ?_⟩
    simp only [decodeSamples, rd_bind, hv, if_pos (show n ≤ buf.length by omega), ok_bind, hx, rd_pure]
    rw [List.drop_drop, Nat.succ_mul, Nat.add_comm]

theorem hdrBlocks_pos {bh : BinHeader} (h : 0 ≤ bh.maxNumAddTrHeaders) : 0 < hdrBlocks bh := by
  unfold hdrBlocks; omega

theorem readTrcHeader_total {r : Reader} (hm : MapInBounds r.map)
    (hmax : r.bh.maxNumAddTrHeaders < 2 ^ 31 - 1)
    (hl : r.file.pos + 240 * hdrBlocks r.bh ≤ r.file.data.length) :
    ∃ h, readTrcHeader r = .ok (h, ⟨r.file.data, r.file.pos + 240 * hdrBlocks r.bh⟩) := by
  unfold readTrcHeader
  rw [if_neg (by omega)]
  exact readBlocks_total r.bo r.map hm _ 0 r.file hl []

/-- Any bytes of the right extent are a trace. -/
theorem readTrace_total {data : Bytes} {m : HdrMap} {r : Reader} (hi : Inv data m r)
    {h0 hdr : Header} {n : Nat}
    (h1 : readTrcHeader r = .ok (h0, ⟨r.file.data, r.file.pos + 240 * hdrBlocks r.bh⟩))
    (h2 : sampleBytes r h0 = .ok (n, hdr))
    (hl : n = 0 ∨ r.file.pos + 240 * hdrBlocks r.bh + n ≤ r.file.data.length) :
    ∃ xs, xs.length = n / r.bps ∧ readTrace r = .ok (⟨hdr, xs⟩, { r with
        file := ⟨r.file.data, r.file.pos + 240 * hdrBlocks r.bh + n⟩
        curr := r.file.pos + 240 * hdrBlocks r.bh + n, bufLen := n }) := by
  obtain ⟨⟨buf, f'⟩, hp⟩ := (read_iff ⟨r.file.data, r.file.pos + 240 * hdrBlocks r.bh⟩ n).2 hl
  obtain ⟨-, hbl, rfl⟩ := read_ok hp
  obtain ⟨k, rd, hk, hk0, hrd, htot⟩ := decodeSamples_total hi.fmt r.bo
  rw [hi.bps] at hk
  have hk := Option.some.inj hk
  subst hk
  obtain ⟨xs, hx⟩ := htot (n / r.bps) buf (by rw [hbl]; exact Nat.div_mul_le_self n r.bps)
  exact ⟨xs, decodeSamples_length hx, readTrace_of h1 h2 hp hrd hx⟩

end Sedaman
