import Verif.Model.ISEGY
import Verif.Lemmas.File
import Verif.Lemmas.TraceHdr

/-!
# Lemmas about reading SEG-Y files
-/

namespace Sedaman

/-! ## Reading traces -/

/-- Reading header blocks inside a chunk is the same wherever the chunk lies in a file. -/
theorem readBlocks_frame {bo : ByteOrder} {m : HdrMap} {n i : Nat} {c : Bytes} {p : Nat}
    {acc h : Header} {f' : File} (hr : readBlocks bo m n i ⟨c, p⟩ acc = .ok (h, f')) :
    f' = ⟨c, p + 240 * n⟩ ∧ ∀ pre rest : Bytes,
      readBlocks bo m n i ⟨pre ++ (c ++ rest), pre.length + p⟩ acc =
        .ok (h, ⟨pre ++ (c ++ rest), pre.length + (p + 240 * n)⟩) := by
  induction n generalizing i p acc with
  | zero =>
    simp only [readBlocks, Except.ok.injEq, Prod.mk.injEq] at hr
    obtain ⟨rfl, rfl⟩ := hr
    exact ⟨rfl, fun _ _ => rfl⟩
  | succ n ih =>
    unfold readBlocks at hr ⊢
    cases hm : m[i]? with
    | some b =>
      rw [hm] at hr
      simp only at hr ⊢
      obtain ⟨⟨buf, f1⟩, h1, hr⟩ := bind_ok hr
      obtain ⟨acc', h2, hr⟩ := bind_ok hr
      obtain rfl := (read_frame h1 [] []).1
      obtain ⟨hf, hp⟩ := ih hr
      refine ⟨by rw [hf]; congr 1; unfold trHeaderSize; omega, fun pre rest => ?_⟩
      rw [(read_frame h1 pre rest).2, ok_bind]
      simp only
      rw [h2, ok_bind, hp]
      congr 4; unfold trHeaderSize; omega
    | none =>
      rw [hm] at hr
      simp only at hr ⊢
      have e (f : File) : f.seekCur (trHeaderSize : Nat) = .ok ⟨f.data, f.pos + 240⟩ := seekCur_nat f 240
      rw [e, ok_bind] at hr
      obtain ⟨hf, hp⟩ := ih hr
      refine ⟨by rw [hf]; congr 1; simp only; omega, fun pre rest => ?_⟩
      rw [e, ok_bind]
      simp only [Nat.add_assoc]
      rw [hp]
      congr 4; simp only; omega

/-- The number of blocks that are read for one trace. -/
def hdrBlocks (bh : BinHeader) : Nat := (bh.maxNumAddTrHeaders + 1).toNat

theorem readTrcHeader_frame {r : Reader} {c : Bytes} {p : Nat} {h : Header} {f' : File}
    (hf : r.file = ⟨c, p⟩) (hr : readTrcHeader r = .ok (h, f')) :
    f' = ⟨c, p + 240 * hdrBlocks r.bh⟩ ∧ ∀ pre rest : Bytes,
      readTrcHeader { r with file := ⟨pre ++ (c ++ rest), pre.length + p⟩ } =
        .ok (h, ⟨pre ++ (c ++ rest), pre.length + (p + 240 * hdrBlocks r.bh)⟩) := by
  unfold readTrcHeader at hr ⊢
  split at hr
  · cases hr
  · rename_i hm
    rw [hf] at hr
    obtain ⟨h1, h2⟩ := readBlocks_frame hr
    refine ⟨h1, fun pre rest => ?_⟩
    simp only
    rw [if_neg hm, h2]
    rfl

theorem readTrcHeader_file {r : Reader} {h : Header} {f' : File}
    (hr : readTrcHeader r = .ok (h, f')) :
    f' = ⟨r.file.data, r.file.pos + 240 * hdrBlocks r.bh⟩ :=
  (readTrcHeader_frame (c := r.file.data) (p := r.file.pos) rfl hr).1

theorem readSamplesFix_ok {bh : BinHeader} {bo : ByteOrder} {bps n : Nat} {f f' : File}
    {xs : List Dbl} (h : readSamplesFix bh bo bps n f = .ok (xs, f')) :
    ∃ buf rd rest, f.read n = .ok (buf, f') ∧ sampleReader bh.formatCode = .ok rd ∧
      decodeSamples (rd bo) (n / bps) buf = .ok (xs, rest) := by
  unfold readSamplesFix at h
  obtain ⟨⟨buf, f1⟩, h1, h⟩ := bind_ok h
  obtain ⟨rd, h2, h⟩ := bind_ok h
  obtain ⟨⟨ys, rest⟩, h3, h⟩ := bind_ok h
  simp only [pure_eq_ok, Except.ok.injEq, Prod.mk.injEq] at h
  obtain ⟨rfl, rfl⟩ := h
  exact ⟨buf, rd, rest, h1, h2, h3⟩

theorem readSamplesFix_of {bh : BinHeader} {bo : ByteOrder} {bps n : Nat} {f f' : File}
    {xs : List Dbl} {buf rest : Bytes} {rd : ByteOrder → Rd Dbl} (h1 : f.read n = .ok (buf, f'))
    (h2 : sampleReader bh.formatCode = .ok rd)
    (h3 : decodeSamples (rd bo) (n / bps) buf = .ok (xs, rest)) :
    readSamplesFix bh bo bps n f = .ok (xs, f') := by
  unfold readSamplesFix
  rw [h1, ok_bind]; simp only
  rw [h2, ok_bind, h3, ok_bind]; rfl

theorem decodeSamples_length {rd : Rd Dbl} {n : Nat} {buf rest : Bytes} {xs : List Dbl}
    (h : decodeSamples rd n buf = .ok (xs, rest)) : xs.length = n := by
  induction n generalizing buf xs rest with
  | zero =>
    simp only [decodeSamples] at h
    have := Except.ok.inj h
    simp only [Prod.mk.injEq] at this
    rw [← this.1]; rfl
  | succ n ih =>
    simp only [decodeSamples] at h
    obtain ⟨⟨x, b1⟩, h1, h⟩ := bind_ok h
    obtain ⟨⟨ys, b2⟩, h2, h⟩ := bind_ok h
    have := Except.ok.inj h
    simp only [Prod.mk.injEq] at this
    rw [← this.1, List.length_cons, ih h2]

/-- How many bytes of samples `read_trace` takes, given the header read. -/
def sampleBytes (r : Reader) (hdr : Header) : Out (Nat × Header) :=
  if fixedLength r.bh then .ok (r.bufLen, hdr)
  else do
    let (n, hdr) ← sampNum hdr
    if 2 ^ 63 ≤ toU 8 (n * r.bps) ∧ r.bufLen ≠ toU 8 (n * r.bps) then throwExn .lengthError
    else pure (toU 8 (n * r.bps), hdr)

/-- `read_trace` in one piece. -/
theorem readTrace_eq (r : Reader) : readTrace r = (do
    let (h0, f) ← readTrcHeader r
    let (n, hdr) ← sampleBytes r h0
    let (xs, f) ← readSamplesFix r.bh r.bo r.bps n f
    pure (⟨hdr, xs⟩, { r with file := f, curr := f.pos, bufLen := n })) := by
  unfold readTrace sampleBytes
  cases h1 : readTrcHeader r with
  | error e => rfl
  | ok p =>
    obtain ⟨h0, f⟩ := p
    simp only [ok_bind]
    by_cases hf : fixedLength r.bh = true
    · rw [if_pos hf, if_pos hf, ok_bind]
    · rw [if_neg hf, if_neg hf]
      cases h2 : sampNum h0 with
      | error e => rfl
      | ok q =>
        obtain ⟨n, hdr⟩ := q
        simp only [ok_bind]
        by_cases hb : r.bufLen ≠ toU 8 (n * r.bps)
        · rw [if_pos hb]
          by_cases hl : 2 ^ 63 ≤ toU 8 (n * r.bps)
          · rw [if_pos ⟨hl, hb⟩]
            unfold resizeVec
            rw [if_pos hl]
            rfl
          · rw [if_neg (fun h => hl h.1)]
            obtain ⟨out, ho⟩ : ∃ out, resizeVec (List.replicate r.bufLen 0) (toU 8 (n * r.bps)) = .ok out :=
              ⟨_, resizeVec_of_lt (by omega)⟩
            rw [ho]
            obtain ⟨-, hl', -⟩ := resizeVec_ok ho
            simp only [ok_bind, pure_eq_ok, hl']
        · rw [if_neg hb, if_neg (fun h => hb h.2)]
          have : r.bufLen = toU 8 (n * r.bps) := by omega
          simp only [ok_bind, pure_eq_ok, this]

theorem readTrace_ok {r r' : Reader} {t : Trace} (h : readTrace r = .ok (t, r')) :
    ∃ h0 n buf rd rest, readTrcHeader r =
        .ok (h0, ⟨r.file.data, r.file.pos + 240 * hdrBlocks r.bh⟩) ∧
      sampleBytes r h0 = .ok (n, t.header) ∧
      File.read ⟨r.file.data, r.file.pos + 240 * hdrBlocks r.bh⟩ n =
        .ok (buf, ⟨r.file.data, r.file.pos + 240 * hdrBlocks r.bh + n⟩) ∧
      sampleReader r.bh.formatCode = .ok rd ∧
      decodeSamples (rd r.bo) (n / r.bps) buf = .ok (t.samples, rest) ∧
      r' = { r with
        file := ⟨r.file.data, r.file.pos + 240 * hdrBlocks r.bh + n⟩
        curr := r.file.pos + 240 * hdrBlocks r.bh + n, bufLen := n } := by
  rw [readTrace_eq] at h
  obtain ⟨⟨h0, f⟩, h1, h⟩ := bind_ok h
  obtain ⟨⟨n, hdr⟩, h2, h⟩ := bind_ok h
  obtain ⟨⟨xs, f2⟩, h3, h⟩ := bind_ok h
  simp only [pure_eq_ok, Except.ok.injEq, Prod.mk.injEq] at h
  obtain ⟨rfl, rfl⟩ := h
  obtain rfl := readTrcHeader_file h1
  obtain ⟨buf, rd, rest, h4, h5, h6⟩ := readSamplesFix_ok h3
  obtain ⟨-, -, rfl⟩ := read_ok h4
  exact ⟨h0, n, buf, rd, rest, h1, h2, h4, h5, h6, rfl⟩

theorem readTrace_of {r : Reader} {h0 hdr : Header} {n : Nat} {buf rest : Bytes}
    {rd : ByteOrder → Rd Dbl} {xs : List Dbl} {f f' : File} (h1 : readTrcHeader r = .ok (h0, f))
    (h2 : sampleBytes r h0 = .ok (n, hdr)) (h3 : f.read n = .ok (buf, f'))
    (h4 : sampleReader r.bh.formatCode = .ok rd)
    (h5 : decodeSamples (rd r.bo) (n / r.bps) buf = .ok (xs, rest)) :
    readTrace r = .ok (⟨hdr, xs⟩, { r with file := f', curr := f'.pos, bufLen := n }) := by
  rw [readTrace_eq, h1, ok_bind]; simp only
  rw [h2, ok_bind]; simp only
  rw [readSamplesFix_of h3 h4 h5, ok_bind]; rfl

/-- Reading a trace inside a chunk is the same wherever the chunk lies in a file. -/
theorem readTrace_frame {r r' : Reader} {c : Bytes} {p : Nat} {t : Trace}
    (hf : r.file = ⟨c, p⟩) (hr : readTrace r = .ok (t, r')) (pre rest : Bytes) :
    r' = { r with file := ⟨c, r'.file.pos⟩, curr := r'.file.pos, bufLen := r'.bufLen } ∧
    readTrace { r with file := ⟨pre ++ (c ++ rest), pre.length + p⟩ } =
      .ok (t, { r with
        file := ⟨pre ++ (c ++ rest), pre.length + r'.file.pos⟩
        curr := pre.length + r'.file.pos, bufLen := r'.bufLen }) := by
  obtain ⟨h0, n, buf, rd, rs, h1, h2, h3, h4, h5, rfl⟩ := readTrace_ok hr
  rw [hf] at h1 h3
  simp only [hf] at h1 h3 ⊢
  refine ⟨trivial, ?_⟩
  have h1' := (readTrcHeader_frame hf h1).2 pre rest
  have h3' := (read_frame h3 pre rest).2
  exact readTrace_of h1' (show sampleBytes _ h0 = _ from h2) h3' h4 h5

theorem readHeader_ok {r r' : Reader} {h : Header} (hr : readHeader r = .ok (h, r')) :
    ∃ h0 off, readTrcHeader r =
        .ok (h0, ⟨r.file.data, r.file.pos + 240 * hdrBlocks r.bh⟩) ∧
      (if fixedLength r.bh then mulInt32 r.spt r.bps = .ok off ∧ h = h0
        else ∃ n, sampNum h0 = .ok (n, h) ∧ off = toS 8 (toU 8 (n * r.bps))) ∧
      0 ≤ (r.file.pos + 240 * hdrBlocks r.bh : Nat) + off ∧
      r' = { r with
        file := ⟨r.file.data, ((r.file.pos + 240 * hdrBlocks r.bh : Nat) + off).toNat⟩
        curr := ((r.file.pos + 240 * hdrBlocks r.bh : Nat) + off).toNat } := by
  unfold readHeader at hr
  obtain ⟨⟨h0, f⟩, h1, hr⟩ := bind_ok hr
  obtain rfl := readTrcHeader_file h1
  simp only at hr
  split at hr
  · rename_i hf
    obtain ⟨off, h2, hr⟩ := bind_ok hr
    obtain ⟨f2, h3, hr⟩ := bind_ok hr
    obtain ⟨hp, rfl⟩ := seek_ok h3
    simp only [pure_eq_ok, Except.ok.injEq, Prod.mk.injEq] at hr
    obtain ⟨rfl, rfl⟩ := hr
    exact ⟨h0, off, h1, by rw [if_pos hf]; exact ⟨h2, rfl⟩, hp, rfl⟩
  · rename_i hf
    obtain ⟨⟨n, hdr⟩, h2, hr⟩ := bind_ok hr
    obtain ⟨f2, h3, hr⟩ := bind_ok hr
    obtain ⟨hp, rfl⟩ := seek_ok h3
    simp only [pure_eq_ok, Except.ok.injEq, Prod.mk.injEq] at hr
    obtain ⟨rfl, rfl⟩ := hr
    exact ⟨h0, _, h1, by rw [if_neg hf]; exact ⟨n, h2, rfl⟩, hp, rfl⟩

theorem readHeader_of {r : Reader} {h0 h : Header} {off : Int} {f : File}
    (h1 : readTrcHeader r = .ok (h0, f))
    (h2 : if fixedLength r.bh then mulInt32 r.spt r.bps = .ok off ∧ h = h0
        else ∃ n, sampNum h0 = .ok (n, h) ∧ off = toS 8 (toU 8 (n * r.bps)))
    (h3 : 0 ≤ (f.pos : Int) + off) :
    readHeader r = .ok (h, { r with
        file := ⟨f.data, ((f.pos : Int) + off).toNat⟩
        curr := ((f.pos : Int) + off).toNat }) := by
  have hs : f.seekCur off = .ok ⟨f.data, ((f.pos : Int) + off).toNat⟩ := by
    unfold File.seekCur File.seek
    rw [if_neg (by omega)]
  unfold readHeader
  rw [h1, ok_bind]
  simp only
  by_cases hf : fixedLength r.bh = true
  · rw [if_pos hf] at h2 ⊢
    obtain ⟨h2, rfl⟩ := h2
    rw [h2, ok_bind, hs, ok_bind]
    rfl
  · rw [if_neg hf] at h2 ⊢
    obtain ⟨n, h2, rfl⟩ := h2
    rw [h2, ok_bind]
    simp only
    rw [hs, ok_bind]
    rfl

end Sedaman
