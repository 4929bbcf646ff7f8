import Verif.Props.E2E

/-!
# C28: files with automatic headers
-/

namespace Sedaman.Props

open Spec

private theorem write2 {d bs cs : Bytes} {p : Nat} (h : p = d.length) :
    ∃ q, ((⟨d, p⟩ : File).write bs).write cs = ⟨d ++ (bs ++ cs), q⟩ := by
  refine ⟨d.length + bs.length + cs.length, ?_⟩
  rw [write_append (f := ⟨d, p⟩) h, write_append (by simp)]
  simp only [List.append_assoc, List.length_append]

/-- What an automatic writer is when the first trace has set the header. -/
private theorem setMin_of {w : Writer} {hdr : Header} {n : Nat} {x : ℚ} {si : Int}
    (hp : w.file.pos = w.firstPos) (hn : hdr.get "SAMP_NUM" = some (.int n)) (hle : n ≤ 32767)
    (hx : HeaderNum hdr "SAMP_INT" x) (hmax : x ≤ 32767) (ht : Truncates x si) (hsi : si ≠ 0)
    (hlo : -32768 ≤ si) (hb : w.bps ≤ 8) :
    ∃ samp : Bytes, samp.length = n * w.bps ∧
      setMinHdrs false w hdr = .ok { w with
        bh := { w.bh with sampPerTr := n, sampInt := si }, samp
        file := writeBinHeader w.bo { w.bh with sampPerTr := n, sampInt := si } w.file } := by
  obtain ⟨d, h1, h2⟩ := sampIntOf_of (o := false) hx (by simp)
  have hgt : dblGtNat d 32767 = false := by
    by_contra c
    have := (dblGtNat_iff h2 32767).1 (by simpa using c)
    push_cast at this
    linarith
  have hsi' : si ≤ 32767 := by
    rcases le_total 0 x with h | h
    · obtain ⟨q1, -⟩ := ht.1 h
      have : (si : ℚ) ≤ 32767 := by linarith
      exact_mod_cast this
    · obtain ⟨q1, q2⟩ := ht.2 h
      have : (si : ℚ) < 1 := by linarith
      have : si < 1 := by exact_mod_cast this
      omega
  have h3 : dblToS 2 d = .ok si := dblToS_of h2 ht (by norm_num; omega)
  have hmul : n * w.bps ≤ 32767 * 8 := Nat.mul_le_mul hle hb
  have h4 : mulInt64 (n : Int) w.bps = .ok ((n * w.bps : Nat) : Int) := by
    unfold mulInt64
    rw [← Int.natCast_mul, if_pos (by omega)]
  have h5 : toS 2 (toU 2 (n : Int)) = n := by
    unfold toS toU
    norm_num
    split <;> omega
  refine ⟨w.samp.take (n * w.bps) ++ List.replicate (n * w.bps - w.samp.length) 0, ?_, ?_⟩
  · rw [List.length_append, List.length_take, List.length_replicate]
    omega
  · unfold setMinHdrs needInt
    rw [if_pos hp, hn]
    simp only
    rw [ok_bind, if_neg (by omega), h1, ok_bind, hgt, if_neg (by simp), h3, ok_bind, if_neg hsi, h4, ok_bind,
      toU8_nat (by omega)]
    unfold resizeVec
    rw [if_neg (by omega), ok_bind, h5]
    rfl

/-- **C28.** Without a binary header `OSEGYRev0` accepts every sequence of traces that have the
number of samples the first one announces (at most 32767) and whose first trace has a usable sample
interval. `ISEGY` returns the traces in order, and a binary header with that number of samples, the
interval truncated to an integer, and the IBM format. -/
theorem C28_roundtrip_partial (est : LogEst) (text : Bytes) (m : HdrMap) (b : HBlock) (w0 : Writer) (t0 : Trace)
    (ts : List Trace) (n : Nat) (x : ℚ) (si : Int)
    (ho : openRev0 text {} m = .ok w0) (hm : MapOk {} m b)
    (hn : t0.header.get "SAMP_NUM" = some (.int n)) (hle : n ≤ 32767)
    (hx : HeaderNum t0.header "SAMP_INT" x) (hmax : x ≤ 32767) (htr : Truncates x si) (hsi : si ≠ 0)
    (hlo : -32768 ≤ si)
    (hts : ∀ t ∈ t0 :: ts, Storable est 1 .be b.fields t ∧ t.samples.length = n) :
    ∃ w r backs, writeAll (writeTraceRev0 est) w0 (t0 :: ts) = .ok w ∧
      openReader w.file.data none m = .ok r ∧ r.texts = [w0.file.data.take 3200] ∧
      r.bh = { formatCode := 1, sampPerTr := n, sampInt := si } ∧
      List.Forall₂ (TraceBack est 1 .be b.fields) (t0 :: ts) backs ∧ Visits r backs := by
  obtain ⟨hop, hauto, hbh, hbo, hlen, hfp⟩ := auto_opens (rev := .r0) ⟨text, m, ho⟩
  have i0 := opens_inv2 hop
  have hbh : w0.bh = { formatCode := 1 } := hbh
  have hmw : w0.map = m := by
    obtain ⟨-, t, bo, bps, -, -, -, -, -, -, rfl⟩ := openRev0_ok ho
    rfl
  have hbps4 : w0.bps = 4 := by
    have := i0.bps
    rw [hbh] at this
    exact (Option.some.inj this).symm
  obtain ⟨m', hmm⟩ : ∃ m', m = b :: m' := by
    have := hm.head
    cases m with
    | nil => cases this
    | cons x y => simp only [List.head?_cons, Option.some.injEq] at this; exact ⟨y, by rw [this]⟩
  have hsi2 : si ≤ 32767 := by
    rcases le_total 0 x with h | h
    · obtain ⟨q1, -⟩ := htr.1 h
      have : (si : ℚ) ≤ 32767 := by linarith
      exact_mod_cast this
    · obtain ⟨q1, q2⟩ := htr.2 h
      have : (si : ℚ) < 1 := by linarith
      have : si < 1 := by exact_mod_cast this
      omega
  -- the first trace
  obtain ⟨samp, hsl, hset⟩ := setMin_of (w := w0) (by rw [i0.inv.atEnd, hlen, hfp]) hn hle hx hmax htr hsi hlo
    (by omega)
  rw [hbh] at hset
  set bh : BinHeader := { formatCode := 1, sampPerTr := n, sampInt := si } with hbhd
  have hfile : writeBinHeader w0.bo bh w0.file = ⟨w0.file.data.take 3200 ++ binHeaderBytes .be bh, 3600⟩ := by
    rw [writeBinHeader_eq (by omega), List.drop_of_length_le (by omega), List.append_nil, hbo]
  rw [show writeBinHeader w0.bo { ({ formatCode := 1 } : BinHeader) with sampPerTr := n, sampInt := si } w0.file =
    ⟨w0.file.data.take 3200 ++ binHeaderBytes .be bh, 3600⟩ from hfile] at hset
  have hall := hts t0 List.mem_cons_self
  obtain ⟨hb, hblk⟩ := C15_write_succeeds est .be b.fields t0.header (List.replicate 240 0)
    (by rw [List.length_replicate]) hm.safe hall.1.ints
  have ha : autoHdrs (Rev.onlyInt .r0) w0 t0.header = .ok { w0 with
      bh := bh, samp := samp, file := ⟨w0.file.data.take 3200 ++ binHeaderBytes .be bh, 3600⟩ } := by
    unfold autoHdrs
    rw [if_pos hauto]
    exact hset
  have hu2 : toU 2 (n : Int) = n := by
    unfold toU
    norm_num
    omega
  have hmod : (n : Int) % 65536 = n := by omega
  obtain ⟨buf, hl, e⟩ := write_eq (est := est) (rev := .r0) (n := n) (b := b) (m := m') (hb := hb) ha
    (fun _ => rfl) i0.inv.hdr (by simp only; rw [hmw, hmm]) (by simp only; rw [hbo]; exact hblk) (by simp)
    (by unfold Announced; rw [if_pos (.inl rfl)]; exact hmod.symm)
    (by show n * w0.bps < 2 ^ 63; rw [hbps4]; omega)
    (fun _ => by
      show samp.length = toU 2 (n : Int) * w0.bps
      rw [hsl, hu2])
  obtain ⟨_, enc, -, henc, -⟩ := writer_shape est (show (1 : Int) ∈ supportedFormats by decide)
  obtain ⟨_, rd, -, hrd, -⟩ := reader_shape (show (1 : Int) ∈ supportedFormats by decide)
  obtain ⟨ps, ys, p1, -, p2⟩ := comes_all henc hrd hall.1.samples
  have hpl := encoded_length henc (show bytesPerSample 1 = some 4 from rfl) p1
  simp only at e hl
  rw [henc, ok_bind, hbo, storeSamples_exact p1 (by rw [hpl, hl, hall.2, hbps4]), ok_bind] at e
  have hlen1 : (w0.file.data.take 3200 ++ binHeaderBytes .be bh).length = 3600 := by
    rw [List.length_append, List.length_take, binHeaderBytes_length]
    omega
  obtain ⟨q, hfw⟩ := write2 (bs := hb) (cs := ps.flatten) hlen1.symm
  rw [hfw] at e
  obtain ⟨i1, s, -⟩ := step_full i0 e
  -- the other traces
  obtain ⟨w, cs, h1, h2, h3, h4, h5⟩ := writeAll_chunks (est := est) (rev := .r0) (b := b) (m := m') ts i1
    (fun _ => by
      simp only
      have := writeBlock_length (by rw [List.length_replicate]) hblk
      rw [hfp, List.length_append, hlen1, List.length_append, this]
      omega)
    (by simp only; rw [hmw, hmm]) (by simp) hm.safe
    (fun t ht => by
      obtain ⟨a1, a2⟩ := hts t (List.mem_cons_of_mem _ ht)
      refine ⟨a1.ints, a1.samples, ?_, a1.size⟩
      unfold Announced
      rw [if_pos (.inl rfl), a2]
      exact hmod.symm)
  simp only at h2 h3 h4
  have hcs : List.Forall₂ (Chunk est .be bh.formatCode b.fields) (t0 :: ts) ((hb ++ ps.flatten) :: cs) :=
    .cons ⟨hb, ps, hblk, ⟨enc, henc, p1⟩, rfl⟩ h2
  have hv : visible bh = bh := rfl
  have hspt : samplesPerTrace bh * ((4 : Nat) : Int) = ((n * 4 : Nat) : Int) := by
    unfold samplesPerTrace
    rw [if_neg (by simp [hbhd])]
    show ((toU 2 (n : Int) : Nat) : Int) * 4 = _
    rw [toU2_eq]
    push_cast
    omega
  have hfl : fixedLength (visible bh) = true := by
    rw [hv]
    rfl
  have hopen := open_written (bh := bh) (text := w0.file.data.take 3200) (exts := []) (trl := []) (m := m)
    (bo := .be) (bps := 4) (ed := (w0.file.data.take 3200 ++ binHeaderBytes .be bh ++
      ((hb ++ ps.flatten) :: cs).flatten).length) (((hb ++ ps.flatten) :: cs).flatten ++ [])
    (by
      rw [hbhd]
      unfold BinHeader.WF
      simp only
      refine ⟨?_, ?_, ?_, ?_, ?_, ⟨?_, ?_⟩, ?_, i16_range (by omega), ?_, ?_, ?_, ?_, ?_, ?_, ?_, ?_, ?_, ?_, ?_,
        ?_, ?_, ?_, ?_, ?_, ?_, ?_, ?_, ?_, ?_, ?_, ?_, ?_, ?_, ?_, ?_, ?_, ?_, ?_, ?_, ?_, ?_, ?_⟩
      case refine_6 => show -(2 : Int) ^ 15 ≤ si; omega
      case refine_7 => show si < (2 : Int) ^ 15; omega
      all_goals decide)
    (.inl rfl) rfl hm.accepted (by rw [List.length_take]; omega) (by simp) (show (1 : Int) ∈ supportedFormats by decide) rfl
    (.inl rfl) (.inl rfl)
    (by
      intro data hd
      rw [readTrailers_none rfl, hd]
      simp only [List.append_assoc, List.append_nil, List.flatten_nil, List.nil_append])
    (by rw [hspt]; omega) (by simp)
  rw [List.flatten_nil, List.nil_append, ← List.append_assoc] at hopen
  obtain ⟨backs, g1, g2⟩ := e2e_read (est := est) hmm hm.safe hm.names
    (fun t ht => ⟨(hts t ht).1.samples, (hts t ht).1.size⟩) hcs hopen rfl (by simp only; rw [hlen1]; rfl) rfl rfl
    (fun t ht => by
      unfold CountKnown
      simp only
      rw [if_pos hfl, hspt, (hts t ht).2]
      rfl) rfl rfl
  refine ⟨w, _, backs, ?_, ?_, rfl, rfl, g1, g2⟩
  · unfold writeAll at h1 ⊢
    rw [List.foldlM_cons]
    have e' : writeTraceRev0 est w0 t0 = _ := e
    rw [e', ok_bind]
    exact h1
  · have hdata : w.file.data = w0.file.data.take 3200 ++ binHeaderBytes .be bh ++
        (((hb ++ ps.flatten) :: cs).flatten ++ []) := by
      rw [h3, List.append_nil, List.flatten_cons, List.append_assoc]
    rw [hdata]
    exact hopen

/-- The sample 1 survives the IBM format when the logarithm estimate is right. -/
theorem exSurvivesIbm : Survives (.strict fun _ => 65) 1 .be d1 := by
  refine ⟨_, _, [0x41, 0x10, 0, 0], rfl, rfl, by decide +kernel, fun rest => ?_⟩
  simp only [readIbm, readU32_eq]
  rw [rd_map_nat, if_pos (by simp), List.take_left' (by rfl), List.drop_left' (by rfl)]
  have : ibmDecode (decNat .be [0x41, 0x10, 0, 0]) = d1 := by decide +kernel
  rw [this]

/-- Two traces with two samples, an interval of 2000.5 given as a double. -/
def exA : Trace := ⟨[("SAMP_NUM", .int 2), ("SAMP_INT", .dbl 0x409F420000000000)], [d1, d1]⟩

example : ∃ w0, openRev0 exText {} exWMap = .ok w0 ∧
    ∃ w r backs, writeAll (writeTraceRev0 (.strict fun _ => 65)) w0 [exA, exA] = .ok w ∧
      openReader w.file.data none exWMap = .ok r ∧ r.texts = [w0.file.data.take 3200] ∧
      r.bh = { formatCode := 1, sampPerTr := 2, sampInt := 2000 } ∧
      List.Forall₂ (TraceBack (.strict fun _ => 65) 1 .be exB.fields) [exA, exA] backs ∧ Visits r backs := by
  obtain ⟨w0, h⟩ : ∃ w0, openRev0 exText {} exWMap = .ok w0 := by
    have : (openRev0 exText {} exWMap).isOk = true := by decide +kernel
    cases h : openRev0 exText {} exWMap with
    | ok w => exact ⟨w, rfl⟩
    | error e => rw [h] at this; cases this
  refine ⟨w0, h, C28_roundtrip_partial _ exText exWMap exB w0 exA [exA] 2 (4001 / 2) 2000 h (exMapOk _ rfl) rfl (by decide)
    (.inr ⟨_, rfl, by decide +kernel⟩) (by norm_num) ⟨by norm_num, by norm_num⟩ (by decide) (by decide) ?_⟩
  intro t ht
  simp only [List.mem_cons, List.not_mem_nil, or_false, or_self] at ht
  subst ht
  refine ⟨⟨?_, ?_, by decide⟩, rfl⟩
  · intro f hf
    simp only [exB, List.mem_cons, List.not_mem_nil, or_false] at hf
    rcases hf with rfl | rfl
    · exact ⟨0, .inr ⟨by decide, rfl⟩, nofun⟩
    · exact ⟨2, .inl rfl, nofun⟩
  · intro x hx
    simp only [exA, List.mem_cons, List.not_mem_nil, or_false, or_self] at hx
    subst hx
    exact ⟨_, exSurvivesIbm⟩

/-- **C28 fails for a zero sample.** The automatic header chooses the IBM format, whose encoder has
undefined behaviour for 0. -/
theorem C28_zero_sample_undefined : (do
      let w ← openRev0 exText {} exWMap
      writeTraceRev0 (.strict fun _ => 65) w { exA with samples := [d1, 0] }) = isUb .floatToInt := by
  decide +kernel

end Sedaman.Props
