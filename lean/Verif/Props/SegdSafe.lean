import Verif.Lemmas.SegdSafe
import Verif.Props.SegdReader

/-!
# C70: SEG-D files from elsewhere
-/

namespace Sedaman.Props

open Spec

/-- **C70 (part).** Whatever the bytes of the file are, opening it returns or throws, provided the
general headers contain no sensor block of revision 3. -/
theorem C70_open_partial (data : Bytes) (m : ExtMap) (h : NoSensorBlock data 0) :
    Defined (openSegd data m) := defined_readHeaders _ h

/-- **C70 (part).** Reading a trace, in whatever state the reader is and whatever bytes follow, returns
or throws, provided

* the extension map stays inside its blocks, and there is one for each announced extension, or none at
  all;
* the samples have a plain format, and their bits can be counted in 32 bits;
* the trace header names a channel set of the record;
* if it is the last trace of the record, the next record contains no sensor block. -/
theorem C70_read_partial (pw : Dbl → Dbl) (s : ISegd) (bits : Nat)
    (hm : ExtMapSafe s.extMap)
    (hx : s.extMap = [] ∨ ∀ b, s.file.data[s.file.pos + 9]? = some b → b.toNat ≤ s.extMap.length)
    (hf : (s.gh1.formatCode, bits) ∈ plainFormats)
    (hh : ∀ h s', nextHeader s = .ok (h, s') → ∃ i j c, Refers s h i j c ∧
      ∀ n, sampNumD c h = .ok n → n * bits < 2 ^ 32)
    (hn : s.chansIn = s.chansRead + 1 → ∀ t p, readTraceBody pw s = .ok (t, s.at p) → NoSensorBlock s.file.data p) :
    Defined (readTraceD pw s) := by
  unfold readTraceD
  have hbody : Defined (readTraceBody pw s) := by
    unfold readTraceBody
    unfold nextHeader at hh
    refine (defined_fill s 20).bind fun p hp => ?_
    rw [hp] at hh
    obtain ⟨b, s1⟩ := p
    obtain ⟨hb, hl, rfl⟩ := fill_ok hp
    obtain ⟨h, r, e, hg⟩ := readTraceHdrD_uses hl
    simp only [ok_bind] at hh ⊢
    rw [e, ok_bind] at hh
    rw [e, ok_bind]
    simp only at hh ⊢
    refine (defined_onRest _ _ ?_).bind fun p hp => ?_
    · unfold readExt
      have hi : intOf h "TR_HDR_EXT" = .ok (((b[9]?).getD 0).toNat : Int) := by
        unfold intOf; rw [hg]
      rw [hi, ok_bind, Int.toNat_natCast]
      refine defined_readExtLoop _ hm _ _ _ _ (hx.imp_right fun hx => ?_)
      have hb9 : b[9]? = s.file.data[s.file.pos + 9]? := by
        rw [hb, List.getElem?_take, if_pos (by decide), List.getElem?_drop]
      cases h9 : s.file.data[s.file.pos + 9]? with
      | none =>
        rw [h9] at hb9
        rw [List.getElem?_eq_none_iff] at hb9
        omega
      | some x =>
        rw [hb9, h9]
        exact hx x h9
    · obtain ⟨h', s2⟩ := p
      obtain ⟨i, j, c, hr, hc⟩ := hh h' s2 hp
      have hs2 : s2.chSets = s.chSets ∧ s2.gh1 = s.gh1 := by
        unfold ISegd.onRest at hp
        obtain ⟨q, -, hp⟩ := bind_ok hp
        cases hp
        exact ⟨rfl, rfl⟩
      have hr2 : Refers s2 h' i j c := by
        obtain ⟨a1, a2, a3, a4, a5⟩ := hr
        exact ⟨a1, a2, a3, a4, by rw [hs2.1]; exact a5⟩
      simp only
      rw [chSetOf_refers hr2, ok_bind]
      simp only
      refine (defined_sampNumD _ _).bind fun n hn' => ?_
      refine (defined_onRest _ _ ?_).bind fun _ _ => defined_ok _
      rw [hs2.2]
      exact defined_readSamplesD hf _ (hc n hn') _
  refine hbody.bind fun p hp => Defined.bind ?_ fun _ _ => defined_ok _
  obtain ⟨t, s'⟩ := p
  obtain ⟨q, rfl, -⟩ := readTraceBody_ok hp
  unfold ISegd.advance
  simp only
  refine .ite (fun hlast => ?_) fun _ => defined_ok _
  exact .ite (fun _ => defined_readHeaders _ (hn hlast t q hp)) fun _ => defined_ok _

/-- **C70.** However many traces the headers announce, no more than one for every 20 bytes of the file
can be read; the next call throws. -/
theorem C70_reads_bounded (pw : Dbl → Dbl) (n : Nat) (s s' : ISegd) (ts : List Trace)
    (h : Spec.readManyD pw n s = .ok (ts, s')) (h0 : s.file.pos ≤ s.file.data.length) :
    s.file.pos + 20 * n ≤ s.file.data.length := by
  suffices ∀ (n : Nat) (s s' : ISegd) (ts : List Trace), Spec.readManyD pw n s = .ok (ts, s') →
      n = 0 ∨ s.file.pos + 20 * n ≤ s.file.data.length by
    rcases this n s s' ts h with rfl | h
    · exact h0
    · exact h
  intro n
  induction n with
  | zero => intro s s' ts _; exact .inl rfl
  | succ n ih =>
    intro s s' ts h
    right
    obtain ⟨⟨t, s1⟩, h1, k⟩ := bind_ok h
    obtain ⟨⟨ts', s2⟩, h2, -⟩ := bind_ok k
    have hfit : s.file.pos + 20 ≤ s.file.data.length := by
      obtain ⟨p, hb, -⟩ := readTraceD_cases h1
      obtain ⟨⟨b, s3⟩, h3, -⟩ := bind_ok hb
      obtain ⟨h4, h5, -⟩ := fill_ok h3
      rw [h4] at h5
      simp at h5
      omega
    have hpos : s1.file.data = s.file.data ∧ s.file.pos + 20 ≤ s1.file.pos := by
      obtain ⟨p, -, hp, ⟨-, rfl⟩ | ⟨-, -, rfl⟩ | ⟨-, -, h⟩⟩ := readTraceD_cases h1
      · exact ⟨rfl, hp⟩
      · exact ⟨rfl, hp⟩
      · obtain ⟨a, -, -, q, -⟩ := readHeaders_ok h
        exact ⟨a, by simp only [ISegd.at] at q; omega⟩
    rcases ih s1 s2 ts' h2 with rfl | h
    · omega
    · rw [hpos.1] at h; omega

/-! ## What a file can do -/

/-- The example file with one byte changed, opened. -/
def segdPoked (i : Nat) (b : Byte) (m : ExtMap) : Out ISegd :=
  segdFileExample >>= fun d => openSegd (d.set i b) m

/-- A revision 3 file whose only additional block is a sensor block. -/
def sensorFile : Bytes :=
  [0x00, 0x01, 0x80, 0x58, 0, 0, 0, 0, 0, 0, 0x20, 0x30] ++ List.replicate 20 0 ++
  List.replicate 10 0 ++ [3] ++ List.replicate 21 0 ++ List.replicate 32 0 ++
  List.replicate 31 0 ++ [0x41]

/-- **C70 (counterexample).** A sensor block of revision 3 makes the constructor read past its
buffer. -/
theorem C70_sensor_undefined : openSegd sensorFile [] = isUb .outOfBounds := by decide +kernel

/-- **C70 (counterexample).** A trace whose header names a scan type the record does not have, such as
0, is undefined behaviour. -/
theorem C70_scan_type_undefined (pw : Dbl → Dbl) (s s' : ISegd) (h : Header) (i : Int)
    (hh : nextHeader s = .ok (h, s')) (hi : (Header.at h "SCAN_TYPE_NUM").1 = .int i)
    (hout : i < 1 ∨ (s.chSets.length : Int) < i) : readTraceD pw s = isUb .outOfBounds := by
  unfold nextHeader at hh
  obtain ⟨⟨b, s1⟩, h1, hh⟩ := bind_ok hh
  obtain ⟨⟨hd, r⟩, h2, hh⟩ := bind_ok hh
  have hs : s'.chSets = s.chSets := by
    obtain ⟨-, -, rfl⟩ := fill_ok h1
    obtain ⟨q, -, e⟩ := bind_ok hh
    cases e
    rfl
  have hx : s'.chSetOf h = isUb .outOfBounds := by
    unfold ISegd.chSetOf
    rw [hi, hs]
    have : subscript s.chSets (.int i) = isUb .outOfBounds := by
      unfold subscript
      simp only
      split
      · rfl
      · rw [List.getElem?_eq_none (by omega)]
    rw [this]
    rfl
  unfold readTraceD readTraceBody
  rw [h1, ok_bind]
  simp only
  rw [h2, ok_bind]
  simp only at hh ⊢
  rw [hh, ok_bind]
  simp only
  rw [hx]
  rfl

/-- The example file with scan type 0 in its first trace. -/
example : (segdPoked 258 0 [] >>= readTraceD hostExample.pw).map (·.1) = isUb .outOfBounds := by
  decide +kernel

/-- **C70 (counterexample).** The same for a channel set number the scan type does not have. -/
theorem C70_channel_set_undefined (pw : Dbl → Dbl) (s s' : ISegd) (h : Header) (i j : Int)
    (sets : List ChSet) (hh : nextHeader s = .ok (h, s'))
    (hi : (Header.at h "SCAN_TYPE_NUM").1 = .int i) (h1 : 1 ≤ i)
    (hsets : s.chSets[(i - 1).toNat]? = some sets) (hj : (Header.at h "CH_SET_NUM").1 = .int j)
    (hout : j < 1 ∨ (sets.length : Int) < j) : readTraceD pw s = isUb .outOfBounds := by
  unfold nextHeader at hh
  obtain ⟨⟨b, s1⟩, hb, hh⟩ := bind_ok hh
  obtain ⟨⟨hd, r⟩, h2, hh⟩ := bind_ok hh
  have hs : s'.chSets = s.chSets := by
    obtain ⟨-, -, rfl⟩ := fill_ok hb
    obtain ⟨q, -, e⟩ := bind_ok hh
    cases e
    rfl
  have hx : s'.chSetOf h = isUb .outOfBounds := by
    unfold ISegd.chSetOf
    rw [hs, defined_subscript hi h1 hsets, ok_bind]
    simp only [at_set hi h1]
    rw [hj]
    have : subscript sets (.int j) = isUb .outOfBounds := by
      unfold subscript
      simp only
      split
      · rfl
      · rw [List.getElem?_eq_none (by omega)]
    rw [this]
    rfl
  unfold readTraceD readTraceBody
  rw [hb, ok_bind]
  simp only
  rw [h2, ok_bind]
  simp only at hh ⊢
  rw [hh, ok_bind]
  simp only
  rw [hx]
  rfl

/-- The example file with channel set 2 in its first trace. -/
example : (segdPoked 259 2 [] >>= readTraceD hostExample.pw).map (·.1) = isUb .outOfBounds := by
  decide +kernel

/-- **C70 (counterexample).** Format 8044 in the general header, the rest of the example file as it is:
the first sample is read through a wild pointer. -/
theorem C70_packed_undefined :
    (segdPoked 3 0x44 [] >>= readTraceD hostExample.pw).map (·.1) = isUb .outOfBounds := by decide +kernel

/-- **C70 (counterexample).** Two extension blocks announced in the trace, one in the map. -/
theorem C70_extension_undefined :
    (segdPoked 265 2 [[⟨0, "LINE", .u24⟩]] >>= readTraceD hostExample.pw).map (·.1) = isUb .outOfBounds := by
  decide +kernel

/-- **C70 (counterexample).** A map inside its block with five unsigned 64-bit fields is read past the
end of the block. -/
theorem C70_five_u64_undefined :
    (segdPoked 0 0x12 [[⟨0, "A", .u64⟩, ⟨0, "B", .u64⟩, ⟨0, "C", .u64⟩, ⟨0, "D", .u64⟩, ⟨0, "E", .u64⟩]]
      >>= readTraceD hostExample.pw).map (·.1) = isUb .outOfBounds := by
  decide +kernel

/-- **C70 (counterexample).** 2^27 samples of 32 bits: the buffer has no bytes, and the first sample is
read past its end. -/
theorem C70_sample_bits_undefined (descale : Dbl) (s : Bytes) (fmt : Int)
    (hf : fmt ∈ [8038, 8058, 9038, 9058]) :
    readSamplesD fmt descale (2 ^ 27) s = isUb .outOfBounds := by
  have main : ∀ r : Rd Dbl, segdReader fmt = .ok (32, r) → r [] = isUb .outOfBounds →
      readSamplesD fmt descale (2 ^ 27) s = isUb .outOfBounds := by
    intro r hr h0
    have key : ∀ m, rdSamples r descale (m + 1) [] = isUb .outOfBounds := by
      intro m
      unfold rdSamples
      rw [rd_bind, h0]
      rfl
    unfold readSamplesD
    rw [hr, ok_bind]
    simp only
    rw [show 2 ^ 27 * 32 % 2 ^ 32 / 8 = 0 by decide, if_pos (Nat.zero_le _), ok_bind]
    simp only [List.take_zero]
    rw [show (2 ^ 27 : Nat) = (2 ^ 27 - 1) + 1 by decide, key]
    rfl
  simp only [List.mem_cons, List.not_mem_nil, or_false] at hf
  rcases hf with rfl | rfl | rfl | rfl <;> exact main _ rfl rfl

/-! ## A concrete case -/

/-- The example file, opened. -/
def segdOpened : ISegd :=
  match segdPoked 0 0 [] with
  | .ok s => s
  | .error _ => .init [] []

/-- The conditions of `C70_read_partial` hold for it. -/
example : Defined (readTraceD hostExample.pw segdOpened) := by
  have e1 : segdOpened.extMap = [] := by decide +kernel
  refine C70_read_partial _ _ 32 (by rw [e1]; intro fs h; cases h) (.inl e1) (by decide +kernel) ?_ ?_
  · intro h s' e
    have hv : (nextHeader segdOpened).map (fun p => ((Header.at p.1 "SCAN_TYPE_NUM").1,
        (Header.at p.1 "CH_SET_NUM").1, p.1.get "SAMP_NUM")) = .ok (.int 1, .int 1, some (.int 2)) := by
      decide +kernel
    rw [e] at hv
    simp only [Except.map, Except.ok.injEq, Prod.mk.injEq] at hv
    obtain ⟨a, b, c⟩ := hv
    cases hc : segdOpened.chSets with
    | nil => exact absurd hc (by decide +kernel)
    | cons sets t =>
      cases hs : sets with
      | nil =>
        subst hs
        have : (segdOpened.chSets.head?.map List.length) = some 1 := by decide +kernel
        rw [hc] at this
        cases this
      | cons cs t' =>
        refine ⟨1, 1, cs, ⟨a, b, by decide, by decide, sets, by rw [hc]; rfl, by rw [hs]; rfl⟩, ?_⟩
        intro n hn
        unfold sampNumD at hn
        rw [c] at hn
        simp only [Except.ok.injEq] at hn
        subst hn
        decide
  · intro h
    exact absurd h (by decide +kernel)

/-- The example file and the file with a sensor block. -/
example : (segdFileExample.map fun d => ((d[42]?).getD 0).toNat) = .ok 2 ∧
    blocksBehind3 sensorFile 0 = 1 := by decide +kernel

end Sedaman.Props
