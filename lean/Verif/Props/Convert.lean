import Verif.Lemmas.Convert
import Verif.Lemmas.Open
import Verif.Props.Samples
import Verif.Props.E2E
import Verif.Props.ISEGY

/-!
# C79: converting a file to another sample format
-/

namespace Sedaman.Props

open Spec

private theorem unsigned_kept {a b : Int} {ka kb : IntKind} (ha : intFormat a = some ka) (hb : intFormat b = some kb)
    (hs : ka.signed = false) (hle : ka.size ≤ 4) (hfit : ∀ n : Int, ka.InRange n → kb.InRange n) :
    KeepsSamples a b := by
  intro est boA boB bs x h
  obtain ⟨n, h1, rfl⟩ := sampleOf_int ha h
  have h2 := h1
  unfold IntKind.InRange at h2
  rw [hs] at h2
  simp only [Bool.false_eq_true, if_false] at h2
  have h3 : (2 : Int) ^ (8 * ka.size) ≤ 2 ^ 32 := by
    have : (2 : Nat) ^ (8 * ka.size) ≤ 2 ^ 32 := Nat.pow_le_pow_right (by decide) (by omega)
    exact_mod_cast this
  have h4 : n.natAbs ≤ 2 ^ 53 := by norm_num at h3 ⊢; omega
  refine C10_integer_samples_partial est b kb hb boB _ n (dblRat_ofInt h4) ?_ h2.1 (hfit n h1)
  intro hz
  have h5 := is_ofInt (n := n) (by norm_num at h3 ⊢; omega)
  rw [hz] at h5
  obtain ⟨m, e, h6, _⟩ := h5
  have h7 : Dbl.val 0x8000000000000000 = .fin true 0 (-1074) := by decide +kernel
  rw [h7] at h6
  injection h6 with h8
  have := of_decide_eq_true h8.symm
  omega

private theorem small_single {a : Int} {k : IntKind} (ha : intFormat a = some k)
    (hfit : ∀ n : Int, k.InRange n → n.natAbs < 2 ^ 24) : KeepsSamples a 5 := by
  intro est boA boB bs x h
  obtain ⟨n, h1, rfl⟩ := sampleOf_int ha h
  exact survives_single (single_int (hfit n h1)) est boB

private theorem single_kept : KeepsSamples 5 5 := by
  intro est boA boB bs x h
  obtain ⟨r, h1, h2⟩ := h
  cases h1
  have h3 := h2 []
  change (do pure (sglToDbl (BitVec.ofNat 32 (← readU32 boA))) : Rd Dbl) (bs ++ []) = _ at h3
  rw [rd_bind] at h3
  obtain ⟨⟨w, rest⟩, h4, h5⟩ := bind_ok h3
  cases h5
  exact survives_single (single_single _) est boB

/-- **C79.** Every sample of a format is kept by the formats of the table: it is written without error
in any of them and comes back as the same number, bit for bit, whatever the byte orders of the two
files. -/
theorem C79_kept_partial (a b : Int) (h : b ∈ keptBy a) : KeepsSamples a b := by
  have h6 : b = 6 → KeepsSamples a b := by
    rintro rfl
    exact fun est _ boB _ x _ => survives_double est boB x
  by_cases hb : b = 6
  · exact h6 hb
  · unfold keptBy at h
    split at h <;> simp only [List.mem_cons, List.not_mem_nil, or_false, hb] at h
    · rcases h with h | h | h | h | h | h | h | h | h | h <;> subst h <;> first
        | exact unsigned_kept (ka := .u8) (by rfl) (by rfl) rfl (by decide) (by
            intro n; simp only [IntKind.InRange, IntKind.size, IntKind.signed]; norm_num <;> omega)
        | exact small_single (a := _) (k := .u8) (by rfl) (by
            intro n; simp only [IntKind.InRange, IntKind.size, IntKind.signed]; norm_num <;> omega)
    · rcases h with h | h | h | h | h | h | h | h <;> subst h <;> first
        | exact unsigned_kept (ka := .u16) (by rfl) (by rfl) rfl (by decide) (by
            intro n; simp only [IntKind.InRange, IntKind.size, IntKind.signed]; norm_num <;> omega)
        | exact small_single (a := _) (k := .u16) (by rfl) (by
            intro n; simp only [IntKind.InRange, IntKind.size, IntKind.signed]; norm_num <;> omega)
    · rcases h with h | h | h | h | h | h <;> subst h <;> first
        | exact unsigned_kept (ka := .u24) (by rfl) (by rfl) rfl (by decide) (by
            intro n; simp only [IntKind.InRange, IntKind.size, IntKind.signed]; norm_num <;> omega)
        | exact small_single (a := _) (k := .u24) (by rfl) (by
            intro n; simp only [IntKind.InRange, IntKind.size, IntKind.signed]; norm_num <;> omega)
    · rcases h with h | h | h <;> subst h <;>
        exact unsigned_kept (ka := .u32) (by rfl) (by rfl) rfl (by decide) (by
            intro n; simp only [IntKind.InRange, IntKind.size, IntKind.signed]; norm_num <;> omega)
    · subst h
      exact small_single (k := .i8) rfl (by
            intro n; simp only [IntKind.InRange, IntKind.size, IntKind.signed]; norm_num <;> omega)
    · subst h
      exact small_single (k := .i16) rfl (by
            intro n; simp only [IntKind.InRange, IntKind.size, IntKind.signed]; norm_num <;> omega)
    · subst h
      exact small_single (k := .i24) rfl (by
            intro n; simp only [IntKind.InRange, IntKind.size, IntKind.signed]; norm_num <;> omega)
    · subst h
      exact single_kept

/-- The table is not empty for any supported format; -8388608 is a sample in format 7. -/
example : (∀ a ∈ supportedFormats, keptBy a ≠ []) ∧ SampleOf 7 .be [0x80, 0, 0] 0xC160000000000000 ∧
    5 ∈ keptBy 7 := by
  refine ⟨by decide, sampleOf_value (by decide) (by decide +kernel), by decide⟩

/-- A sample of format `a`, most significant byte first, that format `b` does not keep. -/
def lostSample (a b : Int) : Bytes :=
  if b = 1 then List.replicate ((bytesPerSample a).getD 0) 0
  else match a with
    | 1 => if b = 5 then [0x7f, 0x10, 0, 0] else [0xc1, 0x10, 0, 0]
    | 2 => if b = 5 then [0x7f, 0xff, 0xff, 0xff] else [0xff, 0xff, 0xff, 0xff]
    | 5 => [0xbf, 0x80, 0, 0]
    | 6 => if b = 5 then [0x3f, 0xb9, 0x99, 0x99, 0x99, 0x99, 0x99, 0x9a] else [0xbf, 0xf0, 0, 0, 0, 0, 0, 0]
    | 9 | 12 => if b = 5 then [0, 0, 0, 0, 1, 0, 0, 1] else List.replicate 8 0xff
    | _ => List.replicate ((bytesPerSample a).getD 0) 0xff

/-- Bytes in the given order. -/
def inOrder : ByteOrder → Bytes → Bytes
  | .be, bs => bs
  | .le, bs => bs.reverse

/-- The sample above is one, and is not kept. -/
private def lostCheck (a b : Int) (boA boB : ByteOrder) : Bool :=
  match valueOf a boA (inOrder boA (lostSample a b)) with
  | some x => decide (backIn (.strict fun _ => 0) b boB x ≠ .ok x) && (b != 1 || x == 0)
  | none => false

private theorem lost_table : ∀ a ∈ supportedFormats, ∀ b ∈ supportedFormats, b ∉ keptBy a →
    ∀ boA ∈ [ByteOrder.le, .be], ∀ boB ∈ [ByteOrder.le, .be],
      lostCheck a b boA boB = true := by
  decide +kernel

/-- **C79.** All other pairs of formats lose a sample: there are bytes of a sample in the old format
for which writing in the new format is undefined or another number comes back. -/
theorem C79_lost (a b : Int) (ha : a ∈ supportedFormats) (hb : b ∈ supportedFormats) (h : b ∉ keptBy a) :
    LosesSample a b := by
  intro boA boB
  have ht := lost_table a ha b hb h boA (by cases boA <;> simp) boB (by cases boB <;> simp)
  unfold lostCheck at ht
  split at ht
  · rename_i x hx
    rw [Bool.and_eq_true, decide_eq_true_eq] at ht
    refine ⟨_, x, sampleOf_value ha hx, fun est hst hs => ?_⟩
    by_cases h1 : b = 1
    · subst h1
      obtain ⟨w, r, bs, hw, -, h3, -⟩ := hs
      obtain ⟨w', hw', hu⟩ := C12_zero_undefined est hst boB x (by
        have hx0 : x = 0 := by simpa using ht.2
        rw [hx0]
        have : Dbl.val 0 = .fin false 0 (-1074) := by decide +kernel
        unfold dblRat
        rw [this]
        simp [ratOf])
      rw [hw] at hw'
      cases hw'
      rw [hu] at h3
      cases h3
    · have := backIn_of hs
      rw [backIn_est h1 hst (LogEst.strict_strict fun _ => 0)] at this
      exact ht.1 this
  · cases ht

/-- **C79.** The table decides which conversions keep all samples. -/
theorem C79_table (a b : Int) (ha : a ∈ supportedFormats) (hb : b ∈ supportedFormats) :
    KeepsSamples a b ↔ b ∈ keptBy a := by
  refine ⟨fun hk => ?_, C79_kept_partial a b⟩
  by_contra hc
  obtain ⟨bs, x, h1, h2⟩ := C79_lost a b ha hb hc .be .be
  exact h2 _ (LogEst.strict_strict fun _ => 0) (hk _ _ _ _ _ h1)

/-- 16 bit integers are kept by singles, but neither by themselves nor by 32 bit integers. -/
example : KeepsSamples 3 5 ∧ ¬ KeepsSamples 3 3 ∧ ¬ KeepsSamples 3 2 ∧ ¬ KeepsSamples 1 1 := by
  refine ⟨?_, ?_, ?_, ?_⟩ <;> rw [C79_table _ _ (by decide) (by decide)] <;> decide

/-- **C79 fails for signed integers.** A negative sample of an integer format cannot be written in any
integer format, however wide: the conversion is undefined. -/
theorem C79_negative_undefined (est : LogEst) (hst : est.Strict) (a b : Int) (ka kb : IntKind) (ha : intFormat a = some ka)
    (hb : intFormat b = some kb) (boA boB : ByteOrder) (n : Int) (hr : ka.InRange n) (hn : n < 0) :
    ∃ x w, SampleOf a boA (encInt boA ka.size n) x ∧ sampleWriter est b = .ok w ∧
      w boB x = isUb .floatToInt := by
  have hx : SampleOf a boA (encInt boA ka.size n) (dblOfInt n) := by
    refine ⟨_, sampleReader_int ha, fun rest => ?_⟩
    rw [rd_bind, ← kind_write_eq, C04_roundtrip boA ka n hr rest]
    rfl
  refine ⟨_, _, hx, sampleWriter_int est hb, ?_⟩
  have hs : n.natAbs ≤ 2 ^ 64 := by
    unfold IntKind.InRange at hr
    cases ka <;> simp only [IntKind.signed, IntKind.size] at hr <;> norm_num at hr ⊢ <;> omega
  obtain ⟨x, h1, h2⟩ := dblOfInt_neg hn hs
  simp only [LogEst.toU_ub hst (dblToU_neg h1 h2)]
  rfl

example : intFormat 3 = some .i16 ∧ intFormat 2 = some .i32 ∧ IntKind.i16.InRange (-5) := by decide

/-- **C79.** A sample of format 9 above 2^62 comes back from format 9 negative: 2^63 - 1 is read as
2^63, written as such, and read as -2^63. -/
theorem C79_long_wraps (est : LogEst) (bo : ByteOrder) :
    SampleOf 9 .be [0x7f, 0xff, 0xff, 0xff, 0xff, 0xff, 0xff, 0xff] 0x43E0000000000000 ∧
    ComesBack est 9 bo 0x43E0000000000000 0xC3E0000000000000 := by
  refine ⟨sampleOf_value (by decide) (by decide +kernel), ?_⟩
  refine ⟨_, _, writeI64 bo (2 ^ 63), rfl, rfl, ?_, fun rest => ?_⟩
  · have : dblToU 8 0x43E0000000000000 = .ok (2 ^ 63) := by decide +kernel
    simp only [LogEst.toU_ok this]
    rfl
  · rw [rd_bind, writeI64_eq, readI64_eq, rdInt_encInt]
    have : dblOfInt (toS 8 (toU 8 (2 ^ 63))) = 0xC3E0000000000000 := by decide +kernel
    rw [ok_bind]
    simp only [rd_pure]
    rw [this]

/-- **C79.** Format 5 keeps the samples of format 1 with an exponent field from 33 to 96, in
particular all samples of magnitude from 16^-32 to less than 16^32. -/
theorem C79_ibm_single (est : LogEst) (bo boB : ByteOrder) (bs : Bytes) (hb : bs.length = 4)
    (h1 : 33 ≤ decNat bo bs / 2 ^ 24 % 128) (h2 : decNat bo bs / 2 ^ 24 % 128 ≤ 96) :
    ∃ x, SampleOf 1 bo bs x ∧ dblRat x = some (ibmValue (decNat bo bs)) ∧ Survives est 5 boB x := by
  have hlt : decNat bo bs < 2 ^ 32 := by
    have := decNat_lt bo bs
    rw [hb] at this
    exact this
  have hx : SampleOf 1 bo bs (ibmDecode (decNat bo bs)) := by
    refine ⟨_, rfl, fun rest => ?_⟩
    simp only [readIbm, readU32_eq]
    rw [rd_map_nat, if_pos (by simp; omega), List.take_left' hb, List.drop_left' hb]
  refine ⟨_, hx, ?_, survives_single (single_is (ibmDecode_is hlt) (Nat.mod_lt _ (by decide)) (by omega)
    (by omega)) est boB⟩
  obtain ⟨r, d, h3, h4, h5⟩ := C12_decode_value bo bs [] hb
  obtain ⟨r', h6, h7⟩ := hx
  rw [h3] at h6
  cases h6
  rw [h7] at h4
  rw [(Prod.mk.inj (Except.ok.inj h4)).1]
  exact h5

/-- -118.625 -/
example := C79_ibm_single (.strict fun _ => 0) .be .le [0xc2, 0x76, 0xa0, 0] rfl (by decide +kernel) (by decide +kernel)

/-! ## Files -/

/-- **C79.** The samples of every trace read from a file are kept by the formats of the table, whatever
happened to the reader before. -/
theorem C79_traces (data : Bytes) (ub : Option BinHeader) (m : HdrMap) (r r' : Reader) (t : Trace)
    (hr : Reachable data ub m r) (ht : readTrace r = .ok (t, r')) (b : Int) (hb : b ∈ keptBy r.bh.formatCode)
    (est : LogEst) (bo : ByteOrder) : ∀ x ∈ t.samples, Survives est b bo x := by
  obtain ⟨h0, n, buf, rd, rest, _, _, _, h4, h5, _⟩ := readTrace_ok ht
  intro x hx
  obtain ⟨bs, hs⟩ := decodeSamples_of (inv_reachable hr).fmt h4 h5 x hx
  exact C79_kept_partial _ b hb est r.bo bo bs x hs

private theorem visits_kept {data : Bytes} {ub : Option BinHeader} {m : HdrMap} {ts : List Trace} {r : Reader}
    (hr : Reachable data ub m r) (hv : Visits r ts) (b : Int) (hb : b ∈ keptBy r.bh.formatCode)
    (est : LogEst) (bo : ByteOrder) : ∀ t ∈ ts, ∀ x ∈ t.samples, Survives est b bo x := by
  induction ts generalizing r with
  | nil => simp
  | cons t ts ih =>
    obtain ⟨_, ⟨r', h1, h2⟩, _⟩ := hv
    have hbh : r'.bh = r.bh := by
      obtain ⟨_, _, _, _, _, _, _, _, _, _, h⟩ := readTrace_ok h1
      rw [h]
    intro s hs
    rcases List.mem_cons.mp hs with rfl | hs
    · exact C79_traces data ub m r r' _ hr h1 b hb est bo
    · exact ih (.trace hr h1) h2 (by rw [hbh]; exact hb) s hs

/-- **C79.** A file that is read to its end and written again as a revision 0 file with another sample
format of the table has the same samples, trace by trace. The conditions are those of C20 on the new
binary header and on the header values. -/
theorem C79_rewritten (est : LogEst) (data : Bytes) (ub : Option BinHeader) (mr : HdrMap) (r0 : Reader)
    (ts : List Trace) (hopen : openReader data ub mr = .ok r0) (hall : Visits r0 ts)
    (text : Bytes) (bh : BinHeader) (m : HdrMap) (b : HBlock)
    (hkeep : bh.formatCode ∈ keptBy r0.bh.formatCode)
    (ht : text.length = 3200) (hbh : HeaderOk bh) (hm : MapOk bh m b)
    (hrev : bh.revMajor = 0) (hexts : bh.extTextHeadersNum = 0) (hext : bh.extSampPerTr = 0)
    (hexplicit : bh ≠ { formatCode := 1 })
    (hts : ∀ t ∈ ts, (∀ f ∈ b.fields, ∃ v, headerInt t.header f.name v ∧
        FieldStorable est (orderOfMarker bh.endianness) f.ty v) ∧
      (t.samples.length : Int) = bh.sampPerTr % 65536) :
    ∃ w0 w r backs, openRev0 text bh m = .ok w0 ∧ writeAll (writeTraceRev0 est) w0 ts = .ok w ∧
      openReader w.file.data none m = .ok r ∧ Visits r backs ∧
      backs.map (·.samples) = ts.map (·.samples) := by
  have hk := visits_kept (.opened hopen) hall bh.formatCode hkeep est (orderOfMarker bh.endianness)
  obtain ⟨w0, w, r, backs, h1, h2, h3, _, _, h6, h7⟩ := C20_roundtrip_partial est text bh m b ts ht hbh hm hrev
    hexts hext hexplicit (fun t ht' => by
      obtain ⟨a1, a2⟩ := hts t ht'
      exact ⟨⟨a1, fun x hx => ⟨x, hk t ht' x hx⟩, by omega⟩, a2⟩)
  exact ⟨w0, w, r, backs, h1, h2, h3, h7, C20_exact est _ _ _ _ _ h6 hk⟩

/-- The trace of the example: 5 and -2 as 16 bit integers. -/
def exNeg : Trace := ⟨[("FFID", .int 7), ("SAMP_NUM", .int 2)], [0x4014000000000000, 0xC000000000000000]⟩

/-- A file of 16 bit integers, one of them negative, rewritten with singles in little endian order. -/
example : ∃ r0 w0 w r backs, openReader (exFile exRev0 (exBlock 7 2 ++ [0, 5, 0xff, 0xfe])) none exMap = .ok r0 ∧
    openRev0 exText { formatCode := 5, sampPerTr := 2, endianness := 0x01020304 } exWMap = .ok w0 ∧
    writeAll (writeTraceRev0 (.strict fun _ => 0)) w0 [exNeg] = .ok w ∧
    openReader w.file.data none exWMap = .ok r ∧ Visits r backs ∧
    backs.map (·.samples) = [[0x4014000000000000, 0xC000000000000000]] := by
  have h : (do
      let r ← openReader (exFile exRev0 (exBlock 7 2 ++ [0, 5, 0xff, 0xfe])) none exMap
      let (t, r1) ← readTrace r
      let (h, r2) ← readHeader r
      pure (decide (r.bh.formatCode = 3 ∧ hasTrace r = true ∧ hasTrace r1 = false ∧ hasTrace r2 = false), t, h)) =
      .ok (true, exNeg, exNeg.header) := by decide +kernel
  obtain ⟨r0, h0, h⟩ := bind_ok h
  obtain ⟨⟨t, r1⟩, h1, h⟩ := bind_ok h
  obtain ⟨⟨hd, r2⟩, h2, h⟩ := bind_ok h
  have h' := Except.ok.inj h
  simp only [Prod.mk.injEq, decide_eq_true_eq] at h'
  obtain ⟨⟨e1, e2, e4, e6⟩, e3, e5⟩ := h'
  subst e3
  subst e5
  obtain ⟨w0, w, r, backs, g1, g2, g3, g4, g5⟩ := C79_rewritten (.strict fun _ => 0) _ none exMap r0 [exNeg] h0
    ⟨e2, ⟨r1, h1, e4⟩, ⟨r2, h2, e6⟩⟩ exText
    { formatCode := 5, sampPerTr := 2, endianness := 0x01020304 } exWMap exB (by rw [e1]; decide)
    (by decide +kernel) ⟨by decide, .inr rfl, by decide⟩ (exMapOk _ rfl) rfl rfl rfl (by decide)
    (fun t ht => by
      simp only [List.mem_cons, List.not_mem_nil, or_false] at ht
      subst ht
      refine ⟨fun f hf => ?_, rfl⟩
      simp only [exB, List.mem_cons, List.not_mem_nil, or_false] at hf
      rcases hf with rfl | rfl
      · exact ⟨7, .inl rfl, nofun⟩
      · exact ⟨2, .inl rfl, nofun⟩)
  exact ⟨r0, w0, w, r, backs, h0, g1, g2, g3, g4, g5⟩

end Sedaman.Props
