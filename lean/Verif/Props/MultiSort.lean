import Verif.Lemmas.MultiSort
import Verif.Props.SortFile

/-!
# C111: sorting by several headers
-/

namespace Sedaman.Props
open Sedaman Sedaman.Spec

/-- What one pass does. -/
private def PassOk (est : LogEst) (rev : Rev) (m : HdrMap) (F : List Bytes → Bytes) (name : String) (cs : List Bytes) :
    Prop :=
  ∃ (r : Reader) (ts us : List Trace) (cs' : List Bytes) (r' : Reader), openReader (F cs) none m = .ok r ∧
    Visits r ts ∧ SortPass est rev m name (F cs) (F cs') ∧ StableSort Trace.header name ts us ∧ cs'.Perm cs ∧
    openReader (F cs') none m = .ok r' ∧ r'.texts = r.texts ∧ r'.bh = r.bh ∧ Visits r' us ∧
    ∀ t ∈ ts, ∃ v, t.header.get name = some v ∧ Ordered v

/-- What all passes do. -/
private theorem passes {est : LogEst} {rev : Rev} {m : HdrMap} {F : List Bytes → Bytes} {cs : List Bytes}
    (n : String) (names : List String)
    (h : ∀ name ∈ n :: names, ∀ ds : List Bytes, ds.Perm cs → PassOk est rev m F name ds) :
    ∃ (r : Reader) (ts us : List Trace) (cs' : List Bytes) (r' : Reader), openReader (F cs) none m = .ok r ∧
      Visits r ts ∧ SortPasses est rev m (n :: names) (F cs) (F cs') ∧ LexSort Trace.header (n :: names) ts us ∧
      cs'.Perm cs ∧ openReader (F cs') none m = .ok r' ∧ r'.texts = r.texts ∧ r'.bh = r.bh ∧ Visits r' us := by
  induction names generalizing n with
  | nil =>
    obtain ⟨r, ts, us, cs', r', h1, h2, h3, h4, h5, h6, h7, h8, h9, h10⟩ := h n (by simp) cs (.refl _)
    exact ⟨r, ts, us, cs', r', h1, h2, ⟨_, rfl, h3⟩, lexSort_cons (lexSort_nil _ ts) h4 h10, h5, h6, h7, h8, h9⟩
  | cons k names ih =>
    obtain ⟨r, ts, us, cs1, r1, a1, a2, a3, a4, a5, a6, a7, a8, a9⟩ :=
      ih k fun x hx => h x (List.mem_cons_of_mem _ hx)
    obtain ⟨r2, us', vs, cs2, r3, h1, h2, h3, h4, h5, h6, h7, h8, h9, h10⟩ := h n (by simp) cs1 a5
    rw [a6] at h1
    cases h1
    have e := visits_same a9 h2
    subst e
    exact ⟨r, ts, vs, cs2, r3, a1, a2, ⟨_, a3, h3⟩, lexSort_cons a4 h4 h10, h5.trans a5, h6, h7.trans a7,
      h8.trans a8, h9⟩

/-- **C111 (part).** A revision 0 file is sorted by several headers, from the least significant to the most
significant, each time with the sorted reader and a new file. The last file has the headers of the first one
and the bytes of its traces, each exactly once, and gives the traces in the order by all these headers; traces
that agree in all of them have the order they had in the first file. Conditions as in C83. -/
theorem C111_rev0_partial (est : LogEst) (text bin : Bytes) (cs : List Bytes) (m : HdrMap) (b : HBlock)
    (bo : ByteOrder) (bh : BinHeader) (names : List String) (ht : text.length = 3200) (hl : bin.length = 400)
    (hm : decInt .le ((bin.drop 96).take 4) = 0 ∨ decInt .le ((bin.drop 96).take 4) = 0x01020304)
    (hz : ∀ i, i < 400 → ¬ BinCovered bin i → bin[i]? = some 0)
    (hf : fillBinHeader {} false bin = .ok (bo, bh)) (hfmt : bh.formatCode ∈ supportedFormats)
    (hrev : bh.revMajor = 0) (hexts : bh.extTextHeadersNum = 0) (hext : bh.extSampPerTr = 0)
    (hexplicit : bh ≠ { formatCode := 1 })
    (hmap : MapOk bh m b) (hint : ∀ f ∈ b.fields, ∃ k, intKind f.ty = some k)
    (hnames : names ≠ []) (hname : ∀ name ∈ names, name ∈ b.fields.map (·.name)) (hne : cs ≠ [])
    (hcs : ∀ c ∈ cs, CopyableTrace est bh.formatCode bo b.fields (bh.sampPerTr % 65536).toNat c) :
    ∃ (r : Reader) (ts us : List Trace) (cs' : List Bytes) (r' : Reader),
      openReader (text ++ bin ++ cs.flatten) none m = .ok r ∧ Visits r ts ∧
      SortPasses est .r0 m names (text ++ bin ++ cs.flatten) (text ++ bin ++ cs'.flatten) ∧
      LexSort Trace.header names ts us ∧ cs'.Perm cs ∧
      openReader (text ++ bin ++ cs'.flatten) none m = .ok r' ∧ r'.texts = r.texts ∧ r'.bh = r.bh ∧
      Visits r' us := by
  obtain ⟨n, names, rfl⟩ := List.exists_cons_of_ne_nil hnames
  refine passes (F := fun ds => text ++ bin ++ ds.flatten) n names fun name hn ds hd => ?_
  obtain ⟨r, ts, s, us, w0, w, cs', r', s', k1, k2, k3, k4, k5, k6, k7, k8, k9, k10, k11, k12, k13, k14, -, -, k15⟩ :=
    C83_sort_rev0_partial est text bin ds m b bo bh name ht hl hm hz hf hfmt hrev hexts hext hexplicit hmap hint
      (hname name hn) (fun c => hne (by rw [c] at hd; exact hd.nil_eq.symm)) fun c hc => hcs c (hd.mem_iff.1 hc)
  rw [k9] at k11
  exact ⟨r, ts, us, cs', r', k1, k3, ⟨r, s, us, k1, k4, k5, text, w0, w, k2, k7, k8, k9.symm⟩, k6, k10, k11, k12,
    k13, k14, k15⟩

/-- **C111 (part).** The same for revision 1 files, written with `OSEGYRev1`. -/
theorem C111_rev1_partial (est : LogEst) (text bin : Bytes) (exts cs : List Bytes) (m : HdrMap) (b : HBlock)
    (bo : ByteOrder) (bh : BinHeader) (names : List String) (ht : ∀ x ∈ text :: exts, x.length = 3200)
    (hn : exts.length < 65536) (hl : bin.length = 400)
    (hm : decInt .le ((bin.drop 96).take 4) = 0 ∨ decInt .le ((bin.drop 96).take 4) = 0x01020304)
    (hz : ∀ i, i < 400 → ¬ BinCovered bin i → bin[i]? = some 0)
    (hf : fillBinHeader {} false bin = .ok (bo, bh)) (hfmt : bh.formatCode ∈ supportedFormats)
    (hrev : bh.revMajor = 1) (hdecl : TextsDeclared bh exts) (hext : ExtendedOk bh)
    (hmap : MapOk bh m b) (hint : ∀ f ∈ b.fields, ∃ k, intKind f.ty = some k)
    (hnames : names ≠ []) (hname : ∀ name ∈ names, name ∈ b.fields.map (·.name)) (hne : cs ≠ [])
    (hcs : ∀ c ∈ cs, CopyableTrace12 est bh bo b.fields c) :
    ∃ (r : Reader) (ts us : List Trace) (cs' : List Bytes) (r' : Reader),
      openReader (text ++ bin ++ exts.flatten ++ cs.flatten) none m = .ok r ∧ Visits r ts ∧
      SortPasses est .r1 m names (text ++ bin ++ exts.flatten ++ cs.flatten)
        (text ++ bin ++ exts.flatten ++ cs'.flatten) ∧
      LexSort Trace.header names ts us ∧ cs'.Perm cs ∧
      openReader (text ++ bin ++ exts.flatten ++ cs'.flatten) none m = .ok r' ∧ r'.texts = r.texts ∧
      r'.bh = r.bh ∧ Visits r' us := by
  obtain ⟨n, names, rfl⟩ := List.exists_cons_of_ne_nil hnames
  refine passes (F := fun ds => text ++ bin ++ exts.flatten ++ ds.flatten) n names fun name hna ds hd => ?_
  obtain ⟨r, ts, s, us, w0, w, cs', r', s', k1, k3, k4, k5, k6, k7, k8, k9, k10, k11, k12, k13, k14, -, -, k15⟩ :=
    C83_sort_rev1_partial est text bin exts ds m b bo bh name ht hn hl hm hz hf hfmt hrev hdecl hext hmap hint
      (hname name hna) (fun c => hne (by rw [c] at hd; exact hd.nil_eq.symm)) fun c hc => hcs c (hd.mem_iff.1 hc)
  rw [k9] at k11
  exact ⟨r, ts, us, cs', r', k1, k3, ⟨r, s, us, k1, k4, k5, w0, w, k7, k8, k9.symm⟩, k6, k10, k11, k12, k13, k14,
    k15⟩

/-- **C111 (part).** The same for revision 2 files without additional trace headers and without trailer
stanzas, written with `OSEGYRev2`. -/
theorem C111_rev2_partial (est : LogEst) (text bin : Bytes) (exts cs : List Bytes) (m : HdrMap) (b : HBlock)
    (bo : ByteOrder) (bh : BinHeader) (names : List String) (ht : ∀ x ∈ text :: exts, x.length = 3200)
    (hn : exts.length < 65536) (hl : bin.length = 400)
    (hm : decInt .le ((bin.drop 96).take 4) = 0 ∨ decInt .le ((bin.drop 96).take 4) = 0x01020304)
    (hz : ∀ i, i < 400 → ¬ BinCovered bin i → bin[i]? = some 0)
    (hf : fillBinHeader {} false bin = .ok (bo, bh)) (hfmt : bh.formatCode ∈ supportedFormats)
    (hrev : 2 ≤ bh.revMajor) (hdecl : TextsDeclared bh exts) (hext : ExtendedOk bh)
    (hadd : bh.maxNumAddTrHeaders = 0) (hstz : bh.numOfTrailerStanza = 0)
    (hoff : bh.byteOffOfFirstTr = 0 ∨ bh.byteOffOfFirstTr = 3600 + 3200 * exts.length)
    (hmap : MapOk bh m b) (hint : ∀ f ∈ b.fields, ∃ k, intKind f.ty = some k)
    (hnames : names ≠ []) (hname : ∀ name ∈ names, name ∈ b.fields.map (·.name)) (hne : cs ≠ [])
    (hcs : ∀ c ∈ cs, CopyableTrace12 est bh bo b.fields c) :
    ∃ (r : Reader) (ts us : List Trace) (cs' : List Bytes) (r' : Reader),
      openReader (text ++ bin ++ exts.flatten ++ cs.flatten) none m = .ok r ∧ Visits r ts ∧
      SortPasses est .r2 m names (text ++ bin ++ exts.flatten ++ cs.flatten)
        (text ++ bin ++ exts.flatten ++ cs'.flatten) ∧
      LexSort Trace.header names ts us ∧ cs'.Perm cs ∧
      openReader (text ++ bin ++ exts.flatten ++ cs'.flatten) none m = .ok r' ∧ r'.texts = r.texts ∧
      r'.bh = r.bh ∧ Visits r' us := by
  obtain ⟨n, names, rfl⟩ := List.exists_cons_of_ne_nil hnames
  refine passes (F := fun ds => text ++ bin ++ exts.flatten ++ ds.flatten) n names fun name hna ds hd => ?_
  obtain ⟨r, ts, s, us, w0, w, data, cs', r', s', k1, k3, k4, k5, k6, k7, k8, k8', k9, k10, k11, k12, k13, k14, -, -, k15⟩ :=
    C83_sort_rev2_partial est text bin exts ds m b bo bh name ht hn hl hm hz hf hfmt hrev hdecl hext hadd hstz hoff
      hmap hint (hname name hna) (fun c => hne (by rw [c] at hd; exact hd.nil_eq.symm))
      fun c hc => hcs c (hd.mem_iff.1 hc)
  rw [k9] at k11
  exact ⟨r, ts, us, cs', r', k1, k3, ⟨r, s, us, k1, k4, k5, w0, w, k7, k8, by rw [k8', k9]⟩, k6, k10, k11, k12, k13,
    k14, k15⟩

/-! ## Examples -/

/-- A revision 1 file with an extended text header and traces of different lengths, sorted by the number of
samples and then by the field record. -/
example := C111_rev1_partial (.strict fun _ => 0) exText (binHeaderBytes .le exBh1) [exText] [exTr1, exTr2] exWMap exB .le exBh1
  ["SAMP_NUM", "FFID"] (by decide +kernel) (by decide) (by decide +kernel) (.inr (by decide +kernel))
  (ex_covered (by decide +kernel)) (by decide +kernel) (by decide) rfl (.inl rfl) (by unfold ExtendedOk; decide)
  (exMapOk _ rfl) exB_ints (by decide) (by decide) (by simp) (exCopyable _ rfl rfl)

/-- A revision 2 file. -/
example := C111_rev2_partial (.strict fun _ => 0) exText (binHeaderBytes .le { exBh2 with numOfTrailerStanza := 0 })
  [exText, exEnd] [exTr1, exTr2] exWMap exB .le { exBh2 with numOfTrailerStanza := 0 } ["FFID", "SAMP_NUM"]
  (by decide +kernel) (by decide) (by decide +kernel) (.inr (by decide +kernel))
  (ex_covered2 ⟨2, by decide +kernel, by decide⟩ (by decide +kernel))
  (by decide +kernel) (by decide) (by decide) (.inr ⟨rfl, [exText], exEnd, rfl, by decide +kernel, by decide +kernel⟩)
  (by unfold ExtendedOk; decide) rfl rfl (.inr rfl) (exMapOk _ rfl) exB_ints (by decide) (by decide) (by simp)
  (exCopyable _ rfl rfl)

/-- A revision 0 file with a trace of two samples. -/
example := C111_rev0_partial (.strict fun _ => 0) exText exBin
  [List.replicate 8 0 ++ [7, 0, 0, 0] ++ List.replicate 228 0 ++ [[1, 0], [2, 0]].flatten]
  exWMap exB .le { lineNum := 5, sampPerTr := 2, formatCode := 3, endianness := 0x01020304 } ["SAMP_NUM", "FFID"]
  (by decide +kernel) (by decide +kernel) (.inr (by decide +kernel)) (ex_covered (by decide +kernel))
  (by decide +kernel) (by decide) rfl rfl rfl (by decide) (exMapOk _ rfl) exB_ints (by decide) (by decide)
  (List.cons_ne_nil _ _)
  (fun c hc => by
    have hr : ∀ n : Nat, n < 32768 → Rewrites (.strict fun _ => 0) 3 .le (encInt .le 2 n) := fun n hn =>
      C55_sample_integer _ 3 .i16 rfl .le n (i16_range hn) (by omega)
    simp only [List.mem_cons, List.not_mem_nil, or_false] at hc
    subst hc
    refine ⟨_, _, rfl, by decide +kernel, by decide +kernel, rfl, ?_⟩
    intro p hp
    simp only [List.mem_cons, List.not_mem_nil, or_false] at hp
    rcases hp with rfl | rfl
    · exact hr 1 (by decide)
    · exact hr 2 (by decide))

/-- The second header decides between traces that agree in the first one. -/
example : LexBefore ["FFID", "CHANNEL"] [("FFID", .int 3), ("CHANNEL", .int 1)] [("FFID", .int 3), ("CHANNEL", .int 2)] ∧
    LexBefore ["FFID", "CHANNEL"] [("FFID", .int 3), ("CHANNEL", .int 9)] [("FFID", .int 4), ("CHANNEL", .int 2)] :=
  ⟨⟨.int 3, .int 3, by decide, by decide, .inr ⟨⟨lt_irrefl (3 : Int), lt_irrefl (3 : Int)⟩,
      .int 1, .int 2, by decide, by decide, .inl (show (1 : Int) < 2 by decide)⟩⟩,
    .int 3, .int 4, by decide, by decide, .inl (show (3 : Int) < 4 by decide)⟩

end Sedaman.Props
