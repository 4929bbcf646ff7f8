import Verif.Lemmas.SortFile
import Verif.Props.Copy12
import Verif.Props.Sorted1D

/-!
# C83: sorting a SEG-Y file
-/

namespace Sedaman.Props

open Spec

/-- The number of samples is known to the reader. -/
def LenKnown (bh : BinHeader) (bps : Nat) (fields : List HField) (t : Trace) : Prop :=
  if fixedLength bh = true then (samplesPerTrace bh * bps).toNat = t.samples.length * bps
  else t.header.get "SAMP_NUM" = some (.int t.samples.length) ∧
    ∃ f ∈ fields, f.name = "SAMP_NUM" ∧ ∃ k, intKind f.ty = some k ∧
      IntKind.InRange (if k = .u64 then .i64 else k) t.samples.length

theorem lenKnown_of {bh : BinHeader} {bps : Nat} (hb : 1 ≤ bps ∧ bps ≤ 8) (hrev : 1 ≤ bh.revMajor)
    (hext : ExtendedOk bh) : (0 ≤ samplesPerTrace bh * bps ∧ samplesPerTrace bh * bps < 2 ^ 31) ∧
      ∀ fields t, LengthKnown bh fields t → LenKnown bh bps fields t := by
  have hfl : fixedLength bh = decide (bh.fixedTrLength ≠ 0) := by
    unfold fixedLength
    have : decide (bh.revMajor = 0) = false := decide_eq_false (by omega)
    rw [this, Bool.or_false]
  unfold ExtendedOk at hext
  refine ⟨?_, fun fields t a2 => ?_⟩
  · by_cases hf : bh.fixedTrLength ≠ 0
    · rw [if_pos hf] at hext
      exact (spt_fixed hb hext).2
    · rw [if_neg hf] at hext
      exact spt_var hb hext
  · unfold LenKnown
    rw [hfl]
    unfold LengthKnown at a2
    by_cases hf : bh.fixedTrLength ≠ 0
    · rw [if_pos hf] at a2 hext
      rw [if_pos (decide_eq_true hf), (spt_fixed (bh := bh) hb hext).1, ← a2, ← Int.natCast_mul]
      rfl
    · rw [if_neg hf] at a2
      rw [if_neg (by simpa using hf)]
      exact a2

theorem pieces_read {est : LogEst} {text : Bytes} {exts : List Bytes} {bh : BinHeader}
    {m : HdrMap} {b : HBlock} {bps : Nat} {cs : List Bytes} {ts : List Trace} (hl : ∀ x ∈ text :: exts, x.length = 3200)
    (hn : exts.length < 65536) (hbh : HeaderOk bh) (hm : MapOk bh m b)
    (hdecl : TextsDeclared bh exts) (hmax : (visible bh).maxNumAddTrHeaders = 0)
    (hoff : (visible bh).byteOffOfFirstTr = 0 ∨
      (visible bh).byteOffOfFirstTr = ((3600 + 3200 * exts.length : Nat) : Int))
    (hstz : (visible bh).numOfTrailerStanza = 0)
    (hbps : bytesPerSample bh.formatCode = some bps)
    (hs : 0 ≤ samplesPerTrace bh * bps ∧ samplesPerTrace bh * bps < 2 ^ 31)
    (hts : ∀ t ∈ ts, Storable est bh.formatCode (orderOfMarker bh.endianness) b.fields t ∧ LenKnown bh bps b.fields t)
    (hc : List.Forall₂ (Chunk est (orderOfMarker bh.endianness) bh.formatCode b.fields) ts cs) :
    ∃ r backs, (∀ ds : List Bytes,
        openReader (text ++ (binHeaderBytes (orderOfMarker bh.endianness) bh ++ (exts.flatten ++ ds.flatten))) none m = .ok
          { r with
            file := ⟨text ++ (binHeaderBytes (orderOfMarker bh.endianness) bh ++ (exts.flatten ++ ds.flatten)),
              3600 + 3200 * exts.length⟩
            curr := 3600 + 3200 * exts.length, endData := 3600 + 3200 * exts.length + ds.flatten.length }) ∧
      r.texts = text :: exts ∧ r.bh = visible bh ∧ r.trailers = [] ∧
      List.Forall₂ (TraceBack est bh.formatCode (orderOfMarker bh.endianness) b.fields) ts backs ∧
      List.Forall₂ (IsTrace r) cs backs := by
  have ht : text.length = 3200 := hl text List.mem_cons_self
  have hte : ∀ x ∈ exts, x.length = 3200 := fun x hx => hl x (List.mem_cons_of_mem _ hx)
  obtain ⟨m', hmm⟩ : ∃ m', m = b :: m' := by
    have := hm.head
    cases m with
    | nil => cases this
    | cons x y => simp only [List.head?_cons, Option.some.injEq] at this; exact ⟨y, by rw [this]⟩
  have hopen : ∀ body : Bytes, _ := fun body => open_written (bh := bh) (text := text) (exts := exts) (trl := []) (m := m)
    (bo := orderOfMarker bh.endianness) (bps := bps) (ed := 3600 + 3200 * exts.length + body.length) body hbh.range
    hbh.marker (order_ok hbh) (checkMap_reader hm.accepted) ht hte hbh.format hbps hdecl hoff (by
      intro data hd
      rw [readTrailers_none hstz, hd]
      simp only [List.length_append, ht, binHeaderBytes_length, flatten_length_const 3200 hte]
      congr 2
      omega) hs (by omega)
  obtain ⟨v1, v2, v3, v4, v5, v6⟩ := visible_same bh
  have hfix : fixedLength (visible bh) = fixedLength bh := by unfold fixedLength; rw [v2, v3]
  obtain ⟨backs, g1, g2⟩ := chunks_are_traces (est := est) (inv_opened (hopen [])) hmm hm.safe hm.names
    (fun t ht' => ⟨(hts t ht').1.samples, (hts t ht').1.size⟩) hc rfl
    (fun t ht' => by
      obtain ⟨-, a2⟩ := hts t ht'
      unfold CountKnown
      simp only
      rw [hfix]
      exact a2) v1 hmax
  exact ⟨_, backs, fun ds => hopen ds.flatten, rfl, rfl, rfl, g1, g2⟩

theorem pieces_again0 {est : LogEst} {text : Bytes} {bh : BinHeader}
    {m : HdrMap} {b : HBlock} {bps : Nat} {cs : List Bytes} {us : List Trace} (ht : text.length = 3200)
    (hbh : HeaderOk bh) (hm : MapOk bh m b) (hexplicit : bh ≠ { formatCode := 1 })
    (hbps : bytesPerSample bh.formatCode = some bps)
    (hu : ∀ t ∈ us, Storable est bh.formatCode (orderOfMarker bh.endianness) b.fields t ∧
      t.samples.length = (bh.sampPerTr % 65536).toNat)
    (hc : List.Forall₂ (Chunk est (orderOfMarker bh.endianness) bh.formatCode b.fields) us cs) :
    ∃ w, writeAll (writeTraceRev0 est) (openedWriter true text [] [] bh m (orderOfMarker bh.endianness) bps) us = .ok w ∧
      w.file.data = text ++ binHeaderBytes (orderOfMarker bh.endianness) bh ++ cs.flatten := by
  generalize hw0 : openedWriter true text [] [] bh m (orderOfMarker bh.endianness) bps = w0
  have hi : WInv2 .r0 w0 := by
    rw [← hw0]
    exact opened_inv2 (by simp) (by omega) (by simp) (by rw [fmt_ne hbh]; exact hbh.format) (by rw [fmt_ne hbh]; exact hbps)
  have e1 : w0.bh = bh := by
    rw [← hw0]
    unfold openedWriter memHeader
    simp only [if_true]
    exact fmt_ne hbh true
  have e2 : w0.bo = orderOfMarker bh.endianness := by rw [← hw0]; rfl
  have e3 : w0.map = m := by rw [← hw0]; rfl
  have e4 : w0.auto = false := by
    rw [← hw0]
    unfold openedWriter memHeader
    simp only [if_true, decide_eq_false_iff_not]
    rw [fmt_ne hbh]
    exact hexplicit
  have e6 : w0.file.data = text ++ binHeaderBytes (orderOfMarker bh.endianness) bh := by
    rw [← hw0]
    unfold openedWriter
    simp only [if_true, List.append_nil]
    rw [fmt_ne hbh, List.take_of_length_le (by rw [ht])]
  obtain ⟨m', hmm⟩ : ∃ m', m = b :: m' := by
    have := hm.head
    cases m with
    | nil => cases this
    | cons x y => simp only [List.head?_cons, Option.some.injEq] at this; exact ⟨y, by rw [this]⟩
  obtain ⟨w, q1, q2, -, -⟩ := write_copy (est := est) (rev := .r0) (us := us) (cs := cs) hi e4 (e3.trans hmm)
    (by simp) hm.safe
    (fun t ht => by
      obtain ⟨a1, a2⟩ := hu t ht
      refine ⟨by rw [e2]; exact a1.ints, by rw [e1, e2]; exact a1.samples, ?_, a1.size⟩
      unfold Announced
      rw [if_pos (.inl rfl), e1, a2]
      omega)
    (by rw [e1, e2]; exact hc)
  exact ⟨w, q1, by rw [q2, e6]⟩

theorem pieces_visited {r : Reader} {m : HdrMap} {head : Bytes} {ds : List Bytes} {ts : List Trace}
    (hlen : head.length = p) (ht : List.Forall₂ (IsTrace r) ds ts)
    (ho : openReader (head ++ ds.flatten) none m = .ok
      { r with file := ⟨head ++ ds.flatten, p⟩, curr := p, endData := p + ds.flatten.length }) :
    Visits { r with file := ⟨head ++ ds.flatten, p⟩, curr := p, endData := p + ds.flatten.length } ts :=
  visits_opened (inv_opened ho) (ht.imp fun _ _ h => isTrace_other h _ _ _) head [] (by simp) hlen.symm rfl
    (by simp only [hlen])

/-- The keys are there, and are integers. -/
private theorem keys_of {est : LogEst} {fmt : Int} {bo : ByteOrder} {fields : List HField} {ts backs : List Trace}
    {name : String} (hname : name ∈ fields.map (·.name)) (hint : ∀ f ∈ fields, ∃ k, intKind f.ty = some k)
    (h : ∀ t ∈ ts, Storable est fmt bo fields t) (hb : List.Forall₂ (TraceBack est fmt bo fields) ts backs) :
    ∀ t ∈ backs, ∃ v, t.header.get name = some v ∧ Ordered v := by
  intro t ht
  obtain ⟨o, ho, hb'⟩ := forall₂_mem_right hb ht
  obtain ⟨f, hf, rfl⟩ := List.mem_map.1 hname
  obtain ⟨k, hk⟩ := hint f hf
  obtain ⟨v, hv, -⟩ := (h o ho).ints f hf
  obtain ⟨r, -, e⟩ := hb'.2.2.1 f hf k hk v hv
  exact ⟨_, e, trivial⟩

private theorem sorts {est : LogEst} {text bin : Bytes} {exts : List Bytes} {bh : BinHeader}
    {m : HdrMap} {b : HBlock} {bps : Nat} {cs : List Bytes} {ts0 : List Trace} {name : String} {Good : Trace → Prop}
    {Writes : List Trace → Bytes → Prop} (hl : ∀ x ∈ text :: exts, x.length = 3200)
    (hn : exts.length < 65536) (hbh : HeaderOk bh) (hm : MapOk bh m b)
    (hdecl : TextsDeclared bh exts) (hmax : (visible bh).maxNumAddTrHeaders = 0)
    (hoff : (visible bh).byteOffOfFirstTr = 0 ∨
      (visible bh).byteOffOfFirstTr = ((3600 + 3200 * exts.length : Nat) : Int))
    (hstz : (visible bh).numOfTrailerStanza = 0)
    (hbps : bytesPerSample bh.formatCode = some bps) (hbin : binHeaderBytes (orderOfMarker bh.endianness) bh = bin)
    (hint : ∀ f ∈ b.fields, ∃ k, intKind f.ty = some k) (hname : name ∈ b.fields.map (·.name)) (hne : cs ≠ [])
    (hs : 0 ≤ samplesPerTrace bh * bps ∧ samplesPerTrace bh * bps < 2 ^ 31)
    (h1 : List.Forall₂ (Chunk est (orderOfMarker bh.endianness) bh.formatCode b.fields) ts0 cs)
    (h2 : ∀ t ∈ ts0, Storable est bh.formatCode (orderOfMarker bh.endianness) b.fields t ∧ LenKnown bh bps b.fields t ∧
        ∀ x ∈ t.samples, Survives est bh.formatCode (orderOfMarker bh.endianness) x)
    (hgood : ∀ o ∈ ts0, ∀ t, TraceBack est bh.formatCode (orderOfMarker bh.endianness) b.fields o t → Good t)
    (hw : ∀ us ds, (∀ t ∈ us, Good t) →
      List.Forall₂ (Chunk est (orderOfMarker bh.endianness) bh.formatCode b.fields) us ds →
      Writes us (text ++ bin ++ exts.flatten ++ ds.flatten)) :
    ∃ (r : Reader) (ts : List Trace) (s : Sorted1D) (us : List Trace) (cs' : List Bytes) (r' : Reader)
      (s' : Sorted1D), openReader (text ++ bin ++ exts.flatten ++ cs.flatten) none m = .ok r ∧
      r.texts = text :: exts ∧ r.bh = visible bh ∧ r.trailers = [] ∧ Visits r ts ∧
      OpensSorted (text ++ bin ++ exts.flatten ++ cs.flatten) none m name s ∧ SVisits s us ∧
      StableSort Trace.header name ts us ∧
      Writes us (text ++ bin ++ exts.flatten ++ cs'.flatten) ∧ cs'.Perm cs ∧
      openReader (text ++ bin ++ exts.flatten ++ cs'.flatten) none m = .ok r' ∧
      r'.texts = text :: exts ∧ r'.bh = visible bh ∧ r'.trailers = [] ∧ Visits r' us ∧
      OpensSorted (text ++ bin ++ exts.flatten ++ cs'.flatten) none m name s' ∧ SVisits s' us ∧
      ∀ t ∈ ts, ∃ v, t.header.get name = some v ∧ Ordered v := by
  obtain ⟨r, ts, ho, t1, t2, t3, hback, hist⟩ := pieces_read hl hn hbh hm hdecl hmax hoff hstz hbps hs
    (fun t ht => ⟨(h2 t ht).1, (h2 t ht).2.1⟩) h1
  have hhead : (text ++ bin ++ exts.flatten).length = 3600 + 3200 * exts.length := by
    rw [← hbin, List.length_append, List.length_append, hl text List.mem_cons_self, binHeaderBytes_length,
      flatten_length_const 3200 fun x hx => hl x (List.mem_cons_of_mem _ hx)]
  have ho' : ∀ ds : List Bytes, openReader (text ++ bin ++ exts.flatten ++ ds.flatten) none m = .ok
      { r with file := ⟨text ++ bin ++ exts.flatten ++ ds.flatten, 3600 + 3200 * exts.length⟩
               curr := 3600 + 3200 * exts.length, endData := 3600 + 3200 * exts.length + ds.flatten.length } := by
    intro ds
    have := ho ds
    rw [hbin] at this
    simp only [List.append_assoc] at this ⊢
    exact this
  have hv := pieces_visited hhead hist (ho' cs)
  have hk := keys_of hname hint (fun t ht => (h2 t ht).1) hback
  have hlen : ts.length = cs.length := hist.length_eq.symm
  have hnt : ts ≠ [] := by
    intro c
    rw [c] at hlen
    exact hne (List.eq_nil_of_length_eq_zero hlen.symm)
  obtain ⟨s, us, s1, s2, s3⟩ := C37_traces_partial _ none m name _ ts (ho' cs) hv hnt hk
  have b1 : ∀ t ∈ ts, Good t := fun t ht => by
    obtain ⟨o, ho, hb⟩ := forall₂_mem_right hback ht
    exact hgood o ho t hb
  have b2 := chunks_back hint (fun t ht f hf => ((h2 t ht).1.ints f hf).imp fun _ h => h.1) hback
    (fun t ht => (h2 t ht).2.2) h1
  have both : List.Forall₂ (fun t c => Chunk est (orderOfMarker bh.endianness) bh.formatCode b.fields t c ∧
      IsTrace r c t) ts cs := by
    clear hv hk hlen hnt s1 s2 s3 hback h1 h2 b1 hne hgood
    induction b2 with
    | nil => exact .nil
    | cons a _ ih => cases hist with | cons x y => exact .cons ⟨a, x⟩ (ih y)
  obtain ⟨cs', c1, c2⟩ := List.perm_comp_forall₂ s2.perm both
  have hww := hw us cs' (fun t ht => b1 t (s2.perm.mem_iff.1 ht)) (c1.imp fun _ _ h => h.1)
  have hv' := pieces_visited hhead (List.Forall₂.flip (c1.imp fun _ _ h => h.2)) (ho' cs')
  have hku : ∀ t ∈ us, ∃ v, t.header.get name = some v ∧ Ordered v := fun t ht => hk t (s2.perm.mem_iff.1 ht)
  obtain ⟨s', vs, s4, s5, s6⟩ := C37_traces_partial _ none m name _ us (ho' cs') hv'
    (fun c => hnt (by rw [c] at s2; exact s2.perm.nil_eq.symm)) hku
  have hvu : vs = us := stableSort_unique s5 ⟨.refl _, s2.sorted, fun _ _ => rfl⟩ hku
  subst hvu
  exact ⟨_, ts, s, vs, cs', _, s', ho' cs, t1, t2, t3, hv, s1, s3, s2, hww, c2, ho' cs', t1, t2, t3, hv', s4, s6, hk⟩

/-- **C83 (part).** A revision 0 file is sorted: the sorted reader is opened with the name of a field,
everything it reads is written with `OSEGYRev0`. The file that comes out has the headers of the first
one and the bytes of its traces, each exactly once; read in its own order, it gives the traces in
ascending order of the field, equal ones in the order they had; and sorting it again changes
nothing. Every trace has the field. Conditions as in C55, and at least one trace. -/
theorem C83_sort_rev0_partial (est : LogEst) (text bin : Bytes) (cs : List Bytes) (m : HdrMap) (b : HBlock)
    (bo : ByteOrder) (bh : BinHeader) (name : String) (ht : text.length = 3200) (hl : bin.length = 400)
    (hm : decInt .le ((bin.drop 96).take 4) = 0 ∨ decInt .le ((bin.drop 96).take 4) = 0x01020304)
    (hz : ∀ i, i < 400 → ¬ BinCovered bin i → bin[i]? = some 0)
    (hf : fillBinHeader {} false bin = .ok (bo, bh)) (hfmt : bh.formatCode ∈ supportedFormats)
    (hrev : bh.revMajor = 0) (hexts : bh.extTextHeadersNum = 0) (hext : bh.extSampPerTr = 0)
    (hexplicit : bh ≠ { formatCode := 1 })
    (hmap : MapOk bh m b) (hint : ∀ f ∈ b.fields, ∃ k, intKind f.ty = some k)
    (hname : name ∈ b.fields.map (·.name)) (hne : cs ≠ [])
    (hcs : ∀ c ∈ cs, CopyableTrace est bh.formatCode bo b.fields (bh.sampPerTr % 65536).toNat c) :
    ∃ (r : Reader) (ts : List Trace) (s : Sorted1D) (us : List Trace) (w0 w : Writer) (cs' : List Bytes) (r' : Reader)
        (s' : Sorted1D),
      openReader (text ++ bin ++ cs.flatten) none m = .ok r ∧ r.texts = [text] ∧ Visits r ts ∧
      OpensSorted (text ++ bin ++ cs.flatten) none m name s ∧ SVisits s us ∧
      StableSort Trace.header name ts us ∧
      openRev0 text r.bh m = .ok w0 ∧ writeAll (writeTraceRev0 est) w0 us = .ok w ∧
      w.file.data = text ++ bin ++ cs'.flatten ∧ cs'.Perm cs ∧
      openReader w.file.data none m = .ok r' ∧ r'.texts = r.texts ∧ r'.bh = r.bh ∧ Visits r' us ∧
      OpensSorted w.file.data none m name s' ∧ SVisits s' us ∧
      ∀ t ∈ ts, ∃ v, t.header.get name = some v ∧ Ordered v := by
  obtain ⟨hbh, hvis, rfl, hbin⟩ := copy_bin_ok hl hm hz hf hfmt
  obtain ⟨bps, hbps⟩ := bps_exists hfmt
  have hb := bps_small hbps
  obtain ⟨v1, v2, v3⟩ := visible_low (bh := bh) (by omega)
  obtain ⟨s1, s2⟩ := spt_fixed (bh := bh) hb (.inl hext)
  have hn : (((bh.sampPerTr % 65536).toNat : Nat) : Int) = bh.sampPerTr % 65536 := by omega
  have hopen := openRev0_of hmap.accepted ht (order_ok hbh) (by rw [fmt_ne hbh]; exact hfmt)
    (by rw [fmt_ne hbh]; exact hbps)
  obtain ⟨ts0, h1, h2⟩ := traces_of hfmt hmap.safe hmap.names hint hcs (by omega)
  obtain ⟨r, ts, s, us, cs', r', s', k1, k2, k3, k4, k5, k6, k7, k8, ⟨w, k9, k10⟩, k12, k13, k14, k15, k16, k17, k18, k19, k20⟩ :=
    sorts (est := est) (exts := []) (ts0 := ts0) (name := name) (cs := cs)
      (Good := fun t => Storable est bh.formatCode (orderOfMarker bh.endianness) b.fields t ∧
        t.samples.length = (bh.sampPerTr % 65536).toNat)
      (Writes := fun us data => ∃ w, writeAll (writeTraceRev0 est)
        (openedWriter true text [] [] bh m (orderOfMarker bh.endianness) bps) us = .ok w ∧ w.file.data = data)
      (by simpa using ht) (by simp) hbh hmap (.inl (by rw [hexts]; rfl)) v1 (.inl v2) v3 hbps hbin hint hname hne s2 h1
      (fun t ht' => by
        obtain ⟨a1, a2, a3⟩ := h2 t ht'
        refine ⟨a1, ?_, a3⟩
        unfold LenKnown
        rw [if_pos (by unfold fixedLength; rw [hrev]; simp), s1, ← hn, ← a2, ← Int.natCast_mul]
        rfl)
      (fun o ho t hb' => ⟨storable_back hint (h2 o ho).1 hb' (h2 o ho).2.2,
        by rw [samples_same hb'.1 (h2 o ho).2.2]; exact (h2 o ho).2.1⟩)
      (fun us ds hu hc => by
        obtain ⟨w, q1, q2⟩ := pieces_again0 ht hbh hmap hexplicit hbps hu hc
        exact ⟨w, q1, by rw [q2, hbin]; simp⟩)
  simp only [List.flatten_nil, List.append_nil] at k1 k6 k10 k13 k18
  refine ⟨r, ts, s, us, _, w, cs', r', s', k1, k2, k5, k6, k7, k8, by rw [k3, hvis]; exact hopen, k9, k10, k12, ?_, ?_, ?_, k17, ?_,
    k19, k20⟩
  · rw [k10]; exact k13
  · rw [k14, k2]
  · rw [k15, k3]
  · rw [k10]; exact k18

private theorem sorts12 {est : LogEst} {rev : Rev} (hr : rev ≠ .r0) {text bin : Bytes} {exts : List Bytes} {bh : BinHeader}
    {m : HdrMap} {b : HBlock} {bps : Nat} {cs : List Bytes} {name : String} (hl : ∀ x ∈ text :: exts, x.length = 3200)
    (hn : exts.length < 65536) (hbh : HeaderOk bh) (hm : MapOk bh m b) (hrev : 1 ≤ bh.revMajor)
    (hdecl : TextsDeclared bh exts) (hext : ExtendedOk bh) (hmax : (visible bh).maxNumAddTrHeaders = 0)
    (hadd : rev = .r2 → bh.maxNumAddTrHeaders = 0)
    (hoff : (visible bh).byteOffOfFirstTr = 0 ∨
      (visible bh).byteOffOfFirstTr = ((3600 + 3200 * exts.length : Nat) : Int))
    (hstz : (visible bh).numOfTrailerStanza = 0)
    (hbps : bytesPerSample bh.formatCode = some bps) (hbin : binHeaderBytes (orderOfMarker bh.endianness) bh = bin)
    (hint : ∀ f ∈ b.fields, ∃ k, intKind f.ty = some k) (hname : name ∈ b.fields.map (·.name)) (hne : cs ≠ [])
    (hcs : ∀ c ∈ cs, CopyableTrace12 est bh (orderOfMarker bh.endianness) b.fields c) :
    ∃ (r : Reader) (ts : List Trace) (s : Sorted1D) (us : List Trace) (w : Writer) (cs' : List Bytes) (r' : Reader)
      (s' : Sorted1D), openReader (text ++ bin ++ exts.flatten ++ cs.flatten) none m = .ok r ∧
      r.texts = text :: exts ∧ r.bh = visible bh ∧ r.trailers = [] ∧ Visits r ts ∧
      OpensSorted (text ++ bin ++ exts.flatten ++ cs.flatten) none m name s ∧ SVisits s us ∧
      StableSort Trace.header name ts us ∧
      writeAll (rev.write est) (openedWriter false text exts [] bh m (orderOfMarker bh.endianness) bps) us = .ok w ∧
      w.file.data = text ++ bin ++ exts.flatten ++ cs'.flatten ∧
      w.bh.numOfTrailerStanza = bh.numOfTrailerStanza ∧ cs'.Perm cs ∧
      openReader (text ++ bin ++ exts.flatten ++ cs'.flatten) none m = .ok r' ∧
      r'.texts = text :: exts ∧ r'.bh = visible bh ∧ r'.trailers = [] ∧ Visits r' us ∧
      OpensSorted (text ++ bin ++ exts.flatten ++ cs'.flatten) none m name s' ∧ SVisits s' us ∧
      ∀ t ∈ ts, ∃ v, t.header.get name = some v ∧ Ordered v := by
  obtain ⟨ts0, h1, h2⟩ := traces_of12 hbh.format hm.safe hm.names hint hcs
  obtain ⟨q1, q2⟩ := lenKnown_of (bps_small hbps) hrev hext
  obtain ⟨r, ts, s, us, cs', r', s', k1, k2, k3, k4, k5, k6, k7, k8, ⟨w, k9, k10, k11⟩, k12, k13, k14, k15, k16, k17, k18, k19, k20⟩ :=
    sorts (est := est) (ts0 := ts0) (name := name) (cs := cs)
      (Good := fun t => Storable est bh.formatCode (orderOfMarker bh.endianness) b.fields t ∧ LengthKnown bh b.fields t)
      (Writes := fun us data => ∃ w, writeAll (rev.write est)
        (openedWriter false text exts [] bh m (orderOfMarker bh.endianness) bps) us = .ok w ∧ w.file.data = data ∧
          w.bh.numOfTrailerStanza = bh.numOfTrailerStanza)
      hl hn hbh hm hdecl hmax hoff hstz hbps hbin hint hname hne q1 h1
      (fun t ht' => ⟨(h2 t ht').1, q2 _ _ (h2 t ht').2.1, (h2 t ht').2.2⟩)
      (fun o ho t hb' => ⟨storable_back hint (h2 o ho).1 hb' (h2 o ho).2.2,
        length_back (h2 o ho).2.1 hb' (h2 o ho).2.2⟩)
      (fun us ds hu hc => by
        obtain ⟨w, w1, w2, w3, -⟩ := copy_again (est := est) hr (trl := []) hl hn hbh hm hrev hadd hbps hu hc
        exact ⟨w, w1, by rw [w2, hbin], w3⟩)
  exact ⟨r, ts, s, us, w, cs', r', s', k1, k2, k3, k4, k5, k6, k7, k8, k9, k10, k11, k12, k13, k14, k15, k16, k17, k18, k19, k20⟩

/-- **C83 (part).** The same for revision 1 files, written with `OSEGYRev1`. Conditions as in C82, and at
least one trace. -/
theorem C83_sort_rev1_partial (est : LogEst) (text bin : Bytes) (exts cs : List Bytes) (m : HdrMap) (b : HBlock)
    (bo : ByteOrder) (bh : BinHeader) (name : String) (ht : ∀ x ∈ text :: exts, x.length = 3200)
    (hn : exts.length < 65536) (hl : bin.length = 400)
    (hm : decInt .le ((bin.drop 96).take 4) = 0 ∨ decInt .le ((bin.drop 96).take 4) = 0x01020304)
    (hz : ∀ i, i < 400 → ¬ BinCovered bin i → bin[i]? = some 0)
    (hf : fillBinHeader {} false bin = .ok (bo, bh)) (hfmt : bh.formatCode ∈ supportedFormats)
    (hrev : bh.revMajor = 1) (hdecl : TextsDeclared bh exts) (hext : ExtendedOk bh)
    (hmap : MapOk bh m b) (hint : ∀ f ∈ b.fields, ∃ k, intKind f.ty = some k)
    (hname : name ∈ b.fields.map (·.name)) (hne : cs ≠ [])
    (hcs : ∀ c ∈ cs, CopyableTrace12 est bh bo b.fields c) :
    ∃ (r : Reader) (ts : List Trace) (s : Sorted1D) (us : List Trace) (w0 w : Writer) (cs' : List Bytes) (r' : Reader)
        (s' : Sorted1D),
      openReader (text ++ bin ++ exts.flatten ++ cs.flatten) none m = .ok r ∧ Visits r ts ∧
      OpensSorted (text ++ bin ++ exts.flatten ++ cs.flatten) none m name s ∧ SVisits s us ∧
      StableSort Trace.header name ts us ∧
      openRev1 r.texts r.bh m = .ok w0 ∧ writeAll (writeTraceRev1 est) w0 us = .ok w ∧
      w.file.data = text ++ bin ++ exts.flatten ++ cs'.flatten ∧ cs'.Perm cs ∧
      openReader w.file.data none m = .ok r' ∧ r'.texts = r.texts ∧ r'.bh = r.bh ∧ Visits r' us ∧
      OpensSorted w.file.data none m name s' ∧ SVisits s' us ∧
      ∀ t ∈ ts, ∃ v, t.header.get name = some v ∧ Ordered v := by
  obtain ⟨hbh, hvis, rfl, hbin⟩ := copy_bin_ok hl hm hz hf hfmt
  obtain ⟨bps, hbps⟩ := bps_exists hfmt
  obtain ⟨v1, v2, v3⟩ := visible_low (bh := bh) (by omega)
  have hopen := openRev1_of hmap.accepted ht (order_ok hbh) (by rw [fmt_ne hbh]; exact hfmt)
    (by rw [fmt_ne hbh]; exact hbps)
  obtain ⟨r, ts, s, us, w, cs', r', s', k1, k2, k3, k4, k5, k6, k7, k8, k9, k10, k11, k12, k13, k14, k15, k16, k17, k18, k19, k20⟩ :=
    sorts12 (est := est) (rev := .r1) (by simp) ht hn hbh hmap (by omega) hdecl hext v1 (by simp) (.inl v2) v3 hbps hbin hint
      hname hne hcs
  refine ⟨r, ts, s, us, _, w, cs', r', s', k1, k5, k6, k7, k8, by rw [k2, k3, hvis]; exact hopen, k9, k10, k12, ?_, ?_, ?_, k17, ?_,
    k19, k20⟩
  · rw [k10]; exact k13
  · rw [k14, k2]
  · rw [k15, k3]
  · rw [k10]; exact k18

/-- **C83 (part).** The same for revision 2 files without additional trace headers and without trailer
stanzas, written with `OSEGYRev2`. -/
theorem C83_sort_rev2_partial (est : LogEst) (text bin : Bytes) (exts cs : List Bytes) (m : HdrMap) (b : HBlock)
    (bo : ByteOrder) (bh : BinHeader) (name : String) (ht : ∀ x ∈ text :: exts, x.length = 3200)
    (hn : exts.length < 65536) (hl : bin.length = 400)
    (hm : decInt .le ((bin.drop 96).take 4) = 0 ∨ decInt .le ((bin.drop 96).take 4) = 0x01020304)
    (hz : ∀ i, i < 400 → ¬ BinCovered bin i → bin[i]? = some 0)
    (hf : fillBinHeader {} false bin = .ok (bo, bh)) (hfmt : bh.formatCode ∈ supportedFormats)
    (hrev : 2 ≤ bh.revMajor) (hdecl : TextsDeclared bh exts) (hext : ExtendedOk bh)
    (hadd : bh.maxNumAddTrHeaders = 0) (hstz : bh.numOfTrailerStanza = 0)
    (hoff : bh.byteOffOfFirstTr = 0 ∨ bh.byteOffOfFirstTr = 3600 + 3200 * exts.length)
    (hmap : MapOk bh m b) (hint : ∀ f ∈ b.fields, ∃ k, intKind f.ty = some k)
    (hname : name ∈ b.fields.map (·.name)) (hne : cs ≠ [])
    (hcs : ∀ c ∈ cs, CopyableTrace12 est bh bo b.fields c) :
    ∃ (r : Reader) (ts : List Trace) (s : Sorted1D) (us : List Trace) (w0 w : Writer) (data : Bytes) (cs' : List Bytes)
        (r' : Reader) (s' : Sorted1D),
      openReader (text ++ bin ++ exts.flatten ++ cs.flatten) none m = .ok r ∧ Visits r ts ∧
      OpensSorted (text ++ bin ++ exts.flatten ++ cs.flatten) none m name s ∧ SVisits s us ∧
      StableSort Trace.header name ts us ∧
      openRev2 r.texts r.bh r.trailers m = .ok w0 ∧ writeAll (writeTraceRev2 est) w0 us = .ok w ∧
      closeRev2 w = .ok data ∧
      data = text ++ bin ++ exts.flatten ++ cs'.flatten ∧ cs'.Perm cs ∧
      openReader data none m = .ok r' ∧ r'.texts = r.texts ∧ r'.bh = r.bh ∧ Visits r' us ∧
      OpensSorted data none m name s' ∧ SVisits s' us ∧
      ∀ t ∈ ts, ∃ v, t.header.get name = some v ∧ Ordered v := by
  obtain ⟨hbh, hvis, rfl, hbin⟩ := copy_bin_ok hl hm hz hf hfmt
  obtain ⟨bps, hbps⟩ := bps_exists hfmt
  have hopen := openRev2_of (trl := []) hmap.accepted ht (by simp) (order_ok hbh) (by rw [fmt_ne hbh]; exact hfmt)
    (by rw [fmt_ne hbh]; exact hbps)
  obtain ⟨r, ts, s, us, w, cs', r', s', k1, k2, k3, k4, k5, k6, k7, k8, k9, k10, k11, k12, k13, k14, k15, k16, k17, k18, k19, k20⟩ :=
    sorts12 (est := est) (rev := .r2) (by simp) ht hn hbh hmap (by omega) hdecl hext (by rw [hvis]; exact hadd) (fun _ => hadd)
      (by rw [hvis]; push_cast; exact hoff) (by rw [hvis]; exact hstz) hbps hbin hint hname hne hcs
  refine ⟨r, ts, s, us, _, w, _, cs', r', s', k1, k5, k6, k7, k8, by rw [k2, k3, k4, hvis]; exact hopen, k9,
    C23_undeclared_dropped w (k11.trans hstz), k10, k12, ?_, ?_, ?_, k17, ?_, k19, k20⟩
  · rw [k10]; exact k13
  · rw [k14, k2]
  · rw [k15, k3]
  · rw [k10]; exact k18

/-! ## Examples -/

/-- A revision 1 file with an extended text header and traces of different lengths. -/
example := C83_sort_rev1_partial (.strict fun _ => 0) exText (binHeaderBytes .le exBh1) [exText] [exTr1, exTr2] exWMap exB .le exBh1
  "FFID" (by decide +kernel) (by decide) (by decide +kernel) (.inr (by decide +kernel)) (ex_covered (by decide +kernel))
  (by decide +kernel) (by decide) rfl (.inl rfl) (by unfold ExtendedOk; decide) (exMapOk _ rfl) exB_ints (by decide) (by simp)
  (exCopyable _ rfl rfl)

/-- A revision 2 file. -/
example := C83_sort_rev2_partial (.strict fun _ => 0) exText (binHeaderBytes .le { exBh2 with numOfTrailerStanza := 0 })
  [exText, exEnd] [exTr1, exTr2] exWMap exB .le { exBh2 with numOfTrailerStanza := 0 } "FFID"
  (by decide +kernel) (by decide) (by decide +kernel) (.inr (by decide +kernel))
  (ex_covered2 ⟨2, by decide +kernel, by decide⟩ (by decide +kernel))
  (by decide +kernel) (by decide) (by decide) (.inr ⟨rfl, [exText], exEnd, rfl, by decide +kernel, by decide +kernel⟩)
  (by unfold ExtendedOk; decide) rfl rfl (.inr rfl) (exMapOk _ rfl) exB_ints (by decide) (by simp) (exCopyable _ rfl rfl)

/-- A revision 0 file with two traces of two samples. -/
example := C83_sort_rev0_partial (.strict fun _ => 0) exText exBin
  [List.replicate 8 0 ++ [7, 0, 0, 0] ++ List.replicate 228 0 ++ [[1, 0], [2, 0]].flatten,
   List.replicate 8 0 ++ [8, 1, 0, 0x80] ++ List.replicate 228 0 ++ [[0, 0], [0xff, 0x7f]].flatten]
  exWMap exB .le { lineNum := 5, sampPerTr := 2, formatCode := 3, endianness := 0x01020304 } "FFID"
  (by decide +kernel) (by decide +kernel) (.inr (by decide +kernel)) (ex_covered (by decide +kernel))
  (by decide +kernel) (by decide) rfl rfl rfl (by decide) (exMapOk _ rfl) exB_ints (by decide) (List.cons_ne_nil _ _)
  (fun c hc => by
    have hr : ∀ n : Nat, n < 32768 → Rewrites (.strict fun _ => 0) 3 .le (encInt .le 2 n) := fun n hn =>
      C55_sample_integer _ 3 .i16 rfl .le n (i16_range hn) (by omega)
    simp only [List.mem_cons, List.not_mem_nil, or_false] at hc
    rcases hc with rfl | rfl
    · refine ⟨_, _, rfl, by decide +kernel, by decide +kernel, rfl, ?_⟩
      intro p hp
      simp only [List.mem_cons, List.not_mem_nil, or_false] at hp
      rcases hp with rfl | rfl
      · exact hr 1 (by decide)
      · exact hr 2 (by decide)
    · refine ⟨_, _, rfl, by decide +kernel, by decide +kernel, rfl, ?_⟩
      intro p hp
      simp only [List.mem_cons, List.not_mem_nil, or_false] at hp
      rcases hp with rfl | rfl
      · exact hr 0 (by decide)
      · exact hr 32767 (by decide))

/-- The sorted reader, and a writer of revision 1 for all it reads. -/
def sortRev1 (data : Bytes) (m : HdrMap) (name : String) (n : Nat) : Out Bytes := do
  let r ← openReader data none m
  let w ← openRev1 r.texts r.bh m
  match openSorted data none m name (n + 1) with
  | some (.ok s) =>
    let rec go : Nat → Sorted1D → Writer → Out Bytes
      | 0, _, w => .ok w.file.data
      | k + 1, s, w => do
        let (t, s) ← s.readTrace
        let w ← writeTraceRev1 (.strict fun _ => 0) w t
        go k s w
    go n s w
  | _ => .ok []

/-- The second trace has the smaller field number, which is negative. -/
example : (sortRev1 (exText ++ binHeaderBytes .le exBh1 ++ exText ++ (exTr1 ++ exTr2 ++ exTr1)) exWMap "FFID" 3).map
    (fun (d : Bytes) => (d.drop 6800).map BitVec.toNat) = .ok ((exTr2 ++ exTr1 ++ exTr1).map BitVec.toNat) := by
  decide +kernel

end Sedaman.Props
