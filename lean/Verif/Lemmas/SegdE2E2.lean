import Verif.Lemmas.SegdE2E

/-! # Lemmas: SEG-D headers and traces from the writer to the reader -/

namespace Sedaman

open Spec Props

/-- General header 2 as the reader shows it. -/
def shownGh2 (g : GenHdr2) : GenHdr2 :=
  { g with extendedSkewBlocks := 0, recordSetNumber := 0, extNumAddBlksInGenHdr := 0
           dominantSamplingInt := 0 }

theorem general_rt {H : Host} {a : OSegdArgs} {ns l : List GenHdrN} (hlg : LogOk H.lg)
    (hr : RecordFits a ns) (hb : ∀ h ∈ l, BlockSurvives h) (hlen : l.length = ns.length)
    (hs : l.Pairwise fun x y => x.genHdrBlockNum < y.genHdrBlockNum) :
    ∃ b1 b2 bn, writeGenHdr1 H.lg a.gh1 a.gh2.extRecordLen = .ok b1 ∧ writeGenHdr2 a.gh2 = .ok b2 ∧
      writeAddHdrs (l.map entryN) = .ok bn ∧ ∀ (m : ExtMap) (rest : Bytes),
      ∃ p, readGeneral (.init (b1 ++ (b2 ++ (bn ++ rest))) m) =
          .ok { (ISegd.init (b1 ++ (b2 ++ (bn ++ rest))) m).at p with
            gh1 := a.gh1, gh2 := shownGh2 a.gh2, blks := l.map entryN } ∧
        Ahead ((ISegd.init (b1 ++ (b2 ++ (bn ++ rest))) m).at p) rest := by
  obtain ⟨k, k1, k2⟩ := hr.base
  obtain ⟨b1, w1, l1, r1⟩ := C44_stored H.lg a.gh1 a.gh2.extRecordLen k hlg hr.typed k2 k1
    hr.scans.1 hr.scans.2
  rw [hr.stored] at r1
  obtain ⟨b2, w2, l2, r2⟩ := C45_roundtrip .zero a.gh2 hr.gh2
  obtain ⟨bn, wn, rn⟩ := addHdrs_rt l hb
  refine ⟨b1, b2, bn, w1, w2, wn, fun m rest => ?_⟩
  generalize hd : b1 ++ (b2 ++ (bn ++ rest)) = data
  have ha : Ahead (.init data m) (b1 ++ (b2 ++ (bn ++ rest))) := ⟨[], by rw [hd]; rfl⟩
  obtain ⟨f1, a1⟩ := fill_ahead ha l1
  have a1' : Ahead { (ISegd.init data m).at ((ISegd.init data m).file.pos + 32) with gh1 := a.gh1 }
      (b2 ++ (bn ++ rest)) := ahead_with a1 rfl
  obtain ⟨f2, a2⟩ := fill_ahead a1' l2
  have q1 := r1 []
  rw [List.append_nil] at q1
  obtain ⟨g', r, r', q2, q3, q4, q5⟩ := r2 []
  rw [List.append_nil] at q2 q5
  have hadd : a.gh1.addGenHdrBlocks ≠ 0 := by have := hr.count; omega
  obtain ⟨p, z1, z2⟩ := rn []
    { (ISegd.init data m).at ((ISegd.init data m).file.pos + 32 + 32) with
      gh1 := a.gh1, gh2 := shownGh2 a.gh2 } rest (by simpa using hs) rfl (ahead_with a2 rfl)
  refine ⟨p, ?_, ahead_with z2 rfl⟩
  unfold readGeneral
  rw [f1, ok_bind]
  simp only [q1, ok_bind]
  rw [if_pos hadd]
  unfold readGeneralAdd
  rw [f2, ok_bind]
  have q2' : readRevision ((({ (ISegd.init data m).at ((ISegd.init data m).file.pos + 32) with
      gh1 := a.gh1 } : ISegd).at
        (({ (ISegd.init data m).at ((ISegd.init data m).file.pos + 32) with
      gh1 := a.gh1 } : ISegd).file.pos + 32)).gh2) b2 = .ok (g', r) := q2
  simp only [q2', ok_bind]
  rw [if_pos (by rw [q3]; exact hr.rev)]
  unfold readGeneral2
  simp only [q5, ok_bind]
  have hcnt : (a.gh1.addGenHdrBlocks - 1).toNat = l.length := by rw [hr.count, hlen]; omega
  have hgh1 : (({ (ISegd.init data m).at ((ISegd.init data m).file.pos + 32) with
      gh1 := a.gh1 } : ISegd).at
        (({ (ISegd.init data m).at ((ISegd.init data m).file.pos + 32) with
      gh1 := a.gh1 } : ISegd).file.pos + 32)).gh1 = a.gh1 := rfl
  simp only [hgh1, hcnt]
  exact z1

/-- All headers. -/
theorem headers_rt {H : Host} {a : OSegdArgs} {ns : List GenHdrN} (hlg : LogOk H.lg)
    (hr : RecordFits a ns) :
    ∃ w, openSegdWriter H 0 a = .ok w ∧ ∀ (m : ExtMap) (rest : Bytes),
      ∃ f, openSegd (w.out ++ rest) m = .ok f ∧ HeadersBack a ns f ∧ f.extMap = m ∧
        f.gh2.segdRevMajor = a.gh2.segdRevMajor ∧
        f.chansIn = announced a.chSets ∧ f.chansRead = 0 ∧ Ahead f rest := by
  obtain ⟨l, e1, e2, e3⟩ := storeAdd_ok ns [] List.Pairwise.nil
    (by simpa using hr.numbers) (fun h hh => (hr.blocks h hh).noClass)
  rw [List.nil_append] at e2
  obtain ⟨b1, b2, bn, w1, w2, w3, hg⟩ := general_rt hlg hr (l := l)
    (fun h hh => hr.blocks h (e2.mem_iff.1 hh)) e2.length_eq e3
  have ht := hr.typed
  have hst := hr.stored
  have hsets : a.gh1.channelSetsPerScanType % 100 = a.gh1.channelSetsPerScanType :=
    congrArg GenHdr1.channelSetsPerScanType hst
  have hskew : a.gh1.skewBlocks % 100 = a.gh1.skewBlocks := congrArg GenHdr1.skewBlocks hst
  have ha1 : a.setsPerScan = a.gh1.channelSetsPerScanType.toNat := by
    unfold OSegdArgs.setsPerScan
    rw [if_neg (by omega)]
    unfold toU
    have := ht.channelSetsPerScanType
    omega
  obtain ⟨bs, w4, h4⟩ := scanTypes_rt hlg hr.rev a.chSets
    (fun x hx => by rw [ha1]; have := hr.sets x hx; omega) hr.chSets
  have hext : a.extendedBlks = a.extended.length := by
    have h1 := hr.extended
    have h2 := ht.extendedHdrBlocks
    unfold OSegdArgs.extendedBlks
    by_cases hc : a.gh1.extendedHdrBlocks = 165
    · rw [if_pos hc] at h1 ⊢; omega
    · rw [if_neg hc] at h1 ⊢; unfold toU; omega
  have hxt : a.externalBlks = a.external.length := by
    have h1 := hr.external
    have h2 := ht.externalHdrBlocks
    unfold OSegdArgs.externalBlks
    by_cases hc : a.gh1.externalHdrBlocks = 165
    · rw [if_pos hc] at h1 ⊢; omega
    · rw [if_neg hc] at h1 ⊢; unfold toU; omega
  have w5 := writeBlocks32_all a.extended a.extended [] rfl hr.extended32
  have w6 := writeBlocks32_all a.external a.external [] rfl hr.external32
  obtain ⟨fw, hfw⟩ := segdWriter_bits H.packEst hr.format
  obtain ⟨fr, hfr⟩ := segdReader_bits hr.format
  have hscan : a.chSets.length = toU 8 a.gh1.scanTypesPerRecord := by
    have h1 := hr.scanTypes
    have h2 := ht.scanTypesPerRecord
    unfold toU; omega
  have hopen : openSegdWriter H 0 a = .ok
      { out := b1 ++ b2 ++ bn ++ bs ++ a.extended.flatten ++ a.external.flatten, args := a
        chansInRecord := (0 + totalChannels a.chSets) % 2 ^ 64, chansWritten := 0 } := by
    unfold openSegdWriter
    rw [hr.addHdrs]
    change storeAdd (ns.map .n) (([] : List GenHdrN).map entryN) >>= _ = _
    rw [e1, ok_bind, if_neg (not_not_intro hscan)]
    unfold writeHeaders
    rw [hfw, ok_bind, w1, ok_bind, w2, ok_bind, w3, ok_bind, w4, ok_bind, hext, hxt]
    rw [show (0 : Nat) = ([] : List Bytes).length from rfl, w5, ok_bind, w6, ok_bind]
    rfl
  refine ⟨_, hopen, fun m rest => ?_⟩
  have hassoc : (b1 ++ b2 ++ bn ++ bs ++ a.extended.flatten ++ a.external.flatten) ++ rest
      = b1 ++ (b2 ++ (bn ++ (bs ++ (a.extended.flatten ++ (a.external.flatten ++ rest))))) := by
    simp only [List.append_assoc]
  simp only [hassoc]
  obtain ⟨p0, g1, g2⟩ := hg m (bs ++ (a.extended.flatten ++ (a.external.flatten ++ rest)))
  generalize b1 ++ (b2 ++ (bn ++ (bs ++ (a.extended.flatten ++ (a.external.flatten ++ rest))))) = data
    at g1 g2 ⊢
  let s0 : ISegd := { (ISegd.init data m).at p0 with
            gh1 := a.gh1, gh2 := shownGh2 a.gh2, blks := l.map entryN }
  have hrev3 : s0.rev3 = false := by
    have := hr.rev
    refine decide_eq_false fun h => ?_
    have h2 : 3 ≤ a.gh2.segdRevMajor := h.2
    omega
  have hsps : s0.setsPerScan = a.setsPerScan := rfl
  have hsk : s0.skewBlks = a.gh1.skewBlocks.toNat := by
    change (if a.gh1.skewBlocks = 165 then 0 else toU 2 a.gh1.skewBlocks) = _
    have := ht.skewBlocks
    rw [if_neg (by omega)]
    unfold toU; omega
  obtain ⟨p1, k1, k2⟩ := h4 s0 _ hrev3 hsps hsk (ahead_with g2 rfl)
  let s1 : ISegd := { s0.at p1 with chSets := s0.chSets ++ a.chSets.map (·.map shownSet)
                                    chansIn := s0.chansIn + announced a.chSets }
  obtain ⟨p2, k3, k4⟩ := readBlocks32_rt a.extended s1 _ hr.extended32 (ahead_with k2 rfl)
  let s2 : ISegd := { s1.at p2 with extended := a.extended }
  obtain ⟨p3, k5, k6⟩ := readBlocks32_rt a.external s2 _ hr.external32 (ahead_with k4 rfl)
  refine ⟨{ s2.at p3 with external := a.external }, ?_, ⟨rfl, ?_, ⟨l, ?_, e2, e3⟩, ?_, rfl, rfl⟩, rfl,
    rfl, ?_, rfl, ahead_with k6 rfl⟩
  · have hst : a.chSets.length = a.gh1.scanTypesPerRecord.toNat := by
      have := hr.scanTypes; omega
    unfold openSegd readHeaders
    rw [g1, ok_bind]
    change (segdReader a.gh1.formatCode >>= _) = _
    rw [hfr, ok_bind]
    change readScanTypes a.gh1.scanTypesPerRecord.toNat s0 >>= _ = _
    rw [← hst, k1, ok_bind]
    change readBlocks32 a.extendedBlks s1 >>= _ = _
    rw [hext, k3, ok_bind]
    change readBlocks32 a.externalBlks s2 >>= _ = _
    rw [hxt, k5, ok_bind]
    rfl
  · have hadd : a.gh1.addGenHdrBlocks ≠ 0 := by have := hr.count; omega
    unfold ISegd.generalHeader2
    change (if a.gh1.addGenHdrBlocks ≠ 0 then some (shownGh2 a.gh2) else none) = _
    rw [if_pos hadd]
    rfl
  · have hadd : a.gh1.addGenHdrBlocks ≠ 0 := by have := hr.count; omega
    have hrev := hr.rev
    unfold ISegd.generalHeaderN
    change (if a.gh1.addGenHdrBlocks = 0 ∨ 2 < a.gh2.segdRevMajor then .ok [] else
      (l.map entryN).mapM fun p => p.2.asN) = _
    rw [if_neg (by omega)]
    clear g1 g2 e1 e2 e3 w3 hg k1 k2 k3 k4 k5 k6 hopen h4 hrev3 hsps hsk s0 s1 s2
    induction l with
    | nil => rfl
    | cons x t ih => rw [List.map_cons, List.mapM_cons, ih]; rfl
  · change [] ++ a.chSets.map (·.map shownSet) = _
    rfl
  · change 0 + announced a.chSets = _
    omega

/-! ## Traces -/

theorem stdKept_of {hdr r : Header} {ffid scan chSet chan timing ext skew edit brk : Nat}
    (hc : Carries hdr ffid scan chSet chan timing ext skew edit brk)
    (hr : Returned r ffid scan chSet chan timing ext skew edit brk) : StdKept hdr r := by
  have hi : ∀ {n : String} {k : Nat}, headerInt hdr n k → r.get n = some (.int k) →
      ∃ v, r.get n = some v ∧ (hdr.get n = some v ∨ hdr.get n = none ∧ v = .int 0) := by
    intro n k h1 h2
    refine ⟨_, h2, ?_⟩
    rcases h1 with h1 | ⟨h1, h3⟩
    · exact .inl h1
    · exact .inr ⟨h1, by rw [h3]⟩
  have hd : ∀ {n : String} {k : Nat}, headerFix8 hdr n k → r.get n = some (.dbl (dyadic k 8)) →
      ∃ v, r.get n = some v ∧ (hdr.get n = some v ∨ hdr.get n = none ∧ v = .dbl (dyadic 0 8)) := by
    intro n k h1 h2
    refine ⟨_, h2, ?_⟩
    rcases h1 with h1 | ⟨h1, h3⟩
    · exact .inl h1
    · exact .inr ⟨h1, by rw [h3]⟩
  intro p hp
  simp only [stdTraceNames, List.mem_cons, List.not_mem_nil, or_false] at hp
  rcases hp with rfl | rfl | rfl | rfl | rfl | rfl | rfl | rfl | rfl
  · exact hi hc.ffid hr.ffid
  · exact hi hc.scan hr.scan
  · exact ⟨_, hr.chSet, .inl hc.chSet⟩
  · exact hi hc.chan hr.chan
  · exact hd hc.timing hr.timing
  · exact hi hc.ext hr.ext
  · exact hd hc.skew hr.skew
  · exact hi hc.edit hr.edit
  · exact hd hc.brk hr.brk

theorem at_present {h : Header} {k : String} {v : Value} (hg : h.get k = some v) :
    Header.at h k = (v, h) := by
  unfold Header.at; rw [hg]

/-- The reader stands in the record that was written. -/
structure InRecord (a : OSegdArgs) (s : ISegd) : Prop where
  gh1 : s.gh1 = a.gh1
  rev : s.gh2.segdRevMajor = a.gh2.segdRevMajor
  extMap : s.extMap = a.extMap
  chSets : s.chSets = a.chSets.map (·.map shownSet)

/-- The samples `xs'` come back for those of the trace. -/
def SamplesGive (H : Host) (a : OSegdArgs) (k : Int) (xs xs' : List Dbl) : Prop :=
  ∃ bs, (∀ m, ∃ m', writeSamplesD H.packEst a.gh1.formatCode (pow2 k) xs m = .ok (bs, m')) ∧
    ∀ rest, readSamplesD a.gh1.formatCode (pow2 k) xs.length (bs ++ rest) = .ok (xs', rest)

theorem traceFits_held {H : Host} {a : OSegdArgs} {t : Trace} {n : Nat} (hf : TraceFits H a t n) :
    ∃ k, TraceHeld H a t n k ∧ SamplesGive H a k t.samples t.samples := by
  obtain ⟨⟨ffid, scan, chSet, chan, timing, skew, edit, brk, l, c, k, hc, h1, h2, h3, h4, h5, h6, h7,
    h8, i1, i2, i3, i4, k1, k2, k3, k4⟩, hfmt, hlen, hn0, hn⟩ := hf
  obtain ⟨xs, w3, -, r3⟩ := C50_trace_samples_partial H.packEst a.gh1.formatCode k k2 k3 t.samples hfmt
    k4 hlen
  exact ⟨k, ⟨⟨ffid, scan, chSet, chan, timing, skew, edit, brk, l, c, hc, h1, h2, h3, h4, h5, h6, h7,
    h8, i1, i2, i3, i4, k1⟩, hfmt, hlen, hn0, hn⟩, xs, w3, r3⟩

theorem trace_rt {H : Host} {a : OSegdArgs} {t : Trace} {n : Nat} {k : Int} {xs' : List Dbl}
    (hf : TraceHeld H a t n k) (hsg : SamplesGive H a k t.samples xs')
    {out : Bytes} {Q : Header → Header → Prop}
    (hw : writeExt H.est H.room a.gh2.segdRevMajor a.extMap t.header = .ok out)
    (hx : ∀ acc rest, acc.get "TR_HDR_EXT" = some (.int n) →
      ∃ h, readExt a.gh2.segdRevMajor a.extMap acc (out ++ rest) = .ok (h, rest) ∧ Q acc h)
    (hQ : ∀ acc h, Q acc h → h.get "SCAN_TYPE_NUM" = acc.get "SCAN_TYPE_NUM" ∧
      h.get "CH_SET_NUM" = acc.get "CH_SET_NUM" ∧
      h.get "SAMP_NUM" = some (.int t.samples.length)) :
    ∃ bytes, Writable H a t bytes ∧ ∀ (s : ISegd) (rest : Bytes), InRecord a s →
      Ahead s (bytes ++ rest) → ∃ acc h p, StdKept t.header acc ∧
        (∀ k, k ∉ stdTraceNames.map Prod.fst → acc.get k = none) ∧ Q acc h ∧
        readTraceBody H.pw s = .ok (⟨h, xs'⟩, s.at p) ∧ Ahead (s.at p) rest := by
  obtain ⟨⟨ffid, scan, chSet, chan, timing, skew, edit, brk, l, c, hc, h1, h2, h3, h4, h5, h6, h7,
    h8, i1, i2, i3, i4, k1⟩, hfmt, hlen, hn0, hn⟩ := hf
  obtain ⟨b, w1, l1, r1⟩ := C48_roundtrip_partial t.header ffid scan chSet chan timing n skew edit brk
    hc h1 h2 h3 h4 h5 (by omega) h6 h7 h8
  obtain ⟨xs, w3, r3⟩ := hsg
  have hscan : t.header.get "SCAN_TYPE_NUM" = some (.int scan) := by
    rcases hc.scan with h | ⟨-, h⟩
    · exact h
    · omega
  have hcw : a.chSetOf t.header = .ok c := by
    have e1 : toU 2 (scan : Int) = scan := by unfold toU; omega
    have e2 : toU 2 (chSet : Int) = chSet := by unfold toU; omega
    unfold OSegdArgs.chSetOf subscriptW
    rw [hscan, hc.chSet]
    simp only [ok_bind, e1, e2, if_neg (show scan ≠ 0 by omega), if_neg (show chSet ≠ 0 by omega),
      i2, i4]
  have w3' : ∀ m, ∃ m', writeSamplesOf H a t m = .ok (xs, m') := by
    intro m
    obtain ⟨m', e⟩ := w3 m
    refine ⟨m', ?_⟩
    unfold writeSamplesOf
    rw [hcw, ok_bind, k1, e]
  refine ⟨b ++ out ++ xs, ⟨b, out, xs, w1, hw, w3', rfl⟩, fun s rest hs ha => ?_⟩
  rw [List.append_assoc, List.append_assoc] at ha
  obtain ⟨f1, f2⟩ := fill_ahead ha l1
  obtain ⟨acc, q1, q2⟩ := r1 []
  rw [List.append_nil] at q1
  obtain ⟨h, e1, e2⟩ := hx acc (xs ++ rest) q2.ext
  obtain ⟨f3, f4⟩ := onRest_ahead f2 e1
  obtain ⟨j1, j2, j3⟩ := hQ acc h e2
  rw [q2.scan] at j1
  rw [q2.chSet] at j2
  obtain ⟨f5, f6⟩ := onRest_ahead f4 (r3 rest)
  refine ⟨acc, h, _, stdKept_of hc q2, ?_, e2, ?_, f6⟩
  · intro k hk
    exact q2.others k (fun hm => hk (by simpa [stdTraceNames] using hm))
  · have hset : ∀ s : ISegd, s.chSets = a.chSets.map (·.map shownSet) →
        s.chSetOf h = .ok (shownSet c, h) := by
      intro s hs
      unfold ISegd.chSetOf subscript
      rw [at_present j1]
      simp only [at_present j2, hs]
      simp only [if_neg (show ¬ (scan : Int) < 1 by omega),
        if_neg (show ¬ (chSet : Int) < 1 by omega)]
      rw [show ((scan : Int) - 1).toNat = scan - 1 by omega,
        show ((chSet : Int) - 1).toNat = chSet - 1 by omega]
      simp only [List.getElem?_map, i2, i4, Option.map_some, ok_bind]
      rfl
    have hnum : sampNumD (shownSet c) h = .ok t.samples.length := by
      unfold sampNumD
      rw [j3]
      have hb : 24 ≤ segdBits a.gh1.formatCode := by
        revert hfmt
        generalize a.gh1.formatCode = f
        intro hfmt
        simp only [segdByteFormats, List.mem_cons, List.not_mem_nil, or_false] at hfmt
        rcases hfmt with e | e | e | e | e | e | e | e <;> subst e <;> decide
      have : t.samples.length * 24 ≤ t.samples.length * segdBits a.gh1.formatCode :=
        Nat.mul_le_mul_left _ hb
      simp only
      rw [show toU 4 (t.samples.length : Int) = t.samples.length by unfold toU; omega]
    unfold readTraceBody
    rw [f1, ok_bind]
    simp only [q1, ok_bind]
    have hrv : (s.at (s.file.pos + 20)).gh2.segdRevMajor = a.gh2.segdRevMajor := hs.rev
    have hmp : (s.at (s.file.pos + 20)).extMap = a.extMap := hs.extMap
    rw [hrv, hmp, f3, ok_bind]
    simp only
    rw [hset ((s.at (s.file.pos + 20)).at ((s.at (s.file.pos + 20)).file.pos + out.length)) hs.chSets,
      ok_bind]
    simp only [hnum, ok_bind]
    rw [show ((s.at (s.file.pos + 20)).at ((s.at (s.file.pos + 20)).file.pos + out.length)).gh1.formatCode
        = a.gh1.formatCode by change s.gh1.formatCode = _; rw [hs.gh1],
      show H.pw (shownSet c).descaleMultiplier = pow2 k from k1, f5, ok_bind]
    rfl

/-- All traces of the record. -/
theorem traces_rt {H : Host} {a : OSegdArgs} {R : Trace → Trace → Prop} :
    ∀ (ts : List Trace), (∀ t ∈ ts, ∃ bytes, Writable H a t bytes ∧ ∀ (s : ISegd) (rest : Bytes),
      InRecord a s → Ahead s (bytes ++ rest) →
      ∃ t' p, R t t' ∧ readTraceBody H.pw s = .ok (t', s.at p) ∧ Ahead (s.at p) rest) →
    ∃ bytes, List.Forall₂ (Writable H a) ts bytes ∧ ∀ (s : ISegd), InRecord a s →
      Ahead s bytes.flatten → s.chansRead + ts.length = s.chansIn → ts ≠ [] →
      ∃ ts' s', readManyD H.pw ts.length s = .ok (ts', s') ∧ List.Forall₂ R ts ts' ∧
        s'.hasTrace = false ∧ s'.hasRecord = false := by
  intro ts
  induction ts with
  | nil => intro _; exact ⟨[], .nil, fun s _ _ _ h => absurd rfl h⟩
  | cons t ts ih =>
    intro hall
    obtain ⟨b, w1, r1⟩ := hall t (List.mem_cons_self ..)
    obtain ⟨bs, w2, r2⟩ := ih (fun x hx => hall x (List.mem_cons_of_mem _ hx))
    refine ⟨b :: bs, .cons w1 w2, fun s hs ha hcount _ => ?_⟩
    rw [List.flatten_cons] at ha
    obtain ⟨t', p, hR, hb, ha'⟩ := r1 s _ hs ha
    simp only [List.length_cons] at hcount ⊢
    by_cases hts : ts = []
    · subst hts
      cases w2
      refine ⟨[t'], { s.at p with chansIn := 0, chansRead := 0, chSets := [] }, ?_,
        .cons hR .nil, ?_, ?_⟩
      · have hend : p = s.file.data.length := by
          obtain ⟨pre, hpre⟩ := ha'
          have hpre' : (⟨s.file.data, p⟩ : File) = ⟨pre ++ [], pre.length⟩ := hpre
          simp only [File.mk.injEq, List.append_nil] at hpre'
          rw [hpre'.1, hpre'.2]
        have hadv : ISegd.advance (s.at p) =
            .ok { s.at p with chansIn := 0, chansRead := 0, chSets := [] } := by
          unfold ISegd.advance
          have hc : (s.at p).chansIn = (s.at p).chansRead + 1 := hcount.symm
          simp only
          rw [if_pos hc]
          have : (ISegd.hasRecord { s.at p with chansIn := 0, chansRead := 0, chSets := [] }) = false := by
            simp [ISegd.hasRecord, ISegd.at, hend]
          rw [if_neg (by rw [this]; decide)]
        simp only [List.length_nil, readManyD, readTraceD]
        rw [hb, ok_bind]
        simp only
        rw [hadv]
        rfl
      · rfl
      · obtain ⟨pre, hpre⟩ := ha'
        have hpre' : (⟨s.file.data, p⟩ : File) = ⟨pre ++ [], pre.length⟩ := hpre
        simp only [File.mk.injEq, List.append_nil] at hpre'
        simp [ISegd.hasRecord, ISegd.at, hpre'.1, hpre'.2]
    · have hpos : 0 < ts.length := List.length_pos_iff.2 hts
      obtain ⟨ts', s', k1, k2, k3, k4⟩ := r2 { s.at p with chansRead := s.chansRead + 1 }
        ⟨hs.gh1, hs.rev, hs.extMap, hs.chSets⟩ (ahead_with ha' rfl)
        (by change s.chansRead + 1 + ts.length = s.chansIn; omega) hts
      refine ⟨t' :: ts', s', ?_, .cons hR k2, k3, k4⟩
      have hadv : ISegd.advance (s.at p) = .ok { s.at p with chansRead := s.chansRead + 1 } := by
        unfold ISegd.advance
        have hc : ¬ (s.at p).chansIn = (s.at p).chansRead + 1 := by
          change ¬ s.chansIn = s.chansRead + 1; omega
        simp only
        rw [if_neg hc]
        rfl
      simp only [readManyD, readTraceD]
      rw [hb, ok_bind]
      simp only
      rw [hadv, ok_bind]
      change readManyD H.pw ts.length { s.at p with chansRead := s.chansRead + 1 } >>= _ = _
      rw [k1]
      rfl

end Sedaman
