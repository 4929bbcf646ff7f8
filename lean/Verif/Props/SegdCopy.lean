import Verif.Lemmas.SegdCopy
import Verif.Props.SegdE2E

/-!
# C84: copying SEG-D files
-/

namespace Sedaman.Props

open Spec

/-- From the traces to the file. -/
theorem copied {H : Host} {a : OSegdArgs} {ns : List GenHdrN} {ts ts' : List Trace} {f : ISegd} {w : OSegd}
    (hr : RecordFits a ns) (hw : openSegdWriter H 0 a = .ok w)
    (hok : (Spec.writeAll H ts w).1 = List.replicate ts.length (.ok ())) (hb : HeadersBack a ns f)
    (hs : List.Forall₂ (SameWritten H a) ts ts') :
    ∃ a' w', CopyArgs f a.extMap a' ∧ openSegdWriter H 0 a' = .ok w' ∧
      (Spec.writeAll H ts' w').1 = List.replicate ts'.length (.ok ()) ∧
      (Spec.writeAll H ts' w').2.out = (Spec.writeAll H ts w).2.out := by
  obtain ⟨l, l1, l2, -⟩ := hb.blocks
  have ho := open_shown hr l2 hw
  have ha : w.args = a := by
    unfold openSegdWriter at hw
    obtain ⟨m, -, hw⟩ := bind_ok hw
    by_cases hc : a.chSets.length ≠ toU 8 a.gh1.scanTypesPerRecord
    · rw [if_pos hc] at hw; cases hw
    · rw [if_neg hc] at hw
      obtain ⟨o, -, hw⟩ := bind_ok hw
      cases hw
      rfl
  have hall := writeAll_shown l hs ha
  refine ⟨shownArgs a l, _, ⟨hb.gh1.symm, hb.gh2, ⟨l, l1, rfl⟩, hb.chSets.symm, hb.extended.symm, hb.external.symm, rfl⟩,
    ho, ?_, ?_⟩
  · rw [hall, hok, hs.length_eq]
  · rw [hall]

private theorem numbers_set {H : Host} {a : OSegdArgs} {t : Trace} {n : Nat} (h : TraceFits H a t n) :
    (∃ v, t.header.get "SCAN_TYPE_NUM" = some v) ∧ (∃ v, t.header.get "CH_SET_NUM" = some v) ∧
      ∀ k, intOf t.header "TR_HDR_EXT" = .ok k → toU 1 k = n := by
  obtain ⟨⟨_, scan, _, _, _, _, _, _, _, _, _, hc, _, _, _, _, _, _, _, _, h1, _⟩, _, _, _, h8⟩ := h
  refine ⟨?_, ⟨_, hc.chSet⟩, fun k hk => ?_⟩
  · rcases hc.scan with h | ⟨-, h⟩
    · exact ⟨_, h⟩
    · omega
  · rw [intOf_headerInt hc.ext] at hk
    rw [← Except.ok.inj hk, toU_of_nat_lt (n := 1) (by omega)]

/-- **C84 (part), with extension maps.** A revision 2.1 file the library wrote, under the conditions of
C59, is opened and all its traces are read; a second writer is opened with everything the reader shows
and writes the traces it returned. The second file has the same bytes as the first.
Missing: what C59 leaves out, and files other programs wrote (`C84_unused_bytes_lost`,
`C84_trailer_fails`). -/
theorem C84_copy_maps_partial (H : Host) (a : OSegdArgs) (ns : List GenHdrN) (ts : List Trace) (n : Trace → Nat)
    (hlg : LogOk H.lg) (hroom : 32 ≤ H.room) (hr : RecordFits a ns)
    (hn : ts.length = announced a.chSets) (h64 : ts.length < 2 ^ 64)
    (ht : ∀ t ∈ ts, TraceFits H a t (n t)) (hm : ∀ t ∈ ts, MapFits H a t (n t)) :
    ∃ w f ts' e a' w', openSegdWriter H 0 a = .ok w ∧
      openSegd (Spec.writeAll H ts w).2.out a.extMap = .ok f ∧
      readManyD H.pw ts.length f = .ok (ts', e) ∧ e.hasTrace = false ∧ e.hasRecord = false ∧
      CopyArgs f a.extMap a' ∧ openSegdWriter H 0 a' = .ok w' ∧
      (Spec.writeAll H ts' w').1 = List.replicate ts'.length (.ok ()) ∧
      (Spec.writeAll H ts' w').2.out = (Spec.writeAll H ts w).2.out := by
  obtain ⟨w, hw, hok, f, hf, hb, -, ts', e, hts, hback, e1, e2⟩ := C59_maps_partial H a ns ts n hlg hroom hr hn h64 ht hm
  obtain ⟨a', w', c1, c2, c3, c4⟩ := copied (ts' := ts') hr hw hok hb (by
    rw [List.forall₂_iff_get] at hback ⊢
    refine ⟨hback.1, fun i h1 h2 => ?_⟩
    have hmem := List.get_mem ts ⟨i, h1⟩
    have hx := hback.2 i h1 h2
    generalize ts.get ⟨i, h1⟩ = t at hmem hx ⊢
    generalize ts'.get ⟨i, h2⟩ = t' at hx ⊢
    obtain ⟨q1, q2, q3⟩ := numbers_set (ht t hmem)
    refine ⟨hx.header, q1, q2, fun k hk j hj => ?_, hx.samples⟩
    rw [q3 k hk] at hj
    have hlen := (hm t hmem).enough
    have hget : a.extMap[j]? = some a.extMap[j] := List.getElem?_eq_getElem (by omega)
    unfold writeExtBlock
    rw [hget]
    simp only
    have hfs : ∀ g ∈ a.extMap[j], ∃ v w, t.header.get g.name = some v ∧ t'.header.get g.name = some w ∧
        ExtBack g.ty v w := fun g hg =>
      hx.fields g (List.mem_flatten.2 ⟨a.extMap[j], List.mem_take_iff_getElem.2 ⟨j, by omega, rfl⟩, hg⟩)
    have hne : a.extMap.isEmpty = false := by
      cases h : a.extMap with
      | nil => simp [h] at hget
      | cons _ _ => rfl
    simp only [hne, Bool.false_eq_true, if_false, extFields_back _ hfs])
  exact ⟨w, f, ts', e, a', w', hw, hf, hts, e1, e2, c1, c2, c3, c4⟩

/-- **C84 (part), with the standard extension block.** The same for traces with the extension block of
the standard. -/
theorem C84_copy_standard_partial (H : Host) (a : OSegdArgs) (ns : List GenHdrN) (ts : List Trace)
    (n line point idx sensor : Trace → Nat)
    (hlg : LogOk H.lg) (hroom : 32 ≤ H.room) (hr : RecordFits a ns)
    (hn : ts.length = announced a.chSets) (h64 : ts.length < 2 ^ 64)
    (ht : ∀ t ∈ ts, TraceFits H a t (n t))
    (hm : ∀ t ∈ ts, StdExtFits a t (line t) (point t) (idx t) (sensor t)) :
    ∃ w f ts' e a' w', openSegdWriter H 0 a = .ok w ∧
      openSegd (Spec.writeAll H ts w).2.out a.extMap = .ok f ∧
      readManyD H.pw ts.length f = .ok (ts', e) ∧ e.hasTrace = false ∧ e.hasRecord = false ∧
      CopyArgs f a.extMap a' ∧ openSegdWriter H 0 a' = .ok w' ∧
      (Spec.writeAll H ts' w').1 = List.replicate ts'.length (.ok ()) ∧
      (Spec.writeAll H ts' w').2.out = (Spec.writeAll H ts w).2.out := by
  obtain ⟨w, hw, hok, f, hf, hb, -, ts', e, hts, hback, e1, e2⟩ :=
    C59_standard_partial H a ns ts n line point idx sensor hlg hroom hr hn h64 ht hm
  obtain ⟨a', w', c1, c2, c3, c4⟩ := copied (ts' := ts') hr hw hok hb (by
    rw [List.forall₂_iff_get] at hback ⊢
    refine ⟨hback.1, fun i h1 h2 => ?_⟩
    have hmem := List.get_mem ts ⟨i, h1⟩
    have hx := hback.2 i h1 h2
    generalize ts.get ⟨i, h1⟩ = t at hmem hx ⊢
    generalize ts'.get ⟨i, h2⟩ = t' at hx ⊢
    obtain ⟨q1, q2, -⟩ := numbers_set (ht t hmem)
    obtain ⟨m1, m2, m3, m4, m5, m6, m7, m8, m9, -⟩ := hm t hmem
    refine ⟨hx.header, q1, q2, fun k hk j hj => ?_, hx.samples⟩
    rw [m1, m2]
    exact extBlock_std j m3 m4 m5 m7 m6 m8 m9 hx.line hx.point hx.idx hx.sampNum hx.sensor)
  exact ⟨w, f, ts', e, a', w', hw, hf, hts, e1, e2, c1, c2, c3, c4⟩

/-! ## Concrete cases -/

/-- Two traces with the standard extension. -/
example := C84_copy_standard_partial hostExample segdArgsExample [ghNExample] [segdTraceExample, segdTraceExample]
    (fun _ => 1) (fun _ => 0) (fun _ => 0) (fun _ => 0) (fun _ => 0) floorLog_ok (by decide)
    (recordFitsExample []) rfl (by decide)
    (fun t ht => by
      have : t = segdTraceExample := by simpa using ht
      subst this
      exact traceFitsExample [] _
        (by constructor <;> first | exact .inl rfl | exact .inr ⟨rfl, rfl⟩ | rfl))
    (fun t ht => by
      have : t = segdTraceExample := by simpa using ht
      subst this
      exact ⟨rfl, rfl, .inr (.inr ⟨rfl, rfl⟩), .inr (.inr ⟨rfl, rfl⟩), .inr ⟨rfl, rfl⟩, .inr ⟨rfl, rfl⟩,
        .inl rfl, by decide, by decide, by decide, by decide, by decide⟩)

/-- Two traces with an extension map. -/
example := C84_copy_maps_partial hostExample { segdArgsExample with extMap := segdMapExample } [ghNExample]
    [segdMapTrace, segdMapTrace] (fun _ => 1) floorLog_ok (by decide)
    (recordFitsExample _) rfl (by decide)
    (fun t ht => by
      have : t = segdMapTrace := by simpa using ht
      subst this
      exact traceFitsExample _ _
        (by constructor <;> first | exact .inl rfl | exact .inr ⟨rfl, rfl⟩ | rfl))
    (fun t ht => by
      have : t = segdMapTrace := by simpa using ht
      subst this
      refine ⟨by decide, by decide, by decide, by decide, by decide, ?_,
        ⟨⟨3, "SAMP_NUM", .u24⟩, by decide, .u24, rfl, rfl, by decide, rfl⟩⟩
      intro fs hfs f hf
      simp only [segdMapExample, List.take, List.mem_cons, List.not_mem_nil, or_false] at hfs
      subst hfs
      simp only [List.mem_cons, List.not_mem_nil, or_false] at hf
      rcases hf with rfl | rfl
      · exact ⟨2, rfl⟩
      · exact ⟨-1200, rfl⟩)

/-! ## What can go wrong -/

/-- Copy a record with `n` traces: what a program does that passes everything the reader shows to the
writer. -/
def copySegd (n : Nat) (data : Bytes) : Out Bytes := do
  let f ← openSegd data []
  let l ← f.generalHeaderN
  let (ts, _) ← readManyD hostExample.pw n f
  let w ← openSegdWriter hostExample 0 { gh1 := f.gh1, gh2 := f.generalHeader2.getD .zero, chSets := f.chSets
                                         addHdrs := l.map .n, extended := f.extended, external := f.external
                                         extMap := [] }
  pure (Spec.writeAll hostExample ts w).2.out

/-- A file with two traces; the bytes of `ts` follow. -/
def segdFile (a : OSegdArgs) : Out Bytes := do
  let w ← openSegdWriter hostExample 0 a
  pure (Spec.writeAll hostExample [segdTraceExample, segdTraceExample] w).2.out

/-- It is copied. -/
example : (do let d ← segdFile segdArgsExample
              let c ← copySegd 2 d
              pure (c.length, d.length, decide ((c.drop 250).map BitVec.toNat = (d.drop 250).map BitVec.toNat)))
    = .ok (376, 376, true) := by decide +kernel

/-- **C84, counterexample.** A byte of general header 2 the library does not know is not kept. -/
theorem C84_unused_bytes_lost :
    (do let d ← segdFile segdArgsExample
        let c ← copySegd 2 (d.set 63 7)
        pure ((d.set 63 7)[63]?, c[63]?)) = .ok (some 7, some 0) := by decide +kernel

/-- **C84, counterexample.** A general trailer is announced in general header 2 and follows the traces: it is
taken for the headers of another record, the call that reads the last trace throws and that trace is
not returned. -/
theorem C84_trailer_fails :
    (do let d ← segdFile { segdArgsExample with gh2 := { segdArgsExample.gh2 with genTrailerNumOfBlocks := 1 } }
        let f ← openSegd (d ++ List.replicate 32 7) []
        let (t, f) ← readTraceD hostExample.pw f
        pure (f.generalHeader2.map GenHdr2.genTrailerNumOfBlocks, t.samples, f.hasTrace,
          (readTraceD hostExample.pw f).map fun _ => ()))
    = .ok (some 1, segdTraceExample.samples, true, throwExn .unsupportedFormat) := by decide +kernel

end Sedaman.Props
