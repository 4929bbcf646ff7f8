import Verif.Lemmas.SegdJoin
import Verif.Lemmas.SegdDisk
import Verif.Props.SegdE2E
import Verif.Props.SegdRecord

/-!
# C88: SEG-D files joined one behind the other
-/

namespace Sedaman.Props

open Spec

theorem gives_join {pw : Dbl → Dbl} {m : ExtMap} {d1 d2 : Bytes} {ts1 ts2 : List Trace}
    (h1 : GivesTraces pw m d1 ts1) (h2 : GivesTraces pw m d2 ts2) :
    GivesTraces pw m (d1 ++ d2) (ts1 ++ ts2) := by
  obtain ⟨n1, s1, o1, r1⟩ := h1
  obtain ⟨n2, s2, o2, r2⟩ := h2
  have hd : s1.file.data = d1 := (readHeaders_ok o1).1
  have hm : s1.extMap = m := (readHeaders_ok o1).2.1
  have hroom : s1.file.pos + 20 ≤ s1.file.data.length := by
    cases ts1 with
    | nil => exact absurd rfl n1
    | cons t ts =>
      obtain ⟨-, -, _, g3, -⟩ := r1
      exact readTraceD_room g3
  have hj := readsAll_join o2 r2 n1 hm (by omega) r1
  rw [hd] at hj hroom
  refine ⟨by simp [n1], s1.on (d1 ++ d2), ?_, hj⟩
  refine openSegd_on (d := d1 ++ d2) o1 ?_
  change List.take s1.file.pos (d1 ++ d2) = List.take s1.file.pos d1
  rw [List.take_append_of_le_length (by omega)]

/-- **C88.** Files that open and give traces until they end, put one behind the other: the long file opens and
gives the traces of all files, in this order, and then ends. Missing: files with a record without traces
(`C88_empty_record`), without general header 2 or with the escape value for skew blocks before revision 3
(`C88_stale_revision`). -/
theorem C88_joined_partial (pw : Dbl → Dbl) (m : ExtMap) (files : List (Bytes × List Trace)) (hne : files ≠ [])
    (h : ∀ x ∈ files, GivesTraces pw m x.1 x.2) :
    GivesTraces pw m (files.map Prod.fst).flatten (files.map Prod.snd).flatten := by
  induction files with
  | nil => exact absurd rfl hne
  | cons x xs ih =>
    cases xs with
    | nil => simpa using h x (List.mem_cons_self ..)
    | cons y ys =>
      exact gives_join (h x (List.mem_cons_self ..))
        (ih (by simp) fun z hz => h z (List.mem_cons_of_mem _ hz))

/-- The file of one record, read to its end. -/
theorem traces_all {H : Host} {a : OSegdArgs} {R : Trace → Trace → Prop} :
    ∀ (ts : List Trace), (∀ t ∈ ts, ∃ bytes, Writable H a t bytes ∧ ∀ (s : ISegd) (rest : Bytes),
      InRecord a s → Ahead s (bytes ++ rest) →
      ∃ t' p, R t t' ∧ readTraceBody H.pw s = .ok (t', s.at p) ∧ Ahead (s.at p) rest) →
    ∃ bytes, List.Forall₂ (Writable H a) ts bytes ∧ ∀ (s : ISegd), InRecord a s → OnItsOwn s →
      Ahead s bytes.flatten → s.chansRead + ts.length = s.chansIn → ts ≠ [] →
      ∃ back, ReadsAll H.pw s back ∧ List.Forall₂ R ts back := by
  intro ts
  induction ts with
  | nil => intro _; exact ⟨[], .nil, fun s _ _ _ _ h => absurd rfl h⟩
  | cons t ts ih =>
    intro hall
    obtain ⟨b, w1, r1⟩ := hall t (List.mem_cons_self ..)
    obtain ⟨bs, w2, r2⟩ := ih (fun x hx => hall x (List.mem_cons_of_mem _ hx))
    refine ⟨b :: bs, .cons w1 w2, fun s hs ho ha hcount _ => ?_⟩
    rw [List.flatten_cons] at ha
    simp only [List.length_cons] at hcount
    have ht : s.hasTrace = true := decide_eq_true (by omega)
    obtain ⟨t', p, hR, hbody, ha'⟩ := r1 s _ hs ha
    by_cases hlast : s.chansIn = s.chansRead + 1
    · have hts : ts = [] := List.length_eq_zero_iff.1 (by omega)
      subst hts
      cases w2
      have hend : p = s.file.data.length := by
        obtain ⟨pre, hpre⟩ := ha'
        have hpre' : (⟨s.file.data, p⟩ : File) = ⟨pre ++ [], pre.length⟩ := hpre
        simp only [File.mk.injEq, List.append_nil] at hpre'
        rw [hpre'.1, hpre'.2]
      have hrec : (ISegd.hasRecord { s.at p with chansIn := 0, chansRead := 0, chSets := [] }) = false := by
        simp [ISegd.hasRecord, ISegd.at, hend]
      refine ⟨[t'], ⟨ho, ht, { s.at p with chansIn := 0, chansRead := 0, chSets := [] }, ?_,
        ⟨ho.gh2, ho.skew, ho.scans⟩, rfl, hrec, rfl⟩, .cons hR .nil⟩
      unfold readTraceD ISegd.advance
      rw [hbody, ok_bind]
      simp only
      rw [if_pos (show (s.at p).chansIn = (s.at p).chansRead + 1 from hlast), if_neg (by rw [hrec]; decide)]
      rfl
    · obtain ⟨back, k1, k2⟩ := r2 { s.at p with chansRead := s.chansRead + 1 }
        ⟨hs.gh1, hs.rev, hs.extMap, hs.chSets⟩ ⟨ho.gh2, ho.skew, ho.scans⟩ ha'
        (by change s.chansRead + 1 + ts.length = s.chansIn; omega)
        (by rintro rfl; simp only [List.length_nil] at hcount; omega)
      refine ⟨t' :: back, ⟨ho, ht, _, ?_, k1⟩, .cons hR k2⟩
      unfold readTraceD ISegd.advance
      rw [hbody, ok_bind]
      simp only
      rw [if_neg (show ¬ (s.at p).chansIn = (s.at p).chansRead + 1 from hlast)]
      rfl

/-- From round trips of the single traces to joined files. -/
theorem written_joined {H : Host} {m : ExtMap} {R : RecordIn → Trace → Trace → Prop} (hlg : LogOk H.lg)
    {recs : List RecordIn} (hne : recs ≠ []) (hr : ∀ r ∈ recs, RecordInFits m r)
    (hts : ∀ r ∈ recs, ∀ t ∈ r.traces, ∃ bytes, Writable H r.args t bytes ∧ ∀ (s : ISegd) (rest : Bytes),
      InRecord r.args s → Ahead s (bytes ++ rest) →
      ∃ t' p, R r t t' ∧ readTraceBody H.pw s = .ok (t', s.at p) ∧ Ahead (s.at p) rest) :
    ∃ files back, List.Forall₂ (WritesFile H) recs files ∧
      List.Forall₂ (fun r ts => List.Forall₂ (R r) r.traces ts) recs back ∧
      GivesTraces H.pw m files.flatten back.flatten := by
  have one : ∀ r ∈ recs, ∃ d ts, WritesFile H r d ∧ List.Forall₂ (R r) r.traces ts ∧
      GivesTraces H.pw m d ts := by
    intro r hmem
    have hf := hr r hmem
    obtain ⟨w, hw, ho⟩ := headers_rt hlg hf.headers
    obtain ⟨bytes, hbw, hbr⟩ := traces_all r.traces (hts r hmem)
    have hall := hf.all
    have hfew := hf.few
    obtain ⟨e1, e2⟩ := C51_all_accepted_partial H r.args w r.traces bytes hw (by omega) (by omega) hbw
    obtain ⟨f, g1, g2, g3, g4, g5, g6, g7⟩ := ho m bytes.flatten
    have hpos : 0 < r.traces.length := List.length_pos_iff.2 hf.some
    have hown : OnItsOwn f := by
      have ht := hf.headers.typed
      have hskew : r.args.gh1.skewBlocks % 100 = r.args.gh1.skewBlocks :=
        congrArg GenHdr1.skewBlocks hf.headers.stored
      refine ⟨?_, .inr ?_, ?_⟩
      · rw [g2.gh1, hf.headers.count]; omega
      · rw [g2.gh1]; omega
      · rw [g2.gh1, ← hf.headers.scanTypes]
        cases hc : r.args.chSets with
        | nil => rw [hc] at hall; rw [hall] at hpos; exact absurd hpos (by decide)
        | cons x xs => simp only [List.length_cons]; omega
    obtain ⟨back, k1, k2⟩ := hbr f ⟨g2.gh1, g4, g3.trans hf.extMap.symm, g2.chSets⟩ hown g7
      (by rw [g6, g5, ← hall]; omega) hf.some
    refine ⟨(Spec.writeAll H r.traces w).2.out, back, ⟨w, hw, e1, rfl⟩, k2, ?_, f, ?_, k1⟩
    · rintro rfl
      cases h : r.traces with
      | nil => exact hf.some h
      | cons x xs => rw [h] at k2; cases k2
    · rw [e2]; exact g1
  clear hr hts
  induction recs with
  | nil => exact absurd rfl hne
  | cons r rs ih =>
    obtain ⟨d, ts, a1, a2, a3⟩ := one r (List.mem_cons_self ..)
    cases rs with
    | nil => exact ⟨[d], [ts], .cons a1 .nil, .cons a2 .nil, by simpa using a3⟩
    | cons r2 rs =>
      obtain ⟨ds, tss, b1, b2, b3⟩ := ih (by simp) fun z hz => one z (List.mem_cons_of_mem _ hz)
      exact ⟨d :: ds, ts :: tss, .cons a1 b1, .cons a2 b2, gives_join a3 b3⟩

/-- **C88, written with extension maps.** The files of several writers, put one behind the other: the traces
of all records come back, as in C59. Missing: what `C59_maps_partial` leaves out. -/
theorem C88_maps_partial (H : Host) (m : ExtMap) (recs : List RecordIn) (n : Trace → Nat) (hlg : LogOk H.lg)
    (hroom : 32 ≤ H.room) (hne : recs ≠ []) (hr : ∀ r ∈ recs, RecordInFits m r)
    (ht : ∀ r ∈ recs, ∀ t ∈ r.traces, TraceFits H r.args t (n t) ∧ MapFits H r.args t (n t)) :
    ∃ files back, List.Forall₂ (WritesFile H) recs files ∧
      List.Forall₂ (fun r ts => List.Forall₂ (fun t t' => MapBack r.args (n t) t t') r.traces ts) recs back ∧
      GivesTraces H.pw m files.flatten back.flatten :=
  written_joined (R := fun r t t' => MapBack r.args (n t) t t') hlg hne hr fun r hmem t htm =>
    map_trace_rt hroom (ht r hmem t htm).1 (ht r hmem t htm).2

/-- **C88, written with the standard extension block.** Missing: what `C59_standard_partial` leaves out. -/
theorem C88_standard_partial (H : Host) (recs : List RecordIn) (n line point idx sensor : Trace → Nat)
    (hlg : LogOk H.lg) (hroom : 32 ≤ H.room) (hne : recs ≠ []) (hr : ∀ r ∈ recs, RecordInFits [] r)
    (ht : ∀ r ∈ recs, ∀ t ∈ r.traces, TraceFits H r.args t (n t) ∧
      StdExtFits r.args t (line t) (point t) (idx t) (sensor t)) :
    ∃ files back, List.Forall₂ (WritesFile H) recs files ∧
      List.Forall₂ (fun r ts => List.Forall₂
        (fun t t' => StdBack t t' (line t) (point t) (idx t) (sensor t)) r.traces ts) recs back ∧
      GivesTraces H.pw [] files.flatten back.flatten :=
  written_joined (R := fun _ t t' => StdBack t t' (line t) (point t) (idx t) (sensor t)) hlg hne hr
    fun r hmem t htm => std_trace_rt hroom (ht r hmem t htm).1 (ht r hmem t htm).2

/-! ## Concrete cases -/

/-- The record of the example of C59 with the standard extension block. -/
def segdRecordIn : RecordIn := ⟨segdArgsExample, [ghNExample], [segdTraceExample, segdTraceExample]⟩

theorem segdRecordIn_fits : RecordInFits [] segdRecordIn :=
  ⟨rfl, recordFitsExample [], by decide, rfl, by decide⟩

/-- Three files of two traces each. -/
theorem threeRecords : ∃ files back, List.Forall₂ (WritesFile hostExample) [segdRecordIn, segdRecordIn, segdRecordIn] files ∧
    List.Forall₂ (fun (r : RecordIn) ts => List.Forall₂ (fun t t' => StdBack t t' 0 0 0 0) r.traces ts)
      [segdRecordIn, segdRecordIn, segdRecordIn] back ∧
    GivesTraces hostExample.pw [] files.flatten back.flatten := by
  refine C88_standard_partial hostExample _ (fun _ => 1) (fun _ => 0) (fun _ => 0) (fun _ => 0) (fun _ => 0)
    floorLog_ok (by decide) (by simp) (fun r hr => ?_) (fun r hr t ht => ?_)
  · have : r = segdRecordIn := by simpa using hr
    subst this
    exact segdRecordIn_fits
  · have : r = segdRecordIn := by simpa using hr
    subst this
    have : t = segdTraceExample := by simpa [segdRecordIn] using ht
    subst this
    exact ⟨traceFitsExample [] _ (by constructor <;> first | exact .inl rfl | exact .inr ⟨rfl, rfl⟩ | rfl),
      rfl, rfl, .inr (.inr ⟨rfl, rfl⟩), .inr (.inr ⟨rfl, rfl⟩), .inr ⟨rfl, rfl⟩, .inr ⟨rfl, rfl⟩,
      .inl rfl, by decide, by decide, by decide, by decide, by decide⟩

/-- A record with an extension map. -/
def segdMapRecordIn : RecordIn :=
  ⟨{ segdArgsExample with extMap := segdMapExample }, [ghNExample], [segdMapTrace, segdMapTrace]⟩

/-- Two files with extension maps. -/
example : ∃ files back, List.Forall₂ (WritesFile hostExample) [segdMapRecordIn, segdMapRecordIn] files ∧
    List.Forall₂ (fun (r : RecordIn) ts => List.Forall₂ (fun t t' => MapBack r.args 1 t t') r.traces ts)
      [segdMapRecordIn, segdMapRecordIn] back ∧
    GivesTraces hostExample.pw segdMapExample files.flatten back.flatten := by
  refine C88_maps_partial hostExample segdMapExample _ (fun _ => 1) floorLog_ok (by decide) (by simp)
    (fun r hr => ?_) (fun r hr t ht => ?_)
  · have : r = segdMapRecordIn := by simpa using hr
    subst this
    exact ⟨rfl, recordFitsExample _, by decide, rfl, by decide⟩
  · have : r = segdMapRecordIn := by simpa using hr
    subst this
    have : t = segdMapTrace := by simpa [segdMapRecordIn] using ht
    subst this
    refine ⟨traceFitsExample _ _ (by constructor <;> first | exact .inl rfl | exact .inr ⟨rfl, rfl⟩ | rfl),
      by decide, by decide, by decide, by decide, by decide, ?_,
      ⟨⟨3, "SAMP_NUM", .u24⟩, by decide, .u24, rfl, rfl, by decide, rfl⟩⟩
    intro fs hfs f hf
    simp only [segdMapRecordIn, segdMapExample, List.take, List.mem_cons, List.not_mem_nil, or_false] at hfs
    subst hfs
    simp only [List.mem_cons, List.not_mem_nil, or_false] at hf
    rcases hf with rfl | rfl
    · exact ⟨2, rfl⟩
    · exact ⟨-1200, rfl⟩

/-- Reads at most `n` traces while `has_trace()` is true: the numbers of their samples, and what `has_trace()`
and `has_record()` return afterwards. -/
def sampleCounts : Nat → ISegd → Out (List Nat × Bool × Bool)
  | 0, s => .ok ([], s.hasTrace, s.hasRecord)
  | n + 1, s =>
    if s.hasTrace then do
      let (t, s1) ← readTraceD hostExample.pw s
      let (l, r) ← sampleCounts n s1
      pure (t.samples.length :: l, r)
    else .ok ([], s.hasTrace, s.hasRecord)

/-- Two files of two traces each: four traces come, then the file ends. -/
example : (do let d ← segdFileOf segdArgsExample
              let s ← openSegd (d ++ d) []
              sampleCounts 9 s) = .ok ([2, 2, 2, 2], false, false) := by decide +kernel

/-- A record whose channel set has no channels. -/
def emptyRecord : Out Bytes :=
  (openSegdWriter hostExample 0 { segdArgsExample with
    chSets := [[{ chSetExample with numberOfChannels := 0 }]] }).map OSegd.out

/-- **C88, counterexample.** A record without traces hides all records behind it: `has_trace()` is false and
nothing but `read_trace()` moves on, although `has_record()` is true. -/
theorem C88_empty_record :
    (do let d ← segdFileOf segdArgsExample
        let e ← emptyRecord
        let s ← openSegd (d ++ e ++ d) []
        sampleCounts 9 s) = .ok ([2, 2], false, true) := by decide +kernel

/-- The file of the example as a record of an old revision: without general header 2, without additional
general headers and without extended headers, whose number is the escape value. -/
def oldStyle (d : Bytes) : Bytes :=
  (((d.take 32).set 11 (d.getD 11 0 &&& 0x0f)).set 30 0xff) ++ (d.drop 96).take 64 ++ d.drop 192

/-- **C88, counterexample.** A record without general header 2 gives its two traces if it is alone in the file.
Behind another file the reader takes the number of extended headers from general header 2 of that file, and the
traces are lost. -/
theorem C88_stale_revision :
    (do let d ← segdFileOf segdArgsExample
        let s ← openSegd (oldStyle d) []
        sampleCounts 9 s) = .ok ([2, 2], false, false) ∧
    (do let d ← segdFileOf segdArgsExample
        let s ← openSegd (d ++ oldStyle d) []
        sampleCounts 9 s) = throwExn .iosFailure := by decide +kernel

end Sedaman.Props
