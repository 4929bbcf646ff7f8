import Verif.Spec.Chain
import Verif.Lemmas.Rewrite
import Verif.Props.Collect

/-!
# C122: chains of conversions of SEG-Y files
-/

namespace Sedaman.Props
open Sedaman Sedaman.Spec

private theorem kept_trans {a b c : Int} (h1 : b ∈ keptBy a) (h2 : c ∈ keptBy b) : c ∈ keptBy a := by
  have key : ∀ a ∈ ([16, 11, 15, 10, 8, 3, 7, 5, 1, 2, 6, 9, 12] : List Int), ∀ b ∈ keptBy a, ∀ c ∈ keptBy b,
      c ∈ keptBy a := by decide +kernel
  refine key a ?_ b h1 c h2
  unfold keptBy at h1
  split at h1 <;> simp_all

/-- What is known of a trace that was read from a file. -/
private structure Ready (fmt : Int) (fields : List HField) (t : Trace) : Prop where
  header : ReadHeader fields t.header
  samples : ∀ fmt' ∈ keptBy fmt, ∀ est bo, ∀ x ∈ t.samples, Survives est fmt' bo x
  small : t.samples.length < 2 ^ 60

private theorem ready_of {data : Bytes} {ub : Option BinHeader} {m : HdrMap} {b : HBlock} {r : Reader} {ts : List Trace}
    (h : ReadOut data ub m b r ts) {t : Trace} (ht : t ∈ ts) : Ready r.bh.formatCode b.fields t := by
  obtain ⟨s, s', a1, a2, a3, -, -, a7⟩ := readOut_trace h ht
  exact ⟨a7, fun fmt hf est bo => C79_traces data ub m s s' t a1 a2 fmt (by rw [a3]; exact hf) est bo, readOut_small h ht⟩

private theorem ready_same {fmt fmt' : Int} {fields fields' : List HField} {t u : Trace} (h : Ready fmt fields t)
    (hs : SameTrace t u) (hk : fmt' ∈ keptBy fmt) (hh : Holds fields fields') : Ready fmt' fields' u := by
  obtain ⟨e1, e2⟩ := hs
  refine ⟨⟨fun g hg k' hk' => ?_, fun n hn => ?_⟩, fun f hf est bo x hx => ?_, by rw [e1]; exact h.small⟩
  · obtain ⟨f, hf, hn⟩ := List.mem_map.1 ((hh.names g.name).2 (List.mem_map_of_mem hg))
    obtain ⟨k, k2, h1, h2, h3⟩ := hh.types f hf g hg hn.symm
    rw [hk'] at h2
    cases h2
    obtain ⟨v, v1, v2⟩ := h.header.mapped f hf k h1
    exact ⟨v, by rw [e2, ← hn]; exact v1, h3 v v2⟩
  · rw [e2]
    exact h.header.other n (mt (hh.names n).1 hn)
  · rw [e1] at hx
    exact h.samples f (kept_trans hk hf) est bo x hx

private theorem tells_same {T : Target} {t u : Trace} (h : T.Tells t) (hs : SameTrace t u) : T.Tells u := by
  obtain ⟨e1, e2⟩ := hs
  unfold Target.Tells LengthKnown at h ⊢
  rw [e1, e2]
  exact h

private theorem one_step {est : LogEst} {T : Target} (hT : T.Ok) {fmt : Int} {fields : List HField} {ts : List Trace}
    (hts : ∀ t ∈ ts, Ready fmt fields t) (hk : T.bh.formatCode ∈ keptBy fmt) (hh : Holds fields T.block.fields)
    (htell : ∀ t ∈ ts, T.Tells t) :
    ∃ data r us, T.write est ts = .ok data ∧ openReader data none T.map = .ok r ∧ Visits r us ∧
      List.Forall₂ SameTrace ts us := by
  have hst : ∀ t ∈ ts, Storable est T.bh.formatCode (orderOfMarker T.bh.endianness) T.block.fields t := fun t ht =>
    storable_read hh (hts t ht).header ((hts t ht).samples _ hk est _) (hts t ht).small
  have hsame : ∀ us, List.Forall₂ (TraceBack est T.bh.formatCode (orderOfMarker T.bh.endianness) T.block.fields) ts us →
      List.Forall₂ SameTrace ts us := fun us h =>
    same_all hh (fun t ht => (hts t ht).header) (fun t ht => (hts t ht).samples _ hk est _) h
  unfold Target.Tells at htell
  unfold Target.write
  rcases hT.revision with ⟨h0, h1, h2, h3⟩ | ⟨h0, h1, h2⟩ | ⟨h0, h1, h2, h3, h4, h5⟩
  · simp only [if_pos h0] at htell ⊢
    obtain ⟨w0, w, r, us, g1, g2, g3, -, -, g4, g5⟩ := C20_roundtrip_partial est T.text T.bh T.map T.block ts
      (hT.texts _ List.mem_cons_self) hT.header hT.map h0 h1 h2 h3 (fun t ht => ⟨hst t ht, htell t ht⟩)
    refine ⟨w.file.data, r, us, ?_, g3, g5, hsame us g4⟩
    rw [g1, ok_bind, g2, ok_bind]
    rfl
  · have hn : ¬ T.bh.revMajor = 0 := by omega
    simp only [if_neg hn] at htell ⊢
    rw [if_pos h0]
    obtain ⟨w0, w, r, us, g1, g2, g3, -, -, g4, g5⟩ := C21_roundtrip_partial est T.text T.exts T.bh T.map T.block ts
      hT.texts hT.few hT.header hT.map h0 h1 h2 (fun t ht => ⟨hst t ht, htell t ht⟩)
    refine ⟨w.file.data, r, us, ?_, g3, g5, hsame us g4⟩
    rw [g1, ok_bind, g2, ok_bind]
    rfl
  · have hn : ¬ T.bh.revMajor = 0 := by omega
    simp only [if_neg hn] at htell ⊢
    rw [if_neg (by omega)]
    obtain ⟨w0, w, out, r, us, g1, g2, g3, g4, -, -, -, g5, g6⟩ := C22_roundtrip_partial est T.text T.exts T.bh T.map
      T.block ts hT.texts hT.few hT.header hT.map h0 h1 h2 h3 h4 h5 (fun t ht => ⟨hst t ht, htell t ht⟩)
    refine ⟨out, r, us, ?_, g4, g6, hsame us g5⟩
    rw [g1, ok_bind, g2, ok_bind]
    exact g3

private theorem visits_one {r : Reader} {ts us : List Trace} (h1 : Visits r ts) (h2 : Visits r us) : ts = us := by
  induction ts generalizing r us with
  | nil =>
    cases us with
    | nil => rfl
    | cons u us =>
      have e : hasTrace r = false := h1
      rw [h2.1] at e
      cases e
  | cons t ts ih =>
    cases us with
    | nil =>
      have e : hasTrace r = false := h2
      rw [h1.1] at e
      cases e
    | cons u us =>
      obtain ⟨-, ⟨r1, a1, a2⟩, -⟩ := h1
      obtain ⟨-, ⟨r2, b1, b2⟩, -⟩ := h2
      rw [a1] at b1
      cases b1
      rw [ih a2 b2]

private theorem same_trans {ts us vs : List Trace} (h1 : List.Forall₂ SameTrace ts us) (h2 : List.Forall₂ SameTrace us vs) :
    List.Forall₂ SameTrace ts vs := by
  induction h1 generalizing vs with
  | nil => exact h2
  | cons a _ ih =>
    cases h2 with
    | cons b h2 => exact .cons ⟨b.1.trans a.1, fun n => (b.2 n).trans (a.2 n)⟩ (ih h2)

private theorem chain {est : LogEst} {Ts : List Target} (hT : ∀ T ∈ Ts, T.Ok) {fmt : Int} {fields : List HField}
    {ts : List Trace} (hts : ∀ t ∈ ts, Ready fmt fields t) (hw : Widening fmt fields Ts)
    (htell : ∀ T ∈ Ts, ∀ t ∈ ts, T.Tells t) :
    (∃ vs, Chain est Ts ts vs) ∧ ∀ vs, Chain est Ts ts vs → List.Forall₂ SameTrace ts vs := by
  induction Ts generalizing fmt fields ts with
  | nil =>
    refine ⟨⟨ts, rfl⟩, fun vs h => ?_⟩
    cases (show vs = ts from h)
    exact List.forall₂_same.2 fun _ _ => ⟨rfl, fun _ => rfl⟩
  | cons T Ts ih =>
    obtain ⟨w1, w2, w3⟩ := hw
    obtain ⟨data, r, us, g1, g2, g3, g4⟩ := one_step (est := est) (hT T List.mem_cons_self) hts w1 w2
      (htell T List.mem_cons_self)
    have hmem : ∀ u ∈ us, ∃ t ∈ ts, SameTrace t u := fun u hu => forall₂_mem_right g4 hu
    obtain ⟨i1, i2⟩ := ih (fun T h => hT T (List.mem_cons_of_mem _ h)) (ts := us)
      (fun u hu => by
        obtain ⟨t, ht, hs⟩ := hmem u hu
        exact ready_same (hts t ht) hs w1 w2) w3
      (fun T' h u hu => by
        obtain ⟨t, ht, hs⟩ := hmem u hu
        exact tells_same (htell T' (List.mem_cons_of_mem _ h) t ht) hs)
    refine ⟨?_, fun vs h => ?_⟩
    · obtain ⟨vs, h⟩ := i1
      exact ⟨vs, data, r, us, g1, g2, g3, h⟩
    · obtain ⟨data', r', us', k1, k2, k3, k4⟩ := h
      rw [g1] at k1
      cases k1
      rw [g2] at k2
      cases k2
      cases visits_one g3 k3
      exact same_trans g4 (i2 vs k4)

/-- **C122 (part).** The traces of a file of any content are written to a second file, those read from it to a third, and
so on any number of times, each with its own revision, text headers, byte order, sample format and header map. If every
format keeps the values of the one before, every map holds them, and every file tells the lengths, then no step fails, and
the traces read from the last file are those of the first. -/
theorem C122_partial (est : LogEst) (data : Bytes) (ub : Option BinHeader) (m : HdrMap) (b : HBlock) (r : Reader)
    (ts : List Trace) (hread : ReadOut data ub m b r ts) (Ts : List Target) (hT : ∀ T ∈ Ts, T.Ok)
    (hw : Widening r.bh.formatCode b.fields Ts) (htell : ∀ T ∈ Ts, ∀ t ∈ ts, T.Tells t) :
    (∃ vs, Chain est Ts ts vs) ∧ ∀ vs, Chain est Ts ts vs → List.Forall₂ SameTrace ts vs :=
  chain hT (fun _ ht => ready_of hread ht) hw htell

/-- **C122.** A chain of conversions has at most one result, whatever the headers, formats and maps are: converting the same
traces again the same way gives the same traces. -/
theorem C122_one_result (est : LogEst) (Ts : List Target) (ts vs ws : List Trace) (h1 : Chain est Ts ts vs)
    (h2 : Chain est Ts ts ws) : vs = ws := by
  induction Ts generalizing ts with
  | nil => exact (show vs = ts from h1).trans (show ws = ts from h2).symm
  | cons T Ts ih =>
    obtain ⟨data, r, us, a1, a2, a3, a4⟩ := h1
    obtain ⟨data', r', us', b1, b2, b3, b4⟩ := h2
    rw [a1] at b1
    cases b1
    rw [a2] at b2
    cases b2
    cases visits_one a3 b3
    exact ih us a4 b4

/-- **C122.** A chain can be interrupted at any file and taken up again from the traces read there. -/
theorem C122_interrupted (est : LogEst) (Ts Us : List Target) (ts vs : List Trace) :
    Chain est (Ts ++ Us) ts vs ↔ ∃ us, Chain est Ts ts us ∧ Chain est Us us vs := by
  induction Ts generalizing ts with
  | nil => exact ⟨fun h => ⟨ts, rfl, h⟩, fun ⟨us, h1, h2⟩ => (show us = ts from h1) ▸ h2⟩
  | cons T Ts ih =>
    constructor
    · rintro ⟨data, r, us, a1, a2, a3, a4⟩
      obtain ⟨xs, h1, h2⟩ := (ih us).1 a4
      exact ⟨xs, ⟨data, r, us, a1, a2, a3, h1⟩, h2⟩
    · rintro ⟨xs, ⟨data, r, us, a1, a2, a3, h1⟩, h2⟩
      exact ⟨data, r, us, a1, a2, a3, (ih us).2 ⟨xs, h1, h2⟩⟩

/-! ## An example -/

/-- Revision 2, little endian, IEEE single precision, and another map. -/
def exTarget2 : Target := ⟨exText, [], exNewHeader, [exMoved], exMoved⟩

/-- Revision 1, big endian, IEEE double precision, one extended text header. -/
def exTarget1 : Target := ⟨exText, [exText], { formatCode := 6, revMajor := 1, extTextHeadersNum := 1 }, [exMoved], exMoved⟩

private theorem moved_map (bh : BinHeader) (h : bh.maxNumAddTrHeaders = 0) : MapOk bh [exMoved] exMoved :=
  ⟨rfl, C13_accepts_safe_maps _ _ (fun _ h' => absurd h h') (by decide +kernel), by decide +kernel, by decide +kernel⟩

private theorem moved_holds : Holds exMoved.fields exMoved.fields := by
  refine ⟨fun n => Iff.rfl, fun f hf f' hf' hn => ?_⟩
  simp only [exMoved, List.mem_cons, List.not_mem_nil, or_false] at hf hf'
  rcases hf with rfl | rfl <;> rcases hf' with rfl | rfl
  · exact ⟨.i32, .i32, rfl, rfl, fun _ h => h⟩
  · exact absurd hn (by decide)
  · exact absurd hn (by decide)
  · exact ⟨.i64, .i64, rfl, rfl, fun _ h => h⟩

private theorem moved_tells {T : Target} (hb : T.block = exMoved) (hr : T.bh.revMajor ≠ 0) (hv : T.bh.fixedTrLength = 0) :
    ∀ t ∈ [exNeg, exC1], T.Tells t := by
  have hk : ∀ t : Trace, t.header.get "SAMP_NUM" = some (.int t.samples.length) → t.samples.length < 100 →
      T.Tells t := fun t h1 h2 => by
    unfold Target.Tells LengthKnown
    rw [if_neg hr, if_neg (by rw [hv]; simp), hb]
    refine ⟨h1, ⟨0, "SAMP_NUM", .i32⟩, .head _, rfl, .i32, rfl, ?_⟩
    simp only [IntKind.InRange, IntKind.signed, IntKind.size, reduceCtorEq, if_true, if_false]
    omega
  intro t ht
  simp only [List.mem_cons, List.not_mem_nil, or_false] at ht
  rcases ht with rfl | rfl <;> exact hk _ (by decide +kernel) (by decide +kernel)

/-- A big endian revision 1 file of 16 bit integers becomes a revision 2 file, then a revision 1 file, and a revision 1 file
again. -/
private theorem exChain : ∃ vs, Chain (.strict fun _ => 0) [exTarget2, exTarget1, exTarget1] [exNeg, exC1] vs ∧
    List.Forall₂ SameTrace [exNeg, exC1] vs := by
  obtain ⟨r, hr, e⟩ := exOld_read
  have h2 : exTarget2.Ok := ⟨by decide +kernel, by decide, ⟨by decide, .inr rfl, by decide⟩, moved_map _ rfl,
    .inr (.inr ⟨by decide, .inl rfl, by unfold ExtendedOk; decide, rfl, rfl, .inl rfl⟩)⟩
  have h1 : exTarget1.Ok := ⟨by decide +kernel, by decide, ⟨by decide, .inl rfl, by decide⟩, moved_map _ rfl,
    .inr (.inl ⟨rfl, .inl rfl, by unfold ExtendedOk; decide⟩)⟩
  obtain ⟨⟨vs, a⟩, b⟩ := C122_partial (.strict fun _ => 0) exOld none exMap exB r _ hr [exTarget2, exTarget1, exTarget1]
    (fun T hT => by
      simp only [List.mem_cons, List.not_mem_nil, or_false] at hT
      rcases hT with rfl | rfl | rfl
      · exact h2
      · exact h1
      · exact h1)
    ⟨by rw [e]; decide, exHolds, by decide, moved_holds, by decide, moved_holds, trivial⟩
    (fun T hT => by
      simp only [List.mem_cons, List.not_mem_nil, or_false] at hT
      rcases hT with rfl | rfl | rfl <;> exact moved_tells rfl (by decide) rfl)
  exact ⟨vs, a, b vs a⟩

example : ∃ vs, Chain (.strict fun _ => 0) [exTarget2, exTarget1, exTarget1] [exNeg, exC1] vs ∧
    List.Forall₂ SameTrace [exNeg, exC1] vs := exChain

/-- The same chain has one result, and can be interrupted after the first file. -/
example : ∃ us vs, Chain (.strict fun _ => 0) [exTarget2] [exNeg, exC1] us ∧
    Chain (.strict fun _ => 0) [exTarget1, exTarget1] us vs ∧
    ∀ ws, Chain (.strict fun _ => 0) [exTarget2, exTarget1, exTarget1] [exNeg, exC1] ws → ws = vs := by
  obtain ⟨vs, h, -⟩ := exChain
  obtain ⟨us, h1, h2⟩ := (C122_interrupted _ [exTarget2] [exTarget1, exTarget1] _ _).1 h
  exact ⟨us, vs, h1, h2, fun ws hw => C122_one_result _ _ _ _ _ hw h⟩

/-- **C122 fails for formats that do not keep the values.** The sample 1.5 passes through a file of integers, and becomes
another number for good. -/
theorem C122_narrow :
    (do let data ← exTarget2.write (.strict fun _ => 0) [⟨[("FFID", .int 8), ("SAMP_NUM", .int 1)], [0x3FF8000000000000]⟩]
        let r ← openReader data none [exMoved]
        let (t, _) ← readTrace r
        let data ← { exTarget2 with bh := { exNewHeader with formatCode := 2 } }.write (.strict fun _ => 0) [t]
        let r ← openReader data none [exMoved]
        let (u, _) ← readTrace r
        let data ← exTarget2.write (.strict fun _ => 0) [u]
        let r ← openReader data none [exMoved]
        let (v, _) ← readTrace r
        pure (decide (t.samples = [0x3FF8000000000000] ∧ v.samples = [0x3FF0000000000000]))) = .ok true := by
  decide +kernel

end Sedaman.Props
