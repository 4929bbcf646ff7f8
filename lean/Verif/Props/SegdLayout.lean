import Verif.Spec.SegdLayout
import Verif.Lemmas.SegdLayout
import Verif.Props.SegdWriter
import Mathlib.Tactic.ByContra

/-!
# C71, C72: what the SEG-D writer accepts, and the layout of its file
-/

namespace Sedaman.Props

open Spec

theorem toU_eq_mod (w : Nat) (v : Int) : toU w v = (v % (256 ^ w : Nat)).toNat := by
  rfl

theorem setsPerScan_eq (a : OSegdArgs) : a.setsPerScan = announcedSets a := by
  unfold OSegdArgs.setsPerScan announcedSets numberOr
  rw [toU_eq_mod]

theorem extendedBlks_eq (a : OSegdArgs) : a.extendedBlks = announcedExtended a := by
  unfold OSegdArgs.extendedBlks announcedExtended numberOr
  rw [toU_eq_mod]

theorem externalBlks_eq (a : OSegdArgs) : a.externalBlks = announcedExternal a := by
  unfold OSegdArgs.externalBlks announcedExternal numberOr
  rw [toU_eq_mod]

theorem scanTypes_iff {n : Nat} {v : Int} (hn : n < 2 ^ 63) (hv : -2 ^ 31 ≤ v ∧ v < 2 ^ 31) :
    n = toU 8 v ↔ (n : Int) = v := by
  unfold toU
  omega

theorem writeChSets_total {H : Host} {a : OSegdArgs} : ∀ {l : List ChSet},
    (∀ c ∈ l, ∃ b, writeChSetHdr H a c = .ok b) → ∃ b, writeChSets H a l = .ok b := by
  intro l
  induction l with
  | nil => intro _; exact ⟨[], rfl⟩
  | cons c t ih =>
    intro h
    obtain ⟨x, hx⟩ := h c (List.mem_cons_self ..)
    obtain ⟨y, hy⟩ := ih fun c hc => h c (List.mem_cons_of_mem _ hc)
    refine ⟨x ++ y, ?_⟩
    unfold writeChSets
    rw [hx, ok_bind, hy]
    rfl

theorem writeScanTypes_total {H : Host} {a : OSegdArgs} : ∀ {l : List (List ChSet)},
    (∀ s ∈ l, ∀ c ∈ s, ∃ b, writeChSetHdr H a c = .ok b) →
    ((∀ s ∈ l, s.length = a.setsPerScan) → ∃ b, writeScanTypes H a l = .ok b) ∧
    ((¬ ∀ s ∈ l, s.length = a.setsPerScan) → writeScanTypes H a l = throwExn .channelSetCount) := by
  intro l
  induction l with
  | nil => intro _; exact ⟨fun _ => ⟨[], rfl⟩, fun h => absurd (by simp) h⟩
  | cons s t ih =>
    intro h
    obtain ⟨x, hx⟩ := writeChSets_total (h s (List.mem_cons_self ..))
    obtain ⟨i1, i2⟩ := ih fun l hl => h l (List.mem_cons_of_mem _ hl)
    unfold writeScanTypes
    refine ⟨fun hl => ?_, fun hl => ?_⟩
    · obtain ⟨y, hy⟩ := i1 fun l hm => hl l (List.mem_cons_of_mem _ hm)
      rw [if_neg (by simpa using hl s (List.mem_cons_self ..)), hx, ok_bind, hy]
      exact ⟨_, rfl⟩
    · by_cases hs : s.length = a.setsPerScan
      · rw [if_neg (by simpa using hs), hx, ok_bind, i2 fun ht => hl fun l hm => by
          rcases List.mem_cons.1 hm with rfl | hm
          · exact hs
          · exact ht l hm]
        rfl
      · rw [if_pos hs]

theorem writeBlocks32_total {hs : List Bytes} : ∀ (n i : Nat),
    (Supplied n (hs.drop i) → ∃ b, writeBlocks32 hs n i = .ok b) ∧
    (¬ Supplied n (hs.drop i) → writeBlocks32 hs n i = isUb .outOfBounds) := by
  intro n
  induction n with
  | zero => intro i; exact ⟨fun _ => ⟨[], rfl⟩, fun h => absurd ⟨Nat.zero_le _, by simp⟩ h⟩
  | succ n ih =>
    intro i
    obtain ⟨i1, i2⟩ := ih (i + 1)
    unfold writeBlocks32
    cases hx : hs[i]? with
    | none =>
      have := List.getElem?_eq_none_iff.1 hx
      refine ⟨fun h => ?_, fun _ => rfl⟩
      have := h.1
      rw [List.length_drop] at this
      omega
    | some x =>
      have hd : hs.drop i = x :: hs.drop (i + 1) := by
        obtain ⟨hlt, e⟩ := List.getElem?_eq_some_iff.1 hx
        rw [List.drop_eq_getElem_cons hlt, e]
      have hS : Supplied (n + 1) (hs.drop i) ↔ 32 ≤ x.length ∧ Supplied n (hs.drop (i + 1)) := by
        rw [hd]
        unfold Supplied
        simp only [List.length_cons, List.take_succ_cons, List.mem_cons, forall_eq_or_imp]
        constructor
        · rintro ⟨h1, h2, h3⟩; exact ⟨h2, by omega, h3⟩
        · rintro ⟨h1, h2, h3⟩; exact ⟨by omega, h1, h3⟩
      rw [hS]
      simp only
      by_cases hl : 32 ≤ x.length
      · rw [if_neg (by omega)]
        refine ⟨fun h => ?_, fun h => ?_⟩
        · obtain ⟨y, hy⟩ := i1 h.2
          rw [hy]
          exact ⟨_, rfl⟩
        · rw [i2 fun h' => h ⟨hl, h'⟩]
          rfl
      · rw [if_pos (by omega)]
        exact ⟨fun h => absurd h.1 hl, fun _ => rfl⟩

/-- The outcomes of the constructor for headers that can be written. -/
theorem openSegdWriter_outcome {H : Host} {heap : Nat} {a : OSegdArgs} (he : Encodable H a)
    (hn : a.chSets.length < 2 ^ 63)
    (hv : -2 ^ 31 ≤ a.gh1.scanTypesPerRecord ∧ a.gh1.scanTypesPerRecord < 2 ^ 31) :
    (Consistent a → Supplied (announcedExtended a) a.extended → Supplied (announcedExternal a) a.external →
      ∃ s, openSegdWriter H heap a = .ok s) ∧
    (¬ Consistent a → openSegdWriter H heap a = throwExn .channelSetCount) ∧
    (Consistent a → ¬ (Supplied (announcedExtended a) a.extended ∧ Supplied (announcedExternal a) a.external) →
      openSegdWriter H heap a = isUb .outOfBounds) := by
  obtain ⟨⟨m, bn, h1, h2⟩, ⟨w, h3⟩, ⟨b1, h4⟩, ⟨b2, h5⟩, h6⟩ := he
  obtain ⟨s1, s2⟩ := writeScanTypes_total h6
  have hS : Consistent a ↔ a.chSets.length = toU 8 a.gh1.scanTypesPerRecord ∧
      ∀ s ∈ a.chSets, s.length = a.setsPerScan := by
    unfold Consistent
    rw [scanTypes_iff hn hv, setsPerScan_eq]
  obtain ⟨e1, e2⟩ := writeBlocks32_total (hs := a.extended) (announcedExtended a) 0
  obtain ⟨x1, x2⟩ := writeBlocks32_total (hs := a.external) (announcedExternal a) 0
  rw [List.drop_zero] at e1 e2 x1 x2
  unfold openSegdWriter writeHeaders
  rw [h1, ok_bind, extendedBlks_eq, externalBlks_eq, h3, ok_bind, h4, ok_bind, h5, ok_bind, h2, ok_bind]
  rw [hS]
  refine ⟨fun hc he hx => ?_, fun hc => ?_, fun hc hb => ?_⟩
  · obtain ⟨bs, hbs⟩ := s1 hc.2
    obtain ⟨be, hbe⟩ := e1 he
    obtain ⟨bx, hbx⟩ := x1 hx
    rw [if_neg (by simpa using hc.1), hbs, ok_bind, hbe, ok_bind, hbx]
    exact ⟨_, rfl⟩
  · by_cases hl : a.chSets.length = toU 8 a.gh1.scanTypesPerRecord
    · rw [if_neg (by simpa using hl), s2 fun h => hc ⟨hl, h⟩]
      rfl
    · rw [if_pos hl]
  · obtain ⟨bs, hbs⟩ := s1 hc.2
    rw [if_neg (by simpa using hc.1), hbs, ok_bind]
    by_cases he : Supplied (announcedExtended a) a.extended
    · obtain ⟨be, hbe⟩ := e1 he
      rw [hbe, ok_bind, x2 fun hx => hb ⟨he, hx⟩]
      rfl
    · rw [e2 he]
      rfl

/-- **C71 (part).** The constructor returns only when the channel set table has the shape the general
headers announce and the announced extended and external header blocks were supplied. Missing: blocks
beyond the announced number are accepted, and left out (`C71_surplus_dropped`). -/
theorem C71_accepted_partial (H : Host) (heap : Nat) (a : OSegdArgs) (s : OSegd)
    (hn : a.chSets.length < 2 ^ 63)
    (hv : -2 ^ 31 ≤ a.gh1.scanTypesPerRecord ∧ a.gh1.scanTypesPerRecord < 2 ^ 31)
    (h : openSegdWriter H heap a = .ok s) :
    Consistent a ∧ Supplied (announcedExtended a) a.extended ∧ Supplied (announcedExternal a) a.external := by
  obtain ⟨m, b1, b2, bn, bs, be, bx, h1, h2, h3, h4, h5, h6, h7, h8, -⟩ := openSegdWriter_ok h
  refine ⟨⟨(scanTypes_iff hn hv).1 h2, ?_⟩, ?_, ?_⟩
  · rw [← setsPerScan_eq]
    exact (writeScanTypes_ok h6).1
  · by_contra hc
    have := (writeBlocks32_total (hs := a.extended) (announcedExtended a) 0).2 (by simpa using hc)
    rw [extendedBlks_eq, this] at h7
    cases h7
  · by_contra hc
    have := (writeBlocks32_total (hs := a.external) (announcedExternal a) 0).2 (by simpa using hc)
    rw [externalBlks_eq, this] at h8
    cases h8

/-- **C71 (part).** When every single header can be written, this is also enough: the constructor
returns. -/
theorem C71_accepts_partial (H : Host) (heap : Nat) (a : OSegdArgs) (he : Encodable H a)
    (hn : a.chSets.length < 2 ^ 63)
    (hv : -2 ^ 31 ≤ a.gh1.scanTypesPerRecord ∧ a.gh1.scanTypesPerRecord < 2 ^ 31) (hc : Consistent a)
    (hx : Supplied (announcedExtended a) a.extended) (hy : Supplied (announcedExternal a) a.external) :
    ∃ s, openSegdWriter H heap a = .ok s :=
  (openSegdWriter_outcome he hn hv).1 hc hx hy

/-- **C71.** A table of another shape is rejected with an exception, whatever else was given: another
number of scan types, or another number of channel sets in any of them. -/
theorem C71_inconsistent_throws (H : Host) (heap : Nat) (a : OSegdArgs) (he : Encodable H a)
    (hn : a.chSets.length < 2 ^ 63)
    (hv : -2 ^ 31 ≤ a.gh1.scanTypesPerRecord ∧ a.gh1.scanTypesPerRecord < 2 ^ 31) (hc : ¬ Consistent a) :
    openSegdWriter H heap a = throwExn .channelSetCount :=
  (openSegdWriter_outcome he hn hv).2.1 hc

/-- **C71 (counterexample).** Fewer extended or external header blocks than announced, or blocks
shorter than 32 bytes, are not rejected: the constructor reads past the end of what was supplied. -/
theorem C71_missing_blocks_undefined (H : Host) (heap : Nat) (a : OSegdArgs) (he : Encodable H a)
    (hn : a.chSets.length < 2 ^ 63)
    (hv : -2 ^ 31 ≤ a.gh1.scanTypesPerRecord ∧ a.gh1.scanTypesPerRecord < 2 ^ 31) (hc : Consistent a)
    (hb : ¬ (Supplied (announcedExtended a) a.extended ∧ Supplied (announcedExternal a) a.external)) :
    openSegdWriter H heap a = isUb .outOfBounds :=
  (openSegdWriter_outcome he hn hv).2.2 hc hb

/-- **C71 (counterexample).** A block more than announced is accepted, and the file is the same as
without it. -/
theorem C71_surplus_dropped (H : Host) (heap : Nat) (a : OSegdArgs) (s : OSegd) (more more' : List Bytes)
    (h : openSegdWriter H heap a = .ok s) :
    (openSegdWriter H heap
      { a with extended := a.extended ++ more, external := a.external ++ more' }).map OSegd.out = .ok s.out := by
  obtain ⟨m, b1, b2, bn, bs, be, bx, h1, h2, h3, h4, h5, h6, h7, h8, ho⟩ := openSegdWriter_ok h
  have key : ∀ (hs more : List Bytes) (n i : Nat) (b : Bytes), writeBlocks32 hs n i = .ok b →
      writeBlocks32 (hs ++ more) n i = .ok b := by
    intro hs more n
    induction n with
    | zero => intro i b h; exact h
    | succ n ih =>
      intro i b h
      unfold writeBlocks32 at h ⊢
      split at h
      · cases h
      · next x hx =>
        rw [List.getElem?_append_left (List.getElem?_eq_some_iff.1 hx).1, hx]
        simp only
        split at h
        · cases h
        · next hl =>
          obtain ⟨y, hy, e⟩ := bind_ok h
          rw [if_neg hl, ih _ _ hy]
          exact e
  have hset : ∀ c, writeChSetHdr H { a with extended := a.extended ++ more, external := a.external ++ more' } c
      = writeChSetHdr H a c := fun c => rfl
  have hsets : ∀ l, writeChSets H { a with extended := a.extended ++ more, external := a.external ++ more' } l
      = writeChSets H a l := by
    intro l
    induction l with
    | nil => rfl
    | cons c t ih => unfold writeChSets; rw [ih, hset]
  have hscan : ∀ l, writeScanTypes H { a with extended := a.extended ++ more, external := a.external ++ more' } l
      = writeScanTypes H a l := by
    intro l
    induction l with
    | nil => rfl
    | cons c t ih => unfold writeScanTypes; rw [ih, hsets]; rfl
  obtain ⟨m', q1, hq⟩ := bind_ok h
  rw [h1] at q1
  cases q1
  rw [if_neg (by simpa using h2)] at hq
  obtain ⟨o, hq, -⟩ := bind_ok hq
  obtain ⟨w, hw, -⟩ := bind_ok hq
  unfold openSegdWriter writeHeaders
  simp only [OSegdArgs.extendedBlks, OSegdArgs.externalBlks] at h7 h8
  simp only [OSegdArgs.extendedBlks, OSegdArgs.externalBlks]
  rw [h1, ok_bind, if_neg (by simpa using h2), hw, ok_bind, h3, ok_bind, h4, ok_bind, h5, ok_bind, hscan, h6,
    ok_bind, key _ _ _ _ _ h7, ok_bind, key _ _ _ _ _ h8, ho]
  rfl

/-- **C72.** The headers of a new file take exactly the blocks that were asked for. -/
theorem C72_header_size (H : Host) (heap : Nat) (a : OSegdArgs) (s : OSegd)
    (h : openSegdWriter H heap a = .ok s) : s.out.length = headerBytes a := by
  obtain ⟨m, b1, b2, bn, bs, be, bx, h1, h2, h3, h4, h5, h6, h7, h8, ho⟩ := openSegdWriter_ok h
  have g1 := wrBlock_length (keeps_genHdr1 _ _ _) h3
  have g2 := wrBlock_length (keeps_genHdr2 _) h4
  have g3 := writeAddHdrs_length h5
  have g4 := (writeScanTypes_ok h6).2
  have g5 := (writeBlocks32_ok h7).1
  have g6 := (writeBlocks32_ok h8).1
  rw [storeAdd_length h1] at g3
  rw [ho]
  simp only [List.length_append, g1, g2, g3, g4, g5, g6, headerBytes, setsPerScan_eq, extendedBlks_eq,
    externalBlks_eq]
  omega

theorem formatBits_of {est : PackEst} {f : Int} {bits : Nat} {w : SampleWr}
    (h : segdWriter est f = .ok (bits, w)) : (f, bits) ∈ formatBits := by
  unfold segdWriter at h
  split at h <;> cases h <;> decide

/-- **C72.** A trace that is accepted is appended behind what the file already contains, and takes
20 bytes, 32 for every extension block and the bits of its samples. -/
theorem C72_trace_size (H : Host) (t : Trace) (s s' : OSegd) (h : writeTraceD H t s = (.ok (), s')) :
    ∃ bits bytes, (s.args.gh1.formatCode, bits) ∈ formatBits ∧ s'.out = s.out ++ bytes ∧
      bytes.length = traceBytes bits t := by
  obtain ⟨b, e, x, n, m, h1, h2, h3, h4, rfl⟩ := writeTraceD_accepted h
  obtain ⟨c, -, h5⟩ := bind_ok h4
  obtain ⟨bits, w, h6, h7⟩ := writeSamplesD_length h5
  refine ⟨bits, b ++ e ++ x, formatBits_of h6, by simp, ?_⟩
  have hn : extBlocks t = toU 1 n := by
    unfold extBlocks
    unfold intOf at h2
    split at h2 <;> cases h2
    · next e => rw [e]; rfl
    · next e => rw [e]; rfl
  simp only [List.length_append, wrBlock_length (keeps_traceHdr _) h1, extIO_length h3, h7, traceBytes, hn]

/-- **C72.** The size of the file after any traces that were all accepted. -/
theorem C72_file_size (H : Host) (heap : Nat) (a : OSegdArgs) (s s' : OSegd) (ts : List Trace)
    (rs : List (Out Unit)) (bits : Nat) (hf : (a.gh1.formatCode, bits) ∈ formatBits)
    (hopen : openSegdWriter H heap a = .ok s) (hrun : writeAll H ts s = (rs, s'))
    (hok : ∀ r ∈ rs, r = .ok ()) :
    s'.out.length = headerBytes a + (ts.map (traceBytes bits)).sum := by
  have huniq : ∀ (f : Int) (x y : Nat), (f, x) ∈ formatBits → (f, y) ∈ formatBits → x = y := by
    have : ∀ p ∈ formatBits, ∀ q ∈ formatBits, p.1 = q.1 → p.2 = q.2 := by decide
    exact fun f x y hx hy => this _ hx _ hy rfl
  have key : ∀ (ts : List Trace) (s s' : OSegd) (rs : List (Out Unit)), s.args = a →
      writeAll H ts s = (rs, s') → (∀ r ∈ rs, r = .ok ()) →
      s'.out.length = s.out.length + (ts.map (traceBytes bits)).sum := by
    intro ts
    induction ts with
    | nil => intro s s' rs _ h _; cases h; rfl
    | cons t ts ih =>
      intro s s' rs hs h hok
      unfold writeAll at h
      rcases h1 : writeTraceD H t s with ⟨r, s1⟩
      rcases h2 : writeAll H ts s1 with ⟨rs2, s2⟩
      simp only [h1, h2, Prod.mk.injEq] at h
      obtain ⟨rfl, rfl⟩ := h
      have hr := hok r (List.mem_cons_self ..)
      subst hr
      obtain ⟨bits', bytes, hb, ho, hlen⟩ := C72_trace_size H t s s1 h1
      rw [hs] at hb
      have hs1 : s1.args = a := by
        obtain ⟨_, _, _, _, _, _, _, _, _, rfl⟩ := writeTraceD_accepted h1
        exact hs
      rw [ih s1 s2 rs2 hs1 h2 fun r hr => hok r (List.mem_cons_of_mem _ hr), ho, List.length_append, hlen,
        huniq _ _ _ hb hf, List.map_cons, List.sum_cons]
      omega
  rw [key ts s s' rs (openSegdWriter_counts hopen).1 hrun hok, C72_header_size H heap a s hopen]

/-! ## A concrete case -/

/-- The arguments of the example meet the conditions, and the sizes are as computed elsewhere. -/
example : headerBytes segdArgsExample = 256 ∧ traceBytes 32 segdTraceExample = 60 ∧
    Consistent segdArgsExample ∧ Supplied (announcedExtended segdArgsExample) segdArgsExample.extended ∧
    Supplied (announcedExternal segdArgsExample) segdArgsExample.external := by
  refine ⟨by decide +kernel, by decide +kernel, ⟨by decide +kernel, by decide +kernel⟩,
    ⟨by decide +kernel, by decide +kernel⟩, ⟨by decide +kernel, by decide +kernel⟩⟩

theorem isOk_ok {α : Type} {x : Out α} (h : x.isOk = true) : ∃ a, x = .ok a := by
  cases x with
  | error e => cases h
  | ok a => exact ⟨a, rfl⟩

/-- They can be encoded. -/
theorem segdArgsExample_encodable : Encodable hostExample segdArgsExample where
  stored := by
    have h : (storeAdd segdArgsExample.addHdrs [] >>= writeAddHdrs).isOk = true := by decide +kernel
    obtain ⟨b, hb⟩ := isOk_ok h
    obtain ⟨m, h1, h2⟩ := bind_ok hb
    exact ⟨m, b, h1, h2⟩
  format := ⟨_, rfl⟩
  gen1 := isOk_ok (by decide +kernel)
  gen2 := isOk_ok (by decide +kernel)
  sets := by
    have : ∀ l ∈ segdArgsExample.chSets, ∀ c ∈ l,
        (writeChSetHdr hostExample segdArgsExample c).isOk = true := by decide +kernel
    exact fun l hl c hc => isOk_ok (this l hl c hc)

/-- A second channel set in a scan type for which one is announced. -/
example : openSegdWriter hostExample 0
    { segdArgsExample with chSets := segdArgsExample.chSets.map fun l => l ++ l } = throwExn .channelSetCount := by
  decide +kernel

/-- One extended header block announced, none supplied. -/
example : openSegdWriter hostExample 0 { segdArgsExample with extended := [] } = isUb .outOfBounds := by
  decide +kernel

end Sedaman.Props
