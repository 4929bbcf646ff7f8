import Verif.Lemmas.SegdE2E2
import Verif.Spec.SegdCopy

/-! # Lemmas: writing what a SEG-D reader returned -/

namespace Sedaman

open Spec Props

/-- The arguments a copying program passes. -/
def shownArgs (a : OSegdArgs) (l : List GenHdrN) : OSegdArgs :=
  { a with gh2 := shownGh2 a.gh2, chSets := a.chSets.map (·.map shownSet), addHdrs := l.map .n }

theorem intOf_kept {h h' : Header} (hk : StdKept h h') {n : String} (hn : (n, Value.int 0) ∈ stdTraceNames) :
    intOf h' n = intOf h n := by
  obtain ⟨v, h1, h2 | ⟨h2, h3⟩⟩ := hk _ hn
  · unfold intOf; simp only at h1 h2; rw [h1, h2]
  · simp only at h1 h2 h3
    subst h3
    unfold intOf; rw [h1, h2]

theorem scaledOf_kept {h h' : Header} (hk : StdKept h h') {n : String}
    (hn : (n, Value.dbl (dyadic 0 8)) ∈ stdTraceNames) : scaledOf h' n = scaledOf h n := by
  obtain ⟨v, h1, h2 | ⟨h2, h3⟩⟩ := hk _ hn
  · unfold scaledOf; simp only at h1 h2; rw [h1, h2]
  · simp only at h1 h2 h3
    subst h3
    unfold scaledOf; rw [h1, h2]
    simp only
    congr 1

theorem get_kept {h h' : Header} (hk : StdKept h h') {n : String} {d v : Value} (hn : (n, d) ∈ stdTraceNames)
    (hv : h.get n = some v) : h'.get n = some v := by
  obtain ⟨w, h1, h2 | ⟨h2, -⟩⟩ := hk _ hn
  · simp only at h1 h2; rw [h1, ← h2, hv]
  · simp only at h2; rw [hv] at h2; cases h2

theorem traceHdr_kept {h h' : Header} (hk : StdKept h h') {v : Value} (hc : h.get "CH_SET_NUM" = some v) :
    writeTraceHdrD h' = writeTraceHdrD h := by
  have e : intOfSet h' "CH_SET_NUM" = intOfSet h "CH_SET_NUM" := by
    unfold intOfSet
    rw [hc, get_kept hk (d := .int 0) (by simp [stdTraceNames]) hc]
  unfold writeTraceHdrD wrTraceHdr
  rw [intOf_kept hk (n := "FFID") (by simp [stdTraceNames]), intOf_kept hk (n := "SCAN_TYPE_NUM") (by simp [stdTraceNames]),
    e, intOf_kept hk (n := "CHAN") (by simp [stdTraceNames]), intOf_kept hk (n := "TR_HDR_EXT") (by simp [stdTraceNames]),
    intOf_kept hk (n := "TRACE_EDIT") (by simp [stdTraceNames]),
    scaledOf_kept hk (n := "FIRST_TIMING_WORD") (by simp [stdTraceNames]),
    scaledOf_kept hk (n := "SAMPLE_SKEW") (by simp [stdTraceNames]),
    scaledOf_kept hk (n := "TIME_BREAK_WIN") (by simp [stdTraceNames])]

private theorem enc_congr (bo : ByteOrder) (n : Nat) {r v : Int} (h : (r - v) % ((256 ^ n : Nat) : Int) = 0) :
    encInt bo n r = encInt bo n v := by
  have : toU n r = toU n v := by
    unfold toU
    rw [Int.emod_eq_emod_iff_emod_sub_eq_zero.2 h]
  rw [← encInt_toU, this, encInt_toU]

theorem extField_back {est : LogEst} {ty : VType} {v w : Value} (h : ExtBack ty v w) :
    extFieldBytes est ty w = extFieldBytes est ty v := by
  unfold ExtBack at h
  cases hk : intKind ty with
  | none => rw [hk] at h; cases v <;> (simp only at h; subst h; rfl)
  | some k =>
    rw [hk] at h
    cases v with
    | dbl d => exact absurd h (by simp)
    | int a =>
      obtain ⟨r, ⟨-, h2⟩, rfl⟩ := h
      have key : ∀ bo, encInt bo k.size r = encInt bo k.size a := by
        intro bo
        apply enc_congr
        rw [← h2]
        congr 1
        cases k <;> rfl
      revert key
      cases ty <;> simp only [intKind, reduceCtorEq, Option.some.injEq] at hk <;> subst hk <;> intro key <;>
        simp only [extFieldBytes, writeU8_eq .be, writeI8_eq .be, writeU16_eq, writeI16_eq, writeU24_eq, writeI24_eq,
          writeU32_eq, writeI32_eq, writeU64_eq, writeI64_eq] <;> exact congrArg _ (key .be)

theorem extFields_back {est : LogEst} {h h' : Header} {fs : List HField} (buf : Bytes)
    (hb : ∀ f ∈ fs, ∃ v w, h.get f.name = some v ∧ h'.get f.name = some w ∧ ExtBack f.ty v w) :
    writeExtFields est h' fs buf = writeExtFields est h fs buf := by
  induction fs generalizing buf with
  | nil => rfl
  | cons f t ih =>
    obtain ⟨v, w, h1, h2, h3⟩ := hb f List.mem_cons_self
    unfold writeExtFields
    rw [h1, h2]
    simp only [extField_back h3]
    congr 1
    funext bs
    congr 1
    funext buf'
    exact ih buf' fun g hg => hb g (List.mem_cons_of_mem _ hg)

theorem extIO_same {H : Host} {a a' : OSegdArgs} {h h' : Header} (n i : Nat)
    (hb : ∀ j, i ≤ j → j < i + n → writeExtBlock H.est H.room a'.gh2.segdRevMajor a'.extMap h' j =
      writeExtBlock H.est H.room a.gh2.segdRevMajor a.extMap h j) : extIO H a' h' n i = extIO H a h n i := by
  induction n generalizing i with
  | zero => rfl
  | succ n ih =>
    unfold extIO
    rw [hb i (by omega) (by omega), ih (i + 1) fun j h1 h2 => hb j (by omega) (by omega)]

theorem subscript_map {α β : Type} (f : α → β) {xs : List α} {h h' : Header} {n : String} (hg : h'.get n = h.get n) :
    subscriptW (xs.map f) h' n = (subscriptW xs h n).map f := by
  unfold subscriptW
  rw [hg]
  have go : ∀ i : Nat, (if i = 0 then isUb .outOfBounds else match (xs.map f)[i - 1]? with
      | none => isUb .outOfBounds
      | some a => .ok a : Out β) = (if i = 0 then isUb .outOfBounds else match xs[i - 1]? with
      | none => isUb .outOfBounds
      | some a => .ok a : Out α).map f := by
    intro i
    by_cases h0 : i = 0
    · rw [if_pos h0, if_pos h0]; rfl
    · rw [if_neg h0, if_neg h0, List.getElem?_map]
      cases xs[i - 1]? <;> rfl
  rcases h.get n with _ | v | d
  · exact go 1
  · exact go (toU 2 v)
  · rfl

/-- What two traces have to have in common to be written alike. -/
structure SameWritten (H : Host) (a : OSegdArgs) (t t' : Trace) : Prop where
  kept : StdKept t.header t'.header
  scan : ∃ v, t.header.get "SCAN_TYPE_NUM" = some v
  chSet : ∃ v, t.header.get "CH_SET_NUM" = some v
  ext : ∀ n, intOf t.header "TR_HDR_EXT" = .ok n → ∀ j, j < toU 1 n →
    writeExtBlock H.est H.room a.gh2.segdRevMajor a.extMap t'.header j =
      writeExtBlock H.est H.room a.gh2.segdRevMajor a.extMap t.header j
  samples : t'.samples = t.samples

theorem samplesOf_shown {H : Host} {a : OSegdArgs} {t t' : Trace} (l : List GenHdrN) (h : SameWritten H a t t') (m : SampMem) :
    writeSamplesOf H (shownArgs a l) t' m = writeSamplesOf H a t m := by
  obtain ⟨v, hv⟩ := h.scan
  obtain ⟨u, hu⟩ := h.chSet
  have g1 : t'.header.get "SCAN_TYPE_NUM" = t.header.get "SCAN_TYPE_NUM" := by
    rw [hv, get_kept h.kept (d := .int 0) (by simp [stdTraceNames]) hv]
  have g2 : t'.header.get "CH_SET_NUM" = t.header.get "CH_SET_NUM" := by
    rw [hu, get_kept h.kept (d := .int 0) (by simp [stdTraceNames]) hu]
  have e : (shownArgs a l).chSetOf t'.header = (a.chSetOf t.header).map shownSet := by
    unfold OSegdArgs.chSetOf shownArgs
    rw [subscript_map _ g1]
    cases subscriptW a.chSets t.header "SCAN_TYPE_NUM" with
    | error e => rfl
    | ok x => exact subscript_map _ g2
  unfold writeSamplesOf
  rw [e, h.samples]
  cases a.chSetOf t.header <;> rfl

theorem writeTraceD_shown {H : Host} {a : OSegdArgs} {t t' : Trace} (l : List GenHdrN) {s : OSegd} (ha : s.args = a)
    (h : SameWritten H a t t') :
    writeTraceD H t' { s with args := shownArgs a l } =
      ((writeTraceD H t s).1, { (writeTraceD H t s).2 with args := shownArgs a l }) ∧
    (writeTraceD H t s).2.args = a := by
  subst ha
  obtain ⟨u, hu⟩ := h.chSet
  have e1 := traceHdr_kept h.kept hu
  have e2 := intOf_kept h.kept (n := "TR_HDR_EXT") (by simp [stdTraceNames])
  unfold writeTraceD
  simp only [e1, e2]
  by_cases hc : s.chansWritten = s.chansInRecord
  · rw [if_pos hc, if_pos hc]; exact ⟨rfl, rfl⟩
  · rw [if_neg hc, if_neg hc]
    cases writeTraceHdrD t.header with
    | error e => exact ⟨rfl, rfl⟩
    | ok b =>
      simp only
      cases hn : intOf t.header "TR_HDR_EXT" with
      | error e => exact ⟨rfl, rfl⟩
      | ok n =>
        simp only
        have e3 : extIO H (shownArgs s.args l) t'.header (toU 1 n) 0 = extIO H s.args t.header (toU 1 n) 0 :=
          extIO_same _ _ fun j _ hj => h.ext n hn j (by omega)
        rw [e3]
        rcases extIO H s.args t.header (toU 1 n) 0 with ⟨x, e | y⟩
        · exact ⟨rfl, rfl⟩
        · simp only
          rw [samplesOf_shown l h]
          have e4 : resizedMem H (shownArgs s.args l) t' s.mem = resizedMem H s.args t s.mem := by
            unfold resizedMem
            rw [h.samples]; rfl
          rw [e4]
          cases writeSamplesOf H s.args t s.mem with
          | error e => exact ⟨rfl, rfl⟩
          | ok z => exact ⟨rfl, rfl⟩

theorem writeAll_shown {H : Host} {a : OSegdArgs} {ts ts' : List Trace} (l : List GenHdrN)
    (h : List.Forall₂ (SameWritten H a) ts ts') {s : OSegd} (ha : s.args = a) :
    Spec.writeAll H ts' { s with args := shownArgs a l } =
      ((Spec.writeAll H ts s).1, { (Spec.writeAll H ts s).2 with args := shownArgs a l }) := by
  induction h generalizing s with
  | nil => rfl
  | cons x _ ih =>
    obtain ⟨h1, h2⟩ := writeTraceD_shown l ha x
    unfold Spec.writeAll
    simp only [h1]
    rw [ih h2]

theorem writeChSets_shown {H : Host} {a : OSegdArgs} (l : List GenHdrN) (cs : List ChSet) :
    writeChSets H (shownArgs a l) (cs.map shownSet) = writeChSets H a cs := by
  induction cs with
  | nil => rfl
  | cons c t ih =>
    rw [List.map_cons]
    unfold writeChSets
    rw [ih]
    rfl

theorem writeScanTypes_shown {H : Host} {a : OSegdArgs} (l : List GenHdrN) (cs : List (List ChSet)) :
    writeScanTypes H (shownArgs a l) (cs.map (·.map shownSet)) = writeScanTypes H a cs := by
  induction cs with
  | nil => rfl
  | cons c t ih =>
    rw [List.map_cons]
    unfold writeScanTypes
    rw [ih, writeChSets_shown, List.length_map]
    rfl

theorem open_shown {H : Host} {a : OSegdArgs} {ns l : List GenHdrN} {w : OSegd} (hr : RecordFits a ns) (hp : l.Perm ns)
    (hw : openSegdWriter H 0 a = .ok w) :
    openSegdWriter H 0 (shownArgs a l) = .ok { w with args := shownArgs a l } := by
  obtain ⟨l1, e1, e2, e3⟩ := storeAdd_ok ns [] List.Pairwise.nil
    (by simpa using hr.numbers) (fun h hh => (hr.blocks h hh).noClass)
  obtain ⟨l2, f1, f2, f3⟩ := storeAdd_ok l [] List.Pairwise.nil
    (by simpa using ((hp.map GenHdrN.genHdrBlockNum).nodup_iff.2 hr.numbers))
    (fun h hh => (hr.blocks h (hp.mem_iff.1 hh)).noClass)
  rw [List.nil_append] at e2 f2
  have hl : l2 = l1 := List.Perm.eq_of_pairwise (le := fun x y => x.genHdrBlockNum < y.genHdrBlockNum)
    (fun x y _ _ h1 h2 => absurd h1 (by omega)) f3 e3 (f2.trans (hp.trans e2.symm))
  subst hl
  unfold openSegdWriter at hw ⊢
  rw [hr.addHdrs, show ([] : BlkMap) = ([] : List GenHdrN).map entryN from rfl, e1, ok_bind] at hw
  rw [show (shownArgs a l).addHdrs = l.map .n from rfl, show ([] : BlkMap) = ([] : List GenHdrN).map entryN from rfl,
    f1, ok_bind, show (shownArgs a l).chSets = a.chSets.map (·.map shownSet) from rfl, List.length_map]
  change (if _ ≠ toU 8 a.gh1.scanTypesPerRecord then _ else _) = _
  by_cases hc : a.chSets.length ≠ toU 8 a.gh1.scanTypesPerRecord
  · rw [if_pos hc] at hw; cases hw
  · rw [if_neg hc] at hw ⊢
    have hh : writeHeaders H (shownArgs a l) (l2.map entryN) = writeHeaders H a (l2.map entryN) := by
      unfold writeHeaders
      rw [show (shownArgs a l).chSets = a.chSets.map (·.map shownSet) from rfl, writeScanTypes_shown]
      rfl
    rw [hh]
    obtain ⟨o, o1, o2⟩ := bind_ok hw
    rw [o1, ok_bind]
    cases o2
    have ht : totalChannels (a.chSets.map (·.map shownSet)) = totalChannels a.chSets := by
      unfold totalChannels
      rw [List.map_map]
      congr 1
      apply List.map_congr_left
      intro x _
      rw [Function.comp, List.map_map]
      rfl
    rw [ht]
    rfl

theorem extBlock_std {est : LogEst} {room : Nat} {h h' : Header} (i : Nat)
    {line point idx samp sensor : Nat}
    (h1 : headerFix16 h "R_LINE" line) (h2 : headerFix16 h "R_POINT" point)
    (h3 : headerInt h "R_POINT_IDX" idx) (h4 : headerInt h "SAMP_NUM" samp)
    (h5 : headerInt h "SENSOR_TYPE" sensor) (l1 : line < 2 ^ 40) (l2 : point < 2 ^ 40)
    (g1 : h'.get "R_LINE" = some (fix16Back line)) (g2 : h'.get "R_POINT" = some (fix16Back point))
    (g3 : h'.get "R_POINT_IDX" = some (.int idx)) (g4 : h'.get "SAMP_NUM" = some (.int samp))
    (g5 : h'.get "SENSOR_TYPE" = some (.int sensor)) :
    writeExtBlock est room 2 [] h' i = writeExtBlock est room 2 [] h i := by
  have hb : ∀ {n : String} {k : Nat}, h'.get n = some (fix16Back k) → headerFix16 h' n k := by
    intro n k hk
    unfold fix16Back at hk
    by_cases h0 : k = 0
    · rw [if_pos h0] at hk
      exact .inr (.inl ⟨0, hk, by omega⟩)
    · rw [if_neg h0] at hk
      exact .inl hk
  have e1 := wrExtStd_eq h1 h2 h3 h4 h5 (by omega) (by omega)
  have e2 := wrExtStd_eq (hb g1) (hb g2) (.inl g3) (.inl g4) (.inl g5) (by omega) (by omega)
  unfold writeExtBlock
  rw [e1, e2]
  rfl

end Sedaman
