import Verif.Lemmas.Stream
import Verif.Props.OSEGYDisk
import Verif.Props.SegdDisk
import Mathlib.Tactic.ByContra

/-!
# C93: a device that stops accepting bytes
-/

namespace Sedaman.Props

open Spec

private theorem handed_append (a b : List Put) : handedOver (a ++ b) = handedOver a + handedOver b := by
  simp [handedOver]

private theorem taken_le (k : Nat) (calls : List (List Put)) :
    handedOver (calls.take k).flatten ≤ handedOver calls.flatten := by
  have h : handedOver calls.flatten = handedOver (calls.take k).flatten + handedOver (calls.drop k).flatten := by
    rw [← handed_append, ← List.flatten_append, List.take_append_drop]
  omega

private theorem onDisk_short (ps qs : List Put) (k : Nat) (h : k ≤ handedOver ps) :
    onDisk (ps ++ qs) k = onDisk ps k := by
  unfold onDisk
  rw [List.flatMap_append, List.take_append_of_le_length (by rw [each_length]; exact h)]

private theorem onDisk_long (ps : List Put) (k : Nat) (h : handedOver ps ≤ k) :
    onDisk ps k = onDisk ps (handedOver ps) := by
  unfold onDisk
  rw [List.take_of_length_le (by rw [each_length]; exact h), List.take_of_length_le (by rw [each_length])]

/-! ## Any program -/

/-- **C93.** Whatever the stream keeps back and when it hands it over, the file ends up with the bytes the device
accepted: the first `free` bytes of the program. -/
theorem C93_disk (cap : Nat) (sched : Nat → Nat) (calls : List (List Put)) (free : Nat) :
    (Stream.finish cap sched calls free).2 = onDisk calls.flatten free := by
  obtain ⟨Y, rest, j, h1, h2, -, -, -, h3⟩ := (streamFresh_inv free).run (cap := cap) (sched := sched) 0 calls (Nat.zero_le _) rfl
  show (Stream.run cap sched 0 calls (.fresh free)).2.flush.disk = _
  unfold onDisk
  rw [h1]
  refine h2.flushed ?_
  rcases h3 with ⟨-, -, h⟩ | ⟨h, -, -⟩
  · exact .inl h
  · have := h2.bad
    rw [h] at this
    exact .inr (of_decide_eq_true this.symm)

/-- **C93.** Which call throws: one whose bytes the device does not accept all, and not later than when more bytes
are missing than the stream can keep back. -/
theorem C93_which_call (cap : Nat) (sched : Nat → Nat) (calls : List (List Put)) (free : Nat) :
    let k := (Stream.run cap sched 0 calls (.fresh free)).1
    k ≤ calls.length ∧ handedOver (calls.take k).flatten ≤ free + cap ∧
      (k < calls.length → free < handedOver (calls.take (k + 1)).flatten) := by
  obtain ⟨Y, rest, j, -, -, -, h1, h2, h3⟩ := (streamFresh_inv free).run (cap := cap) (sched := sched) 0 calls (Nat.zero_le _) rfl
  refine ⟨h1, by simpa using h2, fun hk => ?_⟩
  rcases h3 with ⟨-, h, -⟩ | ⟨-, -, h⟩
  · exact absurd h (Nat.ne_of_lt hk)
  · simpa using h

/-- **C93.** If the device accepts everything no call throws and the file is complete. -/
theorem C93_no_error (cap : Nat) (sched : Nat → Nat) (calls : List (List Put)) (free : Nat)
    (h : handedOver calls.flatten ≤ free) :
    Stream.finish cap sched calls free = (.normal, onDisk calls.flatten (handedOver calls.flatten)) := by
  have h1 := C93_disk cap sched calls free
  have hk : (Stream.run cap sched 0 calls (.fresh free)).1 = calls.length := by
    obtain ⟨h2, -, h3⟩ := C93_which_call cap sched calls free
    by_contra hne
    have h4 := h3 (Nat.lt_of_le_of_ne h2 hne)
    have h5 : handedOver (calls.take ((Stream.run cap sched 0 calls (.fresh free)).1 + 1)).flatten ≤
        handedOver calls.flatten := by
      exact taken_le _ _
    omega
  exact Prod.ext (if_pos hk) (h1.trans (onDisk_long _ _ h))

/-- **C93 (part).** If no call throws, at most as many bytes are lost as the stream keeps back. Missing: the
property says that none are; `C93_silent_loss` proves the opposite. -/
theorem C93_lost_partial (cap : Nat) (sched : Nat → Nat) (calls : List (List Put)) (free : Nat)
    (h : (Stream.finish cap sched calls free).1 = .normal) : handedOver calls.flatten ≤ free + cap := by
  obtain ⟨h1, h2, -⟩ := C93_which_call cap sched calls free
  have hk : (Stream.run cap sched 0 calls (.fresh free)).1 = calls.length := by
    by_contra hne
    have : (Stream.finish cap sched calls free).1 = .threw := if_neg hne
    rw [this] at h
    cases h
  rw [hk, List.take_length] at h2
  exact h2

/-- **C93 fails.** A stream that hands over bytes only when it has to never reports that its last `cap` bytes were
refused: every call returns, and the file is incomplete. (In a program without `seekg`, that is, with an `OSEGYRev0`,
`OSEGYRev1` or `OSEGDRev2_1` that is not automatic.) -/
theorem C93_silent_loss (cap : Nat) (calls : List (List Put)) (free : Nat)
    (h1 : handedOver calls.flatten ≤ free + cap) :
    Stream.finish cap (fun _ => 0) calls free = (.normal, onDisk calls.flatten free) := by
  refine Prod.ext (if_pos ?_) (C93_disk _ _ _ _)
  exact (lazy_run 0 calls (streamFresh_inv free) (by simp) rfl (by simpa using h1)).1

/-- More bytes are missing than the stream can keep back: a call throws. -/
private theorem threw {cap : Nat} {sched : Nat → Nat} {calls : List (List Put)} {free : Nat}
    (h : free + cap < handedOver calls.flatten) : (Stream.finish cap sched calls free).1 = .threw := by
  cases he : (Stream.finish cap sched calls free).1 with
  | normal => exact absurd (C93_lost_partial cap sched calls free he) (by omega)
  | threw => rfl
  | terminated =>
    have : (Stream.finish cap sched calls free).1 ≠ .terminated := by
      unfold Stream.finish
      simp only
      split <;> simp
    exact absurd he this

private theorem disk_is {N : Nat} {X rest : List (Byte × Nat)} {s : Stream} {j : Nat} (h : StreamInv N X s j) {ps : List Put}
    (hp : ps.flatMap Put.each = X ++ rest) : s.disk = onDisk ps (min j N) := by
  unfold onDisk
  have := h.le
  rw [h.disk, hp, List.take_append_of_le_length (by omega)]

/-! ## `OSEGYRev2`, whose destructor writes -/

/-- **C93, programs with an `OSEGYRev2`.** The program constructs it (`first`), calls `write_trace` (`calls`) and
destroys it (`close` is what the destructor writes). If the device accepts everything, the program ends normally.
If it ends normally, the device accepted all bytes of the traces. If it did not accept them, the file has those
that it accepted, and the program is terminated (a `catch` around it does not help), or the constructor threw, which
can only be when the device does not accept all it writes. -/
theorem C93_destructor (cap : Nat) (sched : Nat → Nat) (first : List Put) (calls : List (List Put)) (close : List Put)
    (free : Nat) :
    let e := Stream.finishRev2 cap sched (first :: calls) close free
    let traces := (first :: calls).flatten
    (handedOver (traces ++ close) ≤ free → e = (.normal, onDisk (traces ++ close) free)) ∧
    (e.1 = .normal → handedOver traces ≤ free ∧ handedOver (traces ++ close) ≤ free + cap) ∧
    (free < handedOver traces → e.2 = onDisk traces free ∧
      (e.1 = .terminated ∨ e.1 = .threw ∧ free < handedOver first)) ∧
    ∃ n ≤ free, e.2 = onDisk (traces ++ close) n := by
  obtain ⟨Y, rest, j, e1, h2, h3, h4, h5, h6⟩ :=
    (streamFresh_inv free).run (cap := cap) (sched := sched) 0 (first :: calls) (Nat.zero_le _) rfl
  have hbad := h2.bad
  have hle := h2.le
  have htot := handed_append (first :: calls).flatten close
  have hY : handedOver (first :: calls).flatten = Y.length + rest.length := by
    rw [← each_length, e1, List.length_append]
  have hfirst : handedOver first ≤ handedOver (first :: calls).flatten := by
    rw [List.flatten_cons, handed_append]
    omega
  rw [List.nil_append] at h2 h3 hle
  intro e traces
  have he : e = Stream.finishRev2 cap sched (first :: calls) close free := rfl
  unfold Stream.finishRev2 at he
  simp only at he
  have htr : traces = (first :: calls).flatten := rfl
  clear_value traces
  rw [← htr] at e1 htot hY hfirst he
  generalize hr : Stream.run cap sched 0 (first :: calls) (.fresh free) = r at *
  rcases h6 with ⟨hb, hk, hrest⟩ | ⟨hb, hk, hmiss⟩
  · subst hrest
    rw [hb] at hbad
    have hj := of_decide_eq_false hbad.symm
    have hf := h2.flush
    rw [if_neg (by rw [hk]; simp), hb, if_neg (by simp)] at he
    simp only [List.length_nil, Nat.add_zero] at hY
    cases hs : r.2.flush.bad with
    | true =>
      rw [hs, if_pos rfl] at he
      rw [hf.bad] at hs
      have hlt := of_decide_eq_true hs
      have hd := disk_is hf e1
      rw [Nat.min_eq_right (by omega)] at hd
      rw [hd] at he
      have hd2 := onDisk_short traces close free (by omega)
      refine ⟨fun h => absurd h (by omega), fun h => ?_, fun _ => by rw [he]; exact ⟨rfl, .inl rfl⟩, free,
        Nat.le_refl _, by rw [he, hd2]⟩
      rw [he] at h; cases h
    | false =>
      rw [hs, if_neg (by simp)] at he
      have hs' := hs
      rw [hf.bad] at hs'
      have hge := of_decide_eq_false hs'
      obtain ⟨Y', rest', j', c1, c2, c3, c4⟩ := hf.call (cap := cap) (sched := sched) traces.length close
        (Nat.le_add_right _ _) hs
      have hall : (traces ++ close).flatMap Put.each = (Y ++ Y') ++ rest' := by
        rw [List.flatMap_append, e1, c1]
        simp
      have hlen : handedOver (traces ++ close) = (Y ++ Y').length + rest'.length := by
        rw [← each_length, hall, List.length_append]
      have hcl := c2.le
      cases hb2 : (r.2.flush.call cap sched traces.length close).bad with
      | true =>
        rw [hb2, if_pos rfl, disk_is c2 hall] at he
        have hb3 := c2.bad
        rw [hb2] at hb3
        have hlt := of_decide_eq_true hb3.symm
        refine ⟨fun h => absurd h (by omega), fun h => ?_, fun h => absurd h (by omega), min j' free,
          Nat.min_le_right _ _, by rw [he]⟩
        rw [he] at h; cases h
      | false =>
        have hr' := c4 hb2
        subst hr'
        rw [List.append_nil] at hall
        rw [hb2, if_neg (by simp), c2.flushed (.inl (rfl : ([] : List (Byte × Nat)) = []))] at he
        have hb3 := c2.bad
        rw [hb2] at hb3
        have hlt := of_decide_eq_false hb3.symm
        have hd : e = (.normal, onDisk (traces ++ close) free) := by
          rw [he]
          unfold onDisk
          rw [hall, List.append_nil]
        simp only [List.length_nil, Nat.add_zero] at hlen
        exact ⟨fun _ => hd, fun _ => ⟨by omega, by omega⟩, fun h => absurd h (by omega), free, Nat.le_refl _, by rw [hd]⟩
  · rw [hb] at hbad
    have hj := of_decide_eq_true hbad.symm
    have hlt : free < handedOver traces := by omega
    have hd2 := onDisk_short traces close free (Nat.le_of_lt hlt)
    by_cases h0 : r.1 = 0
    · rw [if_pos h0, h2.flushed (rest := rest) (.inr hj)] at he
      have hd : e = (.threw, onDisk traces free) := by
        rw [he]
        unfold onDisk
        rw [e1]
      rw [h0] at hmiss
      have hm : free < handedOver first := by simpa using hmiss
      refine ⟨fun h => absurd h (by omega), fun h => ?_, fun _ => by rw [hd]; exact ⟨rfl, .inr ⟨rfl, hm⟩⟩, free,
        Nat.le_refl _, by rw [hd, hd2]⟩
      rw [hd] at h; cases h
    · rw [if_neg h0, hb, if_pos rfl, disk_is h2 e1, Nat.min_eq_right (by omega)] at he
      have hd : e = (.terminated, onDisk traces free) := he
      refine ⟨fun h => absurd h (by omega), fun h => ?_, fun _ => by rw [hd]; exact ⟨rfl, .inl rfl⟩, free, Nat.le_refl _,
        by rw [hd, hd2]⟩
      rw [hd] at h; cases h

/-- **C93 fails, stanzas.** What the destructor of `OSEGYRev2` writes can be lost without a sign: here the device
accepts 3 bytes, the destructor writes 2 more, and the program ends normally. -/
theorem C93_stanza_loss : Stream.finishRev2 8191 (fun _ => 0) [[⟨0, [1, 2, 3]⟩]] [⟨3, [4, 5]⟩] 3 =
    (.normal, [(1 : Byte), 2, 3]) := by
  decide

/-- A byte of the traces is refused: the program is terminated. -/
example : Stream.finishRev2 8191 (fun _ => 0) [[⟨0, [1, 2, 3]⟩], [⟨3, [4, 5]⟩]] [] 4 = (.terminated, [(1 : Byte), 2, 3, 4]) := by
  decide

/-! ## SEG-Y files -/

private theorem callsRev0_flatten (est : LogEst) (text : Bytes) (bh : BinHeader) (m : HdrMap) (ts : List Trace) :
    (callsRev0 est text bh m ts).flatten = programRev0 est text bh m ts := by
  unfold callsRev0 programRev0
  cases openRev0 text bh m with
  | error e => rfl
  | ok w => exact congrArg _ (traceCalls_flatten _ _ _ _)

private theorem callsRev1_flatten (est : LogEst) (texts : List Bytes) (bh : BinHeader) (m : HdrMap) (ts : List Trace) :
    (callsRev1 est texts bh m ts).flatten = programRev1 est texts bh m ts := by
  unfold callsRev1 programRev1
  cases openRev1 texts bh m with
  | error e => rfl
  | ok w => exact congrArg _ (traceCalls_flatten _ _ _ _)

private theorem callsRev2_flatten (est : LogEst) (texts : List Bytes) (bh : BinHeader) (trailers : List Bytes) (m : HdrMap)
    (ts : List Trace) : (callsRev2 est texts bh trailers m ts).flatten ++ destroyRev2 est texts bh trailers m ts =
      programRev2 est texts bh trailers m ts := by
  unfold callsRev2 programRev2 destroyRev2
  cases openRev2 texts bh trailers m with
  | error e => rfl
  | ok w =>
    simp only [List.flatten_cons, traceCalls_flatten]
    rfl

/-- **C93 (part), `OSEGYRev0`.** A program writes traces and the device accepts `N` bytes. If that is enough, no call
throws; if more are missing than the stream can keep back, one does. The file that is left is the one of C86: it gives
exactly the traces whose bytes were all accepted. The conditions are those of C20. -/
theorem C93_rev0_partial (est : LogEst) (text : Bytes) (bh : BinHeader) (m : HdrMap) (b : HBlock)
    (ts : List Trace) (ht : text.length = 3200) (hbh : HeaderOk bh) (hm : MapOk bh m b)
    (hrev : bh.revMajor = 0) (hexts : bh.extTextHeadersNum = 0) (hext : bh.extSampPerTr = 0)
    (hexplicit : bh ≠ { formatCode := 1 })
    (hts : ∀ t ∈ ts, Storable est bh.formatCode (orderOfMarker bh.endianness) b.fields t ∧
      (t.samples.length : Int) = bh.sampPerTr % 65536) (cap : Nat) (sched : Nat → Nat) (N : Nat) :
    let e := Stream.finish cap sched (callsRev0 est text bh m ts) N
    let size := fun ts => handedOver (programRev0 est text bh m ts)
    (size ts ≤ N → e.1 = .normal) ∧ (N + cap < size ts → e.1 = .threw) ∧
    (N < 3600 → openReader e.2 none m = throwExn .iosFailure) ∧
    (3600 ≤ N → Rescued size e.2 m
      (TraceBack est bh.formatCode (orderOfMarker bh.endianness) b.fields) [text] (visible bh) ts N) := by
  have hf := callsRev0_flatten est text bh m ts
  have hd := C93_disk cap sched (callsRev0 est text bh m ts) N
  have hn := C93_no_error cap sched (callsRev0 est text bh m ts) N
  have ht' := threw (cap := cap) (sched := sched) (calls := callsRev0 est text bh m ts) (free := N)
  rw [hf] at hd hn ht'
  obtain ⟨h1, h2⟩ := C86_rev0_partial est text bh m b ts N ht hbh hm hrev hexts hext hexplicit hts
  rw [← hd] at h1 h2
  exact ⟨fun h => by rw [hn h], ht', h1, h2⟩

/-- **C93 (part), `OSEGYRev1`.** The same; the conditions are those of C21. -/
theorem C93_rev1_partial (est : LogEst) (text : Bytes) (exts : List Bytes) (bh : BinHeader) (m : HdrMap)
    (b : HBlock) (ts : List Trace) (hl : ∀ x ∈ text :: exts, x.length = 3200)
    (hn : exts.length < 65536) (hbh : HeaderOk bh) (hm : MapOk bh m b) (hrev : bh.revMajor = 1)
    (hdecl : TextsDeclared bh exts) (hext : ExtendedOk bh)
    (hts : ∀ t ∈ ts, Storable est bh.formatCode (orderOfMarker bh.endianness) b.fields t ∧
      LengthKnown bh b.fields t) (cap : Nat) (sched : Nat → Nat) (N : Nat) :
    let e := Stream.finish cap sched (callsRev1 est (text :: exts) bh m ts) N
    let size := fun ts => handedOver (programRev1 est (text :: exts) bh m ts)
    (size ts ≤ N → e.1 = .normal) ∧ (N + cap < size ts → e.1 = .threw) ∧
    (N < 400 + 3200 * (text :: exts).length → openReader e.2 none m = throwExn .iosFailure) ∧
    (400 + 3200 * (text :: exts).length ≤ N → Rescued size e.2 m
      (TraceBack est bh.formatCode (orderOfMarker bh.endianness) b.fields) (text :: exts) (visible bh) ts N) := by
  have hf := callsRev1_flatten est (text :: exts) bh m ts
  have hd := C93_disk cap sched (callsRev1 est (text :: exts) bh m ts) N
  have hn' := C93_no_error cap sched (callsRev1 est (text :: exts) bh m ts) N
  have ht' := threw (cap := cap) (sched := sched) (calls := callsRev1 est (text :: exts) bh m ts) (free := N)
  rw [hf] at hd hn' ht'
  obtain ⟨h1, h2⟩ := C86_rev1_partial est text exts bh m b ts N hl hn hbh hm hrev hdecl hext hts
  rw [← hd] at h1 h2
  exact ⟨fun h => by rw [hn' h], ht', h1, h2⟩

/-- **C93 (part), `OSEGYRev2`.** Here the program ends normally just when the device accepts all bytes; otherwise the
constructor threw or the program is terminated. The file that is left is the one of C86. The conditions are those of
C22. -/
theorem C93_rev2_partial (est : LogEst) (text : Bytes) (exts : List Bytes) (bh : BinHeader) (m : HdrMap)
    (b : HBlock) (ts : List Trace) (hl : ∀ x ∈ text :: exts, x.length = 3200)
    (hn : exts.length < 65536) (hbh : HeaderOk bh) (hm : MapOk bh m b) (hrev : 2 ≤ bh.revMajor)
    (hdecl : TextsDeclared bh exts) (hext : ExtendedOk bh)
    (hadd : bh.maxNumAddTrHeaders = 0) (hstz : bh.numOfTrailerStanza = 0)
    (hoff : bh.byteOffOfFirstTr = 0 ∨ bh.byteOffOfFirstTr = 3600 + 3200 * exts.length)
    (hts : ∀ t ∈ ts, Storable est bh.formatCode (orderOfMarker bh.endianness) b.fields t ∧
      LengthKnown bh b.fields t) (cap : Nat) (sched : Nat → Nat) (N : Nat) :
    let e := Stream.finishRev2 cap sched (callsRev2 est (text :: exts) bh [] m ts)
      (destroyRev2 est (text :: exts) bh [] m ts) N
    let size := fun ts => handedOver (programRev2 est (text :: exts) bh [] m ts)
    (e.1 = .normal ↔ size ts ≤ N) ∧
    (400 + 3200 * (text :: exts).length ≤ N → N < size ts → e.1 = .terminated) ∧
    (N < 400 + 3200 * (text :: exts).length → openReader e.2 none m = throwExn .iosFailure) ∧
    (400 + 3200 * (text :: exts).length ≤ N → Rescued size e.2 m
      (TraceBack est bh.formatCode (orderOfMarker bh.endianness) b.fields) (text :: exts) bh ts N) := by
  obtain ⟨w0, _, _, _, _, ho, _⟩ := C22_roundtrip_partial est text exts bh m b [] hl hn hbh hm hrev hdecl hext hadd
    hstz hoff (by simp)
  have hi2 := opens_inv2 (rev := .r2) ⟨text :: exts, bh, [], m, by rw [List.length_cons]; omega, ho⟩
  have hop := ho
  obtain ⟨-, -, t, ts', bo, bps, h1, h1', h2, -, h3, -, -, hw0⟩ := openRev2_ok ho
  obtain ⟨e, -⟩ := h2 (by simp)
  obtain ⟨rfl, rfl⟩ := List.cons.inj e
  have h0s : w0.bh.numOfTrailerStanza = 0 := by
    rw [hw0]
    show (memHeader _ _ _).numOfTrailerStanza = 0
    unfold memHeader
    rw [if_neg (by simp), fmt_ne hbh]
    exact hstz
  have hauto : w0.auto = false := by
    rw [hw0]
    show decide _ = false
    refine decide_eq_false fun c => ?_
    unfold memHeader at c
    rw [if_neg (by simp), fmt_ne hbh] at c
    have := congrArg BinHeader.revMajor c
    simp only at this
    omega
  have hclose : destroyRev2 est (text :: exts) bh [] m ts = [] := by
    unfold destroyRev2
    rw [ho]
    simp only
    cases h : writeAll (writeTraceRev2 est) w0 ts with
    | error e => rfl
    | ok w1 =>
      simp only
      unfold closePuts
      rw [if_neg (by rw [(hands_calls (rev := .r2) hi2.inv (.inl hauto) h).app.bh, h0s]; simp)]
  have htexts : w0.texts = text :: exts := by rw [hw0]; rfl
  have hfirst : handedOver (openPuts false w0.texts bh) = 400 + 3200 * (text :: exts).length := by
    rw [htexts, handedOver_eq, (openPuts_row (rev0 := false) (trl := []) (m := m) (bps := bps) h1 h1' h3).2]
    have h4 := textBytes_length (ts := exts) h1'
    have ht := hl text (.head _)
    unfold openedWriter
    simp only [List.length_append, List.length_take, binHeaderBytes_length, List.length_cons, Bool.false_eq_true,
      if_false, h4, ht]
    omega
  have hcalls : callsRev2 est (text :: exts) bh [] m ts =
      openPuts false w0.texts bh :: traceCalls (writeTraceRev2 est) (putsRev2 est) w0 ts := by
    unfold callsRev2
    rw [ho]
  have hf := callsRev2_flatten est (text :: exts) bh [] m ts
  rw [hclose, List.append_nil] at hf
  obtain ⟨d1, d2, d3, -⟩ := C93_destructor cap sched (openPuts false w0.texts bh)
    (traceCalls (writeTraceRev2 est) (putsRev2 est) w0 ts) [] N
  rw [← hcalls, hf, List.append_nil] at d1 d2
  rw [← hcalls, hf, hfirst] at d3
  obtain ⟨g1, g2⟩ := C86_rev2_partial est text exts bh m b ts N hl hn hbh hm hrev hdecl hext hadd hstz hoff hts
  rw [hclose]
  have hd : (Stream.finishRev2 cap sched (callsRev2 est (text :: exts) bh [] m ts) [] N).2 =
      onDisk (programRev2 est (text :: exts) bh [] m ts) N := by
    rcases Nat.lt_or_ge N (handedOver (programRev2 est (text :: exts) bh [] m ts)) with h | h
    · exact (d3 h).1
    · rw [d1 h]
  rw [← hd] at g1 g2
  refine ⟨⟨fun h => (d2 h).1, fun h => by rw [d1 h]⟩, fun ha hb => ?_, g1, g2⟩
  rcases (d3 hb).2 with h | ⟨-, h⟩
  · exact h
  · omega

/-! ## SEG-D files -/

private theorem traceCallsD_row (H : Host) (ts : List Trace) (s : OSegd)
    (h : (Spec.writeAll H ts s).1 = List.replicate ts.length (.ok ())) :
    InRow s.out.length (traceCallsD H s ts).flatten ∧
      s.out ++ bytesOf (traceCallsD H s ts).flatten = (Spec.writeAll H ts s).2.out := by
  induction ts generalizing s with
  | nil => exact ⟨trivial, by simp [traceCallsD, bytesOf, Spec.writeAll]⟩
  | cons t ts ih =>
    unfold Spec.writeAll at h ⊢
    simp only [List.length_cons, List.replicate_succ] at h
    obtain ⟨h1, h2⟩ := List.cons.inj h
    obtain ⟨i1, i2⟩ := ih _ h2
    obtain ⟨bs, hb⟩ : ∃ bs, (writeTraceD H t s).2.out = s.out ++ bs := by
      rcases writeTraceD_cases H t s with ⟨-, h⟩ | ⟨-, -, -, -, -, h⟩ | ⟨-, -, -, -, -, h⟩
      · rw [h]; exact ⟨[], by simp⟩
      · exact h
      · exact h
    unfold traceCallsD
    simp only [h1, hb, List.drop_left, List.flatten_cons, List.singleton_append]
    rw [hb, List.length_append] at i1
    rw [hb] at i2
    refine ⟨⟨rfl, i1⟩, ?_⟩
    rw [bytesOf_cons, ← List.append_assoc]
    exact i2

private theorem segd_full {H : Host} {a : OSegdArgs} {ts : List Trace} {w : OSegd} (ho : openSegdWriter H 0 a = .ok w)
    (h : (Spec.writeAll H ts w).1 = List.replicate ts.length (.ok ())) (cap : Nat) (sched : Nat → Nat) (N : Nat) :
    let e := Stream.finish cap sched (callsSegd H 0 a ts) N
    (handedOverD H w ts ≤ N → e.1 = .normal) ∧ (N + cap < handedOverD H w ts → e.1 = .threw) ∧
      e.2 = (Spec.writeAll H ts w).2.out.take N := by
  obtain ⟨h1, h2⟩ := traceCallsD_row H ts w h
  have hc : (callsSegd H 0 a ts).flatten = ⟨0, w.out⟩ :: (traceCallsD H w ts).flatten := by
    unfold callsSegd
    rw [ho]
    rfl
  have hrow : InRow 0 (callsSegd H 0 a ts).flatten := by
    rw [hc]
    exact ⟨rfl, by rw [Nat.zero_add]; exact h1⟩
  have hbytes : bytesOf (callsSegd H 0 a ts).flatten = (Spec.writeAll H ts w).2.out := by
    rw [hc, bytesOf_cons]
    exact h2
  have hd := C93_disk cap sched (callsSegd H 0 a ts) N
  have hn := C93_no_error cap sched (callsSegd H 0 a ts) N
  have ht' := threw (cap := cap) (sched := sched) (calls := callsSegd H 0 a ts) (free := N)
  rw [onDisk_inRow hrow, hbytes] at hd
  rw [handedOver_eq, hbytes] at hn ht'
  exact ⟨fun h => by rw [hn h], ht', hd⟩

/-- **C93 (part), `OSEGDRev2_1` with extension maps.** A program writes traces, not more than the channel sets announce,
and the device accepts `N` bytes. If that is enough, no call throws; if more are missing than the stream can keep back,
one does. The file that is left is the one of C87: it gives exactly the traces whose bytes were all accepted.
Missing: what `C87_maps_partial` leaves out. -/
theorem C93_segd_maps_partial (H : Host) (a : OSegdArgs) (ns : List GenHdrN) (ts : List Trace) (n : Trace → Nat)
    (hlg : LogOk H.lg) (hroom : 32 ≤ H.room) (hr : RecordFits a ns)
    (hn : ts.length ≤ announced a.chSets) (h64 : announced a.chSets < 2 ^ 64)
    (ht : ∀ t ∈ ts, TraceFits H a t (n t)) (hm : ∀ t ∈ ts, MapFits H a t (n t)) :
    ∃ w, openSegdWriter H 0 a = .ok w ∧ ∀ (cap : Nat) (sched : Nat → Nat) (N : Nat),
      let e := Stream.finish cap sched (callsSegd H 0 a ts) N
      (handedOverD H w ts ≤ N → e.1 = .normal) ∧ (N + cap < handedOverD H w ts → e.1 = .threw) ∧
      (w.out.length ≤ N → RescuedD H a ns w e.2 (fun t t' => MapBack a (n t) t t') ts N) ∧
      (N < w.out.length → openSegd e.2 a.extMap = throwExn .iosFailure ∨
        0 < a.gh1.skewBlocks ∧ a.extended = [] ∧ a.external = [] ∧ OnlyHeadersD H a ns e.2) := by
  obtain ⟨w, h1, h2, h3⟩ := C87_maps_partial H a ns ts n hlg hroom hr hn h64 ht hm
  refine ⟨w, h1, fun cap sched N => ?_⟩
  obtain ⟨g1, g2, g3⟩ := segd_full h1 h2 cap sched N
  obtain ⟨k1, k2⟩ := h3 N
  rw [← g3] at k1 k2
  exact ⟨g1, g2, k1, k2⟩

/-- **C93 (part), `OSEGDRev2_1` with the standard extension block.** The same for files of revision 2 whose traces have
the extension block of the standard.
Missing: what `C87_standard_partial` leaves out. -/
theorem C93_segd_standard_partial (H : Host) (a : OSegdArgs) (ns : List GenHdrN) (ts : List Trace)
    (n line point idx sensor : Trace → Nat)
    (hlg : LogOk H.lg) (hroom : 32 ≤ H.room) (hr : RecordFits a ns)
    (hn : ts.length ≤ announced a.chSets) (h64 : announced a.chSets < 2 ^ 64)
    (ht : ∀ t ∈ ts, TraceFits H a t (n t))
    (hm : ∀ t ∈ ts, StdExtFits a t (line t) (point t) (idx t) (sensor t)) :
    ∃ w, openSegdWriter H 0 a = .ok w ∧ ∀ (cap : Nat) (sched : Nat → Nat) (N : Nat),
      let e := Stream.finish cap sched (callsSegd H 0 a ts) N
      (handedOverD H w ts ≤ N → e.1 = .normal) ∧ (N + cap < handedOverD H w ts → e.1 = .threw) ∧
      (w.out.length ≤ N →
        RescuedD H a ns w e.2 (fun t t' => StdBack t t' (line t) (point t) (idx t) (sensor t)) ts N) ∧
      (N < w.out.length → openSegd e.2 a.extMap = throwExn .iosFailure ∨
        0 < a.gh1.skewBlocks ∧ a.extended = [] ∧ a.external = [] ∧ OnlyHeadersD H a ns e.2) := by
  obtain ⟨w, h1, h2, h3⟩ := C87_standard_partial H a ns ts n line point idx sensor hlg hroom hr hn h64 ht hm
  refine ⟨w, h1, fun cap sched N => ?_⟩
  obtain ⟨g1, g2, g3⟩ := segd_full h1 h2 cap sched N
  obtain ⟨k1, k2⟩ := h3 N
  rw [← g3] at k1 k2
  exact ⟨g1, g2, k1, k2⟩

/-! ## Examples -/

/-- The device accepts half of the second trace. -/
example := C93_rev0_partial (.strict fun _ => 0) exText { formatCode := 3, sampPerTr := 2, endianness := 0x01020304 } exWMap
  exB [exT1, exT1] (by decide +kernel) ⟨by decide, .inr rfl, by decide⟩ (exMapOk _ rfl) rfl rfl rfl (by decide)
  (fun t ht => by
    simp only [List.mem_cons, List.not_mem_nil, or_false, or_self] at ht
    subst ht
    exact ⟨(exStorable _).1, rfl⟩) 8191 (fun _ => 0) 3900

example := C93_rev1_partial (.strict fun _ => 0) exText [exText] { formatCode := 3, revMajor := 1, extTextHeadersNum := 1 }
  exWMap exB [exT1, exT2] (by decide +kernel) (by decide) ⟨by decide, .inl rfl, by decide⟩ (exMapOk _ rfl) rfl
  (.inl rfl) (by unfold ExtendedOk; decide)
  (fun t ht => by
    simp only [List.mem_cons, List.not_mem_nil, or_false] at ht
    rcases ht with rfl | rfl
    · exact ⟨(exStorable _).1, rfl, _, .tail _ (.head _), rfl, _, rfl, by decide⟩
    · exact ⟨(exStorable _).2, rfl, _, .tail _ (.head _), rfl, _, rfl, by decide⟩) 0 (fun _ => 0) 7044

example := C93_rev2_partial (.strict fun _ => 0) exText [exText]
  { formatCode := 3, revMajor := 2, extTextHeadersNum := 1, byteOffOfFirstTr := 6800, numOfTrInFile := 2 }
  exWMap exB [exT1, exT2] (by decide +kernel) (by decide) ⟨by decide, .inl rfl, by decide⟩ (exMapOk _ rfl)
  (by decide) (.inl rfl) (by unfold ExtendedOk; decide) rfl rfl (.inr rfl)
  (fun t ht => by
    simp only [List.mem_cons, List.not_mem_nil, or_false] at ht
    rcases ht with rfl | rfl
    · exact ⟨(exStorable _).1, rfl, _, .tail _ (.head _), rfl, _, rfl, by decide⟩
    · exact ⟨(exStorable _).2, rfl, _, .tail _ (.head _), rfl, _, rfl, by decide⟩) 8191 (fun _ => 0) 7045

/-- SEG-D: two traces with the standard extension block. -/
example := C93_segd_standard_partial hostExample segdArgsExample [ghNExample] [segdTraceExample, segdTraceExample]
  (fun _ => 1) (fun _ => 0) (fun _ => 0) (fun _ => 0) (fun _ => 0) floorLog_ok (by decide)
  (recordFitsExample []) (by decide) (by decide)
  (by
    intro t ht
    have : t = segdTraceExample := by simpa using ht
    subst this
    exact traceFitsExample [] _
      (by constructor <;> first | exact .inl rfl | exact .inr ⟨rfl, rfl⟩ | rfl))
  (by
    intro t ht
    have : t = segdTraceExample := by simpa using ht
    subst this
    exact ⟨rfl, rfl, .inr (.inr ⟨rfl, rfl⟩), .inr (.inr ⟨rfl, rfl⟩), .inr ⟨rfl, rfl⟩, .inr ⟨rfl, rfl⟩,
      .inl rfl, by decide, by decide, by decide, by decide, by decide⟩)

/-- SEG-D with extension maps. -/
example := C93_segd_maps_partial hostExample { segdArgsExample with extMap := segdMapExample }
  [ghNExample] [segdMapTrace] (fun _ => 1) floorLog_ok (by decide)
  (recordFitsExample _) (by decide) (by decide)
  (by
    intro t ht
    have : t = segdMapTrace := by simpa using ht
    subst this
    exact traceFitsExample _ _
      (by constructor <;> first | exact .inl rfl | exact .inr ⟨rfl, rfl⟩ | rfl))
  (by
    intro t ht
    have : t = segdMapTrace := by simpa using ht
    subst this
    refine ⟨by decide, by decide, by decide, by decide, by decide, ?_,
      ⟨⟨3, "SAMP_NUM", .u24⟩, by decide, .u24, rfl, rfl, by decide, rfl⟩⟩
    intro fs hfs f hf
    simp only [segdMapExample, List.take, List.mem_cons, List.not_mem_nil, or_false] at hfs
    subst hfs
    simp only [List.mem_cons, List.not_mem_nil, or_false] at hf
    rcases hf with rfl | rfl
    · exact ⟨2, rfl⟩
    · exact ⟨-1200, rfl⟩)

/-- **C93 fails.** A SEG-Y file with two traces on a device that accepts nothing at all: all calls return, the program
ends normally, and the file is empty. -/
theorem C93_nothing_stored : Stream.finish 8191 (fun _ => 0)
    (callsRev0 (.strict fun _ => 0) exText { formatCode := 3, sampPerTr := 2 } exWMap [exT1, exT1]) 0 = (.normal, []) ∧
    (callsRev0 (.strict fun _ => 0) exText { formatCode := 3, sampPerTr := 2 } exWMap [exT1, exT1]).length = 3 := by
  refine ⟨?_, by decide +kernel⟩
  rw [C93_silent_loss _ _ _ (by decide +kernel)]
  rfl

end Sedaman.Props
