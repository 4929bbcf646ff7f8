import Verif.Lemmas.OSEGYDisk
import Verif.Props.E2E
import Verif.Props.E2EAuto
import Verif.Props.ISEGY

/-!
# C86: programs that are stopped while they write a SEG-Y file
-/

namespace Sedaman.Props

open Spec

private theorem visits_iterates {r : Reader} {ts : List Trace} (h : Visits r ts) :
    ∃ r1, Iterates r ts r1 ∧ hasTrace r1 = false := by
  induction ts generalizing r with
  | nil => exact ⟨r, rfl, h⟩
  | cons t ts ih =>
    obtain ⟨h1, ⟨r', h2, h3⟩, _⟩ := h
    obtain ⟨r1, a, b⟩ := ih h3
    exact ⟨r1, ⟨h1, r', h2, a⟩, b⟩

private theorem iterates_reads {r r1 : Reader} {ts : List Trace} (h : Iterates r ts r1) : ReadsTraces r ts r1 := by
  induction ts generalizing r with
  | nil => exact h
  | cons t ts ih =>
    obtain ⟨_, r', h2, h3⟩ := h
    exact ⟨r', h2, ih h3⟩

private theorem iterates_last {r r2 : Reader} {ts : List Trace} {t : Trace} (h : Iterates r (ts ++ [t]) r2) :
    ∃ r1, Iterates r ts r1 ∧ hasTrace r1 = true ∧ readTrace r1 = .ok (t, r2) := by
  induction ts generalizing r with
  | nil =>
    obtain ⟨h1, r', h2, h3⟩ := h
    have e : r2 = r' := h3
    subst e
    exact ⟨r, rfl, h1, h2⟩
  | cons x ts ih =>
    obtain ⟨h1, r', h2, h3⟩ := h
    obtain ⟨r1, a, b⟩ := ih h3
    exact ⟨r1, ⟨h1, r', h2, a⟩, b⟩

private theorem iterates_det {r a b : Reader} {xs ys : List Trace} (hl : xs.length = ys.length)
    (h1 : Iterates r xs a) (h2 : Iterates r ys b) : xs = ys ∧ a = b := by
  induction xs generalizing r ys with
  | nil =>
    have e := List.eq_nil_of_length_eq_zero hl.symm
    subst e
    exact ⟨rfl, Eq.trans h1 (Eq.symm h2)⟩
  | cons x xs ih =>
    match ys, hl, h2 with
    | y :: ys, hl, h2 =>
      obtain ⟨_, r1, a1, a2⟩ := h1
      obtain ⟨_, r2, b1, b2⟩ := h2
      rw [a1] at b1
      have e := Except.ok.inj b1
      obtain ⟨e1, e2⟩ := Prod.mk.inj e
      subst e1 e2
      obtain ⟨c1, c2⟩ := ih (by simpa using hl) a2 b2
      exact ⟨by rw [c1], c2⟩

private theorem iterates_same {k : Nat} {a b : Bytes} (h : SameStart k a b) {r r1 : Reader} {ts : List Trace}
    (hd : r.file.data = a) (hc : r.curr = r.file.pos) (hb : 1 ≤ hdrBlocks r.bh) (hr : Iterates r ts r1)
    (hp : r1.file.pos ≤ k) :
    Iterates { r with file := ⟨b, r.file.pos⟩, endData := b.length } ts
      { r1 with file := ⟨b, r1.file.pos⟩, endData := b.length } := by
  induction ts generalizing r with
  | nil =>
    have e : r1 = r := hr
    subst e
    rfl
  | cons t ts ih =>
    obtain ⟨_, r', h2, h3⟩ := hr
    obtain ⟨q1, q2, q3, q4, _⟩ := readTrace_pos h2
    have hpos := (readsTraces_pos (iterates_reads h3) q4).1
    have hstrict : r.file.pos < r'.file.pos := by
      obtain ⟨_, n, _, _, _, _, _, _, _, _, rfl⟩ := readTrace_ok h2
      simp only
      omega
    refine ⟨?_, _, readTrace_same h hd h2 (by omega), ih (q2.trans hd) q4 (by rw [q3]; exact hb) h3⟩
    unfold hasTrace
    simp only [decide_eq_true_eq]
    have := h.2.1
    omega

/-- How far the program got: the traces that were handed over completely, and the others. -/
private theorem split_at {f : List Trace → Nat} {k : Nat} (h0 : f [] ≤ k) (ts : List Trace) :
    ∃ ts1 ts2, ts = ts1 ++ ts2 ∧ f ts1 ≤ k ∧ ∀ t rest, ts2 = t :: rest → k < f (ts1 ++ [t]) := by
  induction ts using List.reverseRecOn with
  | nil => exact ⟨[], [], rfl, h0, by simp⟩
  | append_singleton ts t ih =>
    obtain ⟨ts1, ts2, e, h1, h2⟩ := ih
    match ts2, e, h2 with
    | [], e, h2 =>
      rw [List.append_nil] at e
      subst e
      by_cases h : f (ts ++ [t]) ≤ k
      · exact ⟨ts ++ [t], [], by simp, h, by simp⟩
      · exact ⟨ts, [t], rfl, h1, fun x rest hx => by
          have e := (List.cons.inj hx).1
          rw [← e]
          omega⟩
    | x :: xs, e, h2 =>
      exact ⟨ts1, x :: (xs ++ [t]), by rw [e, List.append_assoc]; rfl, h1, fun y rest hy => by
        have e := (List.cons.inj hy).1
        rw [← e]
        exact h2 x xs rfl⟩

private theorem rescued {D : List Trace → Bytes} {size : List Trace → Nat} {s k : Nat} {ts : List Trace} {m : HdrMap}
    {back : Trace → Trace → Prop} {texts : List Bytes} {bh : BinHeader} {disk : Bytes}
    (hsize : ∀ ts1 ts2, ts = ts1 ++ ts2 → size ts1 = (D ts1).length + s)
    (hmono : ∀ ts1 ts2 ts3, ts = ts1 ++ ts2 ++ ts3 → ∃ x, D (ts1 ++ ts2) = D ts1 ++ x)
    (good : ∀ ts1 ts2, ts = ts1 ++ ts2 → ∃ r backs,
      openReader (D ts1) none m = .ok r ∧ r.texts = texts ∧ r.bh = bh ∧
      List.Forall₂ back ts1 backs ∧ Visits r backs)
    (hst : bh.numOfTrailerStanza = 0) (hadd : bh.maxNumAddTrHeaders = 0)
    (hlen : 400 + 3200 * texts.length = (D []).length) (hm : m ≠ []) (hk : size [] ≤ k)
    (hdisk : disk = (D ts).take (k - s)) : Rescued size disk m back texts bh ts k := by
  obtain ⟨ts1, ts2, e, h1, h2⟩ := split_at (f := size) hk ts
  refine ⟨ts1, ts2, e, h1, h2, ?_⟩
  -- the file of the complete traces
  obtain ⟨r, backs, ho, ht, hbh, hf, hv⟩ := good ts1 ts2 e
  have l1 := hsize ts1 ts2 e
  obtain ⟨k, rfl⟩ : ∃ k', k = k' + s := ⟨k - s, by omega⟩
  rw [Nat.add_sub_cancel] at hdisk
  have h1' : (D ts1).length ≤ k := by omega
  have hle0 : (D []).length ≤ (D ts1).length := by
    obtain ⟨x, hx⟩ := hmono [] ts1 ts2 e
    rw [List.nil_append] at hx
    rw [hx, List.length_append]
    omega
  obtain ⟨x, hx⟩ := hmono ts1 ts2 [] (by rw [List.append_nil]; exact e)
  rw [← e] at hx
  obtain ⟨r1, hit, hend⟩ := visits_iterates hv
  have hst' : r.bh.numOfTrailerStanza = 0 := by rw [hbh]; exact hst
  have hheads : headersEnd r ≤ (D ts1).length := by
    unfold headersEnd
    rw [ht]
    omega
  obtain ⟨_, _, _, _, _, _, _, _, _, _, _, _, _, _, hc, hd, hmap, _⟩ := openReader_ok ho
  have hblk : hdrBlocks r.bh = 1 := by rw [hbh]; unfold hdrBlocks; rw [hadd]; rfl
  have hself := open_same (b := D ts1) ⟨Nat.le_refl _, Nat.le_refl _, rfl⟩ ho hst' hheads
  rw [ho] at hself
  have hed : r.endData = (D ts1).length := congrArg Reader.endData (Except.ok.inj hself)
  have hpos1 : r1.file.pos = (D ts1).length := by
    obtain ⟨_, _, _, q4, _, q6⟩ := readsTraces_pos (iterates_reads hit) hc
    unfold hasTrace at hend
    simp only [ne_eq, decide_not, Bool.not_eq_false', decide_eq_true_eq] at hend
    rw [← q4, hend, q6, hed]
  have hsame : SameStart (D ts1).length (D ts1) ((D ts).take k) := by
    refine ⟨Nat.le_refl _, ?_, ?_⟩
    · rw [List.length_take, hx, List.length_append]; omega
    · rw [List.take_take, Nat.min_eq_left h1', List.take_length, hx, List.take_left']
      rfl
  have hopen := open_same hsame ho hst' hheads
  have hits := iterates_same hsame hd hc (by omega) hit (Nat.le_of_eq hpos1)
  subst hdisk
  refine ⟨_, backs, _, hopen, ht, hbh, hf, hits, ?_⟩
  have hhas : hasTrace { r1 with file := ⟨(D ts).take k, r1.file.pos⟩, endData := ((D ts).take k).length } =
      true ↔ ts2 ≠ [] ∧ size ts1 < k + s := by
    rw [l1]
    unfold hasTrace
    have hcurr := (readsTraces_pos (iterates_reads hit) hc).2.2.2.1
    simp only [hcurr, hpos1, ne_eq, decide_not, Bool.not_eq_true', decide_eq_false_iff_not, List.length_take]
    match ts2, e, h2 with
    | [], e, _ =>
      rw [List.append_nil] at e
      rw [e, Nat.min_eq_right h1']
      simp
    | t :: rest, e, h2 =>
      have e' : ts = ts1 ++ [t] ++ rest := by rw [e, List.append_assoc]; rfl
      have l2 := hsize _ _ e'
      have := h2 t rest rfl
      obtain ⟨y, hy⟩ := hmono (ts1 ++ [t]) rest [] (by rw [List.append_nil]; exact e')
      rw [← e'] at hy
      have : k ≤ (D ts).length := by rw [hy, List.length_append]; omega
      rw [Nat.min_eq_left this]
      simp
      omega
  refine ⟨hhas, fun hp => ?_⟩
  obtain ⟨hne, hlt⟩ := hhas.1 hp
  match ts2, e, h2, hne with
  | t :: rest, e, h2, _ =>
    have e' : ts = ts1 ++ [t] ++ rest := by rw [e, List.append_assoc]; rfl
    obtain ⟨r', backs', ho2, ht2, hbh2, hf2, hv2⟩ := good (ts1 ++ [t]) rest e'
    have l2 := hsize _ _ e'
    have hk2 := h2 t rest rfl
    obtain ⟨z, hz⟩ := hmono ts1 [t] rest e'
    obtain ⟨y, hy⟩ := hmono (ts1 ++ [t]) rest [] (by rw [List.append_nil]; exact e')
    rw [← e'] at hy
    have etake : (D ts).take k = (D (ts1 ++ [t])).take k := by
      rw [hy, List.take_append_of_le_length (by omega)]
    -- the reader of the file with one trace more
    have hsame2 : SameStart (D ts1).length (D ts1) (D (ts1 ++ [t])) := by
      refine ⟨Nat.le_refl _, by rw [hz, List.length_append]; omega, ?_⟩
      rw [List.take_length, hz, List.take_left']
      rfl
    have ho2' := open_same hsame2 ho hst' hheads
    rw [ho2] at ho2'
    have er := Except.ok.inj ho2'
    have hits2 := iterates_same hsame2 hd hc (by omega) hit (Nat.le_of_eq hpos1)
    rw [← er] at hits2
    obtain ⟨r2, hit2, hend2⟩ := visits_iterates hv2
    obtain ⟨bs, b, rfl⟩ : ∃ bs b, backs' = bs ++ [b] := by
      have hl := hf2.length_eq
      rcases List.eq_nil_or_concat backs' with h | ⟨bs, b, h⟩
      · rw [h] at hl; simp at hl
      · exact ⟨bs, b, by rw [h, List.concat_eq_append]⟩
    obtain ⟨r1', g1, g2, g3⟩ := iterates_last hit2
    have hlb : backs.length = bs.length := by
      have q1 := hf.length_eq
      have q2 := hf2.length_eq
      simp only [List.length_append, List.length_singleton] at q2
      omega
    obtain ⟨e1, e2⟩ := iterates_det hlb hits2 g1
    have hst2 : r'.bh.numOfTrailerStanza = 0 := by rw [hbh2]; exact hst
    have hheads2 : headersEnd r' ≤ (D ts1).length := by
      unfold headersEnd
      rw [ht2]
      omega
    obtain ⟨_, _, _, _, _, _, _, _, _, _, _, _, _, _, hc2, hd2, hmap2, _⟩ := openReader_ok ho2
    have hself2 := open_same (b := D (ts1 ++ [t])) ⟨Nat.le_refl _, Nat.le_refl _, rfl⟩ ho2 hst2
      (by rw [hz, List.length_append]; omega)
    rw [ho2] at hself2
    have hed2 : r'.endData = (D (ts1 ++ [t])).length := congrArg Reader.endData (Except.ok.inj hself2)
    have hpos2 : r2.file.pos = (D (ts1 ++ [t])).length := by
      obtain ⟨_, _, _, q4, _, q6⟩ := readsTraces_pos (iterates_reads hit2) hc2
      unfold hasTrace at hend2
      simp only [ne_eq, decide_not, Bool.not_eq_false', decide_eq_true_eq] at hend2
      rw [← q4, hend2, q6, hed2]
    have hp1' : r1'.file.pos = (D ts1).length := by rw [← e2]; exact hpos1
    have hd1' : r1'.file.data = D (ts1 ++ [t]) := by rw [← e2]
    have hmb : r1'.bh = bh ∧ r1'.map = m := by
      obtain ⟨_, _, q3, _, q5, _⟩ := readsTraces_pos (iterates_reads g1) hc2
      exact ⟨q3.trans hbh2, q5.trans hmap2⟩
    have hcut := readTrace_cut (k := k) (ed := ((D (ts1 ++ [t])).take k).length) hd1' g3 (by omega) (by omega)
    rw [hp1'] at hcut
    rcases hcut with hcut | hcut
    · rw [← e2] at hcut
      rw [etake, hpos1]
      exact hcut
    · exfalso
      have h0 := hcut.1
      rw [hmb.1, hmb.2] at h0
      unfold headerBlocks at h0
      rw [hadd] at h0
      have : m.length = 0 := by simpa using h0
      exact hm (List.eq_nil_of_length_eq_zero this)

private theorem writeAll_split {step : Writer → Trace → Out Writer} {w w1 w' : Writer} {ts1 ts2 : List Trace}
    (h1 : writeAll step w ts1 = .ok w1) (h : writeAll step w (ts1 ++ ts2) = .ok w') :
    writeAll step w1 ts2 = .ok w' := by
  unfold writeAll at h h1 ⊢
  rw [List.foldlM_append, h1] at h
  exact h

private theorem writeAll_prefix {step : Writer → Trace → Out Writer} {w w' : Writer} {ts1 ts2 : List Trace}
    (h : writeAll step w (ts1 ++ ts2) = .ok w') : ∃ w1, writeAll step w ts1 = .ok w1 := by
  unfold writeAll at h ⊢
  rw [List.foldlM_append] at h
  obtain ⟨w1, h1, _⟩ := bind_ok h
  exact ⟨w1, h1⟩

/-- The file after these calls. -/
private def fileAfter (step : Writer → Trace → Out Writer) (w : Writer) (ts : List Trace) : Bytes :=
  match writeAll step w ts with
  | .ok w' => w'.file.data
  | .error _ => []

private theorem fileAfter_ok {step : Writer → Trace → Out Writer} {w w' : Writer} {ts : List Trace}
    (h : writeAll step w ts = .ok w') : fileAfter step w ts = w'.file.data := by
  unfold fileAfter
  rw [h]

private theorem stopped {est : LogEst} {rev : Rev} {w0 : Writer} {ts : List Trace} {m : HdrMap} {op : List Put}
    {back : Trace → Trace → Prop} {texts : List Bytes} {bh : BinHeader} {puts : List Trace → List Put}
    (hputs : ∀ ts1 ts2 w1, ts = ts1 ++ ts2 → writeAll (rev.write est) w0 ts1 = .ok w1 →
      puts ts1 = op ++ callPuts (rev.write est) (Rev.puts est rev) w0 ts1)
    (hi : WInv w0) (ha : w0.auto = false) (hop : InRow 0 op) (hb : bytesOf op = w0.file.data)
    (good : ∀ ts1 ts2, ts = ts1 ++ ts2 → ∃ w1 r backs, writeAll (rev.write est) w0 ts1 = .ok w1 ∧
      openReader w1.file.data none m = .ok r ∧ r.texts = texts ∧ r.bh = bh ∧
      List.Forall₂ back ts1 backs ∧ Visits r backs)
    (hst : bh.numOfTrailerStanza = 0) (hadd : bh.maxNumAddTrHeaders = 0)
    (hlen : 400 + 3200 * texts.length = w0.file.data.length) (hm : m ≠ []) (k : Nat) :
    (k < 400 + 3200 * texts.length → openReader (onDisk (puts ts) k) none m = throwExn .iosFailure) ∧
    (400 + 3200 * texts.length ≤ k →
      Rescued (fun ts => handedOver (puts ts)) (onDisk (puts ts) k) m back texts bh ts k) := by
  have data : ∀ ts1 ts2, ts = ts1 ++ ts2 → bytesOf (puts ts1) = fileAfter (rev.write est) w0 ts1 ∧
      InRow 0 (puts ts1) := by
    intro ts1 ts2 e
    obtain ⟨w1, _, _, h, _⟩ := good ts1 ts2 e
    have a := hands_calls hi (.inl ha) h
    rw [hputs ts1 ts2 w1 e h, fileAfter_ok h, bytesOf_append, hb, a.app.data]
    refine ⟨rfl, hop.append ?_⟩
    rw [hb, Nat.zero_add]
    exact a.row
  have hdisk : onDisk (puts ts) k = (fileAfter (rev.write est) w0 ts).take k := by
    obtain ⟨a, b⟩ := data ts [] (by simp)
    rw [onDisk_inRow b, a]
  refine ⟨fun hk => ?_, fun hk => ?_⟩
  · obtain ⟨w1, r, _, h, ho, ht, _⟩ := good ts [] (by simp)
    rw [hdisk, fileAfter_ok h]
    refine open_cut ho ?_
    unfold headersEnd
    rw [ht]
    omega
  · refine rescued (D := fileAfter (rev.write est) w0) (s := 0) ?_ ?_ ?_ hst hadd ?_ hm ?_ (by simpa using hdisk)
    · intro ts1 ts2 e
      rw [handedOver_eq, (data ts1 ts2 e).1, Nat.add_zero]
    · intro ts1 ts2 ts3 e
      obtain ⟨w2, _, _, h, _⟩ := good (ts1 ++ ts2) ts3 e
      obtain ⟨w1, h1⟩ := writeAll_prefix h
      have a := hands_calls hi (.inl ha) h1
      rw [fileAfter_ok h, fileAfter_ok h1]
      exact ⟨_, (hands_calls a.app.inv (.inl (a.app.kept.auto.trans ha)) (writeAll_split h1 h)).app.data⟩
    · intro ts1 ts2 e
      obtain ⟨w1, r, backs, h, x⟩ := good ts1 ts2 e
      rw [fileAfter_ok h]
      exact ⟨r, backs, x⟩
    · rw [fileAfter_ok (show writeAll (rev.write est) w0 [] = .ok w0 from rfl)]
      exact hlen
    · have := (data [] ts rfl).1
      rw [fileAfter_ok (show writeAll (rev.write est) w0 [] = .ok w0 from rfl)] at this
      rw [handedOver_eq, this, ← hlen]
      exact hk

private theorem map_ne {bh : BinHeader} {m : HdrMap} {b : HBlock} (h : MapOk bh m b) : m ≠ [] := by
  have := h.head
  rintro rfl
  cases this

/-- **C86.** When everything is handed over, the file of the model is on disk: for any history of successful calls,
and also for automatic binary headers. -/
theorem C86_finished_rev0 (est : LogEst) (text : Bytes) (bh : BinHeader) (m : HdrMap) (ts : List Trace) (w0 w : Writer)
    (ho : openRev0 text bh m = .ok w0) (hw : writeAll (writeTraceRev0 est) w0 ts = .ok w) :
    onDisk (programRev0 est text bh m ts) (handedOver (programRev0 est text bh m ts)) = w.file.data := by
  have hi := opens_inv (rev := .r0) ⟨text, bh, m, ho⟩
  unfold programRev0
  rw [ho]
  simp only
  obtain ⟨-, t, bo, bps, h1, -, -, h3, -, -, rfl⟩ := openRev0_ok ho
  obtain ⟨p1, p2⟩ := openPuts_row (rev0 := true) (ts := []) (trl := []) (m := m) (bps := bps) h1 (by simp) h3
  have := stored_program (rev := .r0) (tail := []) hi rfl p1 p2 hw trivial
  rw [List.append_nil, show bytesOf [] = [] from rfl, List.append_nil] at this
  exact this

/-- **C86.** The same for `OSEGYRev1`. -/
theorem C86_finished_rev1 (est : LogEst) (texts : List Bytes) (bh : BinHeader) (m : HdrMap) (ts : List Trace)
    (w0 w : Writer) (hl : texts.length ≤ 65536) (ho : openRev1 texts bh m = .ok w0)
    (hw : writeAll (writeTraceRev1 est) w0 ts = .ok w) :
    onDisk (programRev1 est texts bh m ts) (handedOver (programRev1 est texts bh m ts)) = w.file.data := by
  have hi := opens_inv (rev := .r1) ⟨texts, bh, m, hl, ho⟩
  unfold programRev1
  rw [ho]
  simp only
  obtain ⟨-, t, ts', bo, bps, h1, h1', -, -, h3, -, -, rfl⟩ := openRev1_ok ho
  obtain ⟨p1, p2⟩ := openPuts_row (rev0 := false) (trl := []) (m := m) (bps := bps) h1 h1' h3
  have := stored_program (rev := .r1) (tail := []) hi rfl p1 p2 hw trivial
  rw [List.append_nil, show bytesOf [] = [] from rfl, List.append_nil] at this
  exact this

/-- **C86.** The same for `OSEGYRev2`, closed. -/
theorem C86_finished_rev2 (est : LogEst) (texts trailers : List Bytes) (bh : BinHeader) (m : HdrMap) (ts : List Trace)
    (w0 w : Writer) (data : Bytes) (hl : texts.length ≤ 65536) (ho : openRev2 texts bh trailers m = .ok w0)
    (hw : writeAll (writeTraceRev2 est) w0 ts = .ok w) (hc : closeRev2 w = .ok data) :
    onDisk (programRev2 est texts bh trailers m ts) (handedOver (programRev2 est texts bh trailers m ts)) = data := by
  have hi := opens_inv2 (rev := .r2) ⟨texts, bh, trailers, m, hl, ho⟩
  obtain ⟨-, htr, t, ts', bo, bps, h1, h1', -, -, h3, -, -, e0⟩ := openRev2_ok ho
  have htw : w.trailers = trailers := by
    rw [(kept_calls (rev := .r2) hi.inv hw).trailers, e0]
    rfl
  unfold programRev2
  rw [ho]
  simp only
  rw [hw]
  simp only
  subst e0
  obtain ⟨p1, p2⟩ := openPuts_row (rev0 := false) (trl := trailers) (m := m) (bps := bps) h1 h1' h3
  obtain ⟨t1, t2⟩ := textPuts_row w.file.data.length trailers fun x hx => by rw [htr x hx]
  unfold closeRev2 at hc
  rw [seekEnd_zero, ok_bind] at hc
  unfold closePuts
  by_cases hz : w.bh.numOfTrailerStanza ≠ 0
  · rw [if_pos hz] at hc ⊢
    rw [htw, writeTexts_of (fun x hx => by rw [htr x hx]) rfl, ok_bind] at hc
    rw [htw]
    refine (stored_program (rev := .r2) hi.inv rfl p1 p2 hw t1).trans ?_
    rw [t2]
    exact Except.ok.inj hc
  · rw [if_neg hz] at hc ⊢
    refine (stored_program (rev := .r2) (tail := []) hi.inv rfl p1 p2 hw trivial).trans ?_
    rw [← Except.ok.inj hc]
    exact List.append_nil _

/-- **C86 (part).** A program that writes traces with an `OSEGYRev0` and is stopped at any moment: before the
text header and the binary header are on disk the file cannot be opened; after that it opens, and every trace
that was complete is there. (Automatic binary headers: `C86_automatic_partial`. The conditions are those of C20.) -/
theorem C86_rev0_partial (est : LogEst) (text : Bytes) (bh : BinHeader) (m : HdrMap) (b : HBlock)
    (ts : List Trace) (k : Nat) (ht : text.length = 3200) (hbh : HeaderOk bh) (hm : MapOk bh m b)
    (hrev : bh.revMajor = 0) (hexts : bh.extTextHeadersNum = 0) (hext : bh.extSampPerTr = 0)
    (hexplicit : bh ≠ { formatCode := 1 })
    (hts : ∀ t ∈ ts, Storable est bh.formatCode (orderOfMarker bh.endianness) b.fields t ∧
      (t.samples.length : Int) = bh.sampPerTr % 65536) :
    (k < 3600 → openReader (onDisk (programRev0 est text bh m ts) k) none m = throwExn .iosFailure) ∧
    (3600 ≤ k → Rescued (fun ts => handedOver (programRev0 est text bh m ts))
      (onDisk (programRev0 est text bh m ts) k) m
      (TraceBack est bh.formatCode (orderOfMarker bh.endianness) b.fields) [text] (visible bh) ts k) := by
  obtain ⟨w0, _, _, _, ho, _⟩ := C20_roundtrip_partial est text bh m b [] ht hbh hm hrev hexts hext hexplicit
    (by simp)
  have good : ∀ ts1 ts2, ts = ts1 ++ ts2 → ∃ w1 r backs, writeAll ((Rev.r0).write est) w0 ts1 = .ok w1 ∧
      openReader w1.file.data none m = .ok r ∧ r.texts = [text] ∧ r.bh = visible bh ∧
      List.Forall₂ (TraceBack est bh.formatCode (orderOfMarker bh.endianness) b.fields) ts1 backs ∧
      Visits r backs := by
    intro ts1 ts2 e
    obtain ⟨w0', w1, r, backs, h0, h⟩ := C20_roundtrip_partial est text bh m b ts1 ht hbh hm hrev hexts hext
      hexplicit (fun t h => hts t (by rw [e]; exact List.mem_append_left _ h))
    rw [ho] at h0
    rw [Except.ok.inj h0]
    exact ⟨w1, r, backs, h⟩
  have hi := opens_inv (rev := .r0) ⟨text, bh, m, ho⟩
  obtain ⟨v1, v2, v3⟩ := visible_low (bh := bh) (by omega)
  have hp : ∀ ts, programRev0 est text bh m ts = openPuts true w0.texts bh ++
      callPuts (writeTraceRev0 est) (putsRev0 est) w0 ts := by
    intro ts
    unfold programRev0
    rw [ho]
  obtain ⟨-, t, bo, bps, h1, h2, -, h3, -, -, rfl⟩ := openRev0_ok ho
  have hne : text ≠ [] := by rintro rfl; cases ht
  obtain ⟨rfl, -⟩ := h2 hne
  obtain ⟨p1, p2⟩ := openPuts_row (rev0 := true) (ts := []) (trl := []) (m := m) (bps := bps) h1 (by simp) h3
  refine stopped (rev := .r0) (puts := programRev0 est t bh m) (fun ts1 _ _ _ _ => hp ts1) hi ?_ p1 p2 good v3 v1 ?_
    (map_ne hm) k
  · show decide _ = false
    refine decide_eq_false ?_
    unfold memHeader
    rw [if_pos rfl, fmt_ne hbh]
    exact hexplicit
  · rw [← p2]
    show _ = (bytesOf _).length
    rw [p2]
    unfold openedWriter
    simp only [List.length_append, List.length_take, binHeaderBytes_length, List.length_singleton]
    simp [ht]

/-- Stopped in the middle of the second trace. -/
example := C86_rev0_partial (.strict fun _ => 0) exText { formatCode := 3, sampPerTr := 2, endianness := 0x01020304 } exWMap exB
  [exT1, exT1] 3900 (by decide +kernel) ⟨by decide, .inr rfl, by decide⟩ (exMapOk _ rfl) rfl rfl rfl (by decide)
  (fun t ht => by
    simp only [List.mem_cons, List.not_mem_nil, or_false, or_self] at ht
    subst ht
    exact ⟨(exStorable _).1, rfl⟩)

private theorem opened_length {text : Bytes} {exts trl : List Bytes} {bh : BinHeader} {m : HdrMap} {bo : ByteOrder}
    {bps : Nat} (hl : ∀ x ∈ text :: exts, x.length = 3200) :
    400 + 3200 * (text :: exts).length = (openedWriter false text exts trl bh m bo bps).file.data.length := by
  have h1 := textBytes_length (ts := exts) fun x h => by rw [hl x (.tail _ h)]
  have ht := hl text (.head _)
  unfold openedWriter
  simp only [List.length_append, List.length_take, binHeaderBytes_length, List.length_cons, Bool.false_eq_true,
    if_false, h1, ht]
  omega

/-- **C86 (part).** The same for `OSEGYRev1`. The conditions are those of C21. -/
theorem C86_rev1_partial (est : LogEst) (text : Bytes) (exts : List Bytes) (bh : BinHeader) (m : HdrMap)
    (b : HBlock) (ts : List Trace) (k : Nat) (hl : ∀ x ∈ text :: exts, x.length = 3200)
    (hn : exts.length < 65536) (hbh : HeaderOk bh) (hm : MapOk bh m b) (hrev : bh.revMajor = 1)
    (hdecl : TextsDeclared bh exts) (hext : ExtendedOk bh)
    (hts : ∀ t ∈ ts, Storable est bh.formatCode (orderOfMarker bh.endianness) b.fields t ∧
      LengthKnown bh b.fields t) :
    (k < 400 + 3200 * (text :: exts).length →
      openReader (onDisk (programRev1 est (text :: exts) bh m ts) k) none m = throwExn .iosFailure) ∧
    (400 + 3200 * (text :: exts).length ≤ k →
      Rescued (fun ts => handedOver (programRev1 est (text :: exts) bh m ts))
        (onDisk (programRev1 est (text :: exts) bh m ts) k) m
        (TraceBack est bh.formatCode (orderOfMarker bh.endianness) b.fields) (text :: exts) (visible bh) ts k) := by
  obtain ⟨w0, _, _, _, ho, _⟩ := C21_roundtrip_partial est text exts bh m b [] hl hn hbh hm hrev hdecl hext (by simp)
  have good : ∀ ts1 ts2, ts = ts1 ++ ts2 → ∃ w1 r backs, writeAll ((Rev.r1).write est) w0 ts1 = .ok w1 ∧
      openReader w1.file.data none m = .ok r ∧ r.texts = text :: exts ∧ r.bh = visible bh ∧
      List.Forall₂ (TraceBack est bh.formatCode (orderOfMarker bh.endianness) b.fields) ts1 backs ∧
      Visits r backs := by
    intro ts1 ts2 e
    obtain ⟨w0', w1, r, backs, h0, h⟩ := C21_roundtrip_partial est text exts bh m b ts1 hl hn hbh hm hrev hdecl hext
      (fun t h => hts t (by rw [e]; exact List.mem_append_left _ h))
    rw [ho] at h0
    rw [Except.ok.inj h0]
    exact ⟨w1, r, backs, h⟩
  have hi := opens_inv (rev := .r1) ⟨text :: exts, bh, m, by rw [List.length_cons]; omega, ho⟩
  obtain ⟨v1, v2, v3⟩ := visible_low (bh := bh) (by omega)
  have hp : ∀ ts, programRev1 est (text :: exts) bh m ts = openPuts false w0.texts bh ++
      callPuts (writeTraceRev1 est) (putsRev1 est) w0 ts := by
    intro ts
    unfold programRev1
    rw [ho]
  obtain ⟨-, t, ts', bo, bps, h1, h1', h2, -, h3, -, -, rfl⟩ := openRev1_ok ho
  obtain ⟨e, -⟩ := h2 (by simp)
  obtain ⟨rfl, rfl⟩ := List.cons.inj e
  obtain ⟨p1, p2⟩ := openPuts_row (rev0 := false) (trl := []) (m := m) (bps := bps) h1 h1' h3
  refine stopped (rev := .r1) (puts := programRev1 est (text :: exts) bh m) (fun ts1 _ _ _ _ => hp ts1) hi ?_ p1 p2 good
    v3 v1 (opened_length hl) (map_ne hm) k
  show decide _ = false
  refine decide_eq_false fun c => ?_
  unfold memHeader at c
  rw [if_neg (by simp), fmt_ne hbh] at c
  have := congrArg BinHeader.revMajor c
  simp only at this
  omega

example := C86_rev1_partial (.strict fun _ => 0) exText [exText] { formatCode := 3, revMajor := 1, extTextHeadersNum := 1 }
  exWMap exB [exT1, exT2] 7044 (by decide +kernel) (by decide) ⟨by decide, .inl rfl, by decide⟩ (exMapOk _ rfl) rfl
  (.inl rfl) (by unfold ExtendedOk; decide)
  (fun t ht => by
    simp only [List.mem_cons, List.not_mem_nil, or_false] at ht
    rcases ht with rfl | rfl
    · exact ⟨(exStorable _).1, rfl, _, .tail _ (.head _), rfl, _, rfl, by decide⟩
    · exact ⟨(exStorable _).2, rfl, _, .tail _ (.head _), rfl, _, rfl, by decide⟩)

/-- **C86 (part).** The same for `OSEGYRev2` without stanzas. The conditions are those of C22. -/
theorem C86_rev2_partial (est : LogEst) (text : Bytes) (exts : List Bytes) (bh : BinHeader) (m : HdrMap)
    (b : HBlock) (ts : List Trace) (k : Nat) (hl : ∀ x ∈ text :: exts, x.length = 3200)
    (hn : exts.length < 65536) (hbh : HeaderOk bh) (hm : MapOk bh m b) (hrev : 2 ≤ bh.revMajor)
    (hdecl : TextsDeclared bh exts) (hext : ExtendedOk bh)
    (hadd : bh.maxNumAddTrHeaders = 0) (hstz : bh.numOfTrailerStanza = 0)
    (hoff : bh.byteOffOfFirstTr = 0 ∨ bh.byteOffOfFirstTr = 3600 + 3200 * exts.length)
    (hts : ∀ t ∈ ts, Storable est bh.formatCode (orderOfMarker bh.endianness) b.fields t ∧
      LengthKnown bh b.fields t) :
    (k < 400 + 3200 * (text :: exts).length →
      openReader (onDisk (programRev2 est (text :: exts) bh [] m ts) k) none m = throwExn .iosFailure) ∧
    (400 + 3200 * (text :: exts).length ≤ k →
      Rescued (fun ts => handedOver (programRev2 est (text :: exts) bh [] m ts))
        (onDisk (programRev2 est (text :: exts) bh [] m ts) k) m
        (TraceBack est bh.formatCode (orderOfMarker bh.endianness) b.fields) (text :: exts) bh ts k) := by
  obtain ⟨w0, _, _, _, _, ho, _⟩ := C22_roundtrip_partial est text exts bh m b [] hl hn hbh hm hrev hdecl hext hadd
    hstz hoff (by simp)
  have hi2 := opens_inv2 (rev := .r2) ⟨text :: exts, bh, [], m, by rw [List.length_cons]; omega, ho⟩
  have hop := ho
  obtain ⟨-, -, t, ts', bo, bps, h1, h1', h2, -, h3, -, -, hw0⟩ := openRev2_ok ho
  obtain ⟨e, -⟩ := h2 (by simp)
  obtain ⟨rfl, rfl⟩ := List.cons.inj e
  have h0s : w0.bh.numOfTrailerStanza = 0 := by
    rw [hw0]
    show (memHeader _ _ _).numOfTrailerStanza = 0
    unfold memHeader
    rw [if_neg (by simp), fmt_ne hbh]
    exact hstz
  have hauto : w0.auto = false := by
    rw [hw0]
    show decide _ = false
    refine decide_eq_false fun c => ?_
    unfold memHeader at c
    rw [if_neg (by simp), fmt_ne hbh] at c
    have := congrArg BinHeader.revMajor c
    simp only at this
    omega
  have hcl : ∀ ts w1, writeAll (writeTraceRev2 est) w0 ts = .ok w1 → w1.bh.numOfTrailerStanza = 0 := by
    intro ts w1 h
    rw [(hands_calls (rev := .r2) hi2.inv (.inl hauto) h).app.bh, h0s]
  have good : ∀ ts1 ts2, ts = ts1 ++ ts2 → ∃ w1 r backs, writeAll ((Rev.r2).write est) w0 ts1 = .ok w1 ∧
      openReader w1.file.data none m = .ok r ∧ r.texts = text :: exts ∧ r.bh = bh ∧
      List.Forall₂ (TraceBack est bh.formatCode (orderOfMarker bh.endianness) b.fields) ts1 backs ∧
      Visits r backs := by
    intro ts1 ts2 e
    obtain ⟨w0', w1, data, r, backs, h0, h4, h5, h6, h7, h8, -, h9⟩ := C22_roundtrip_partial est text exts bh m b ts1 hl
      hn hbh hm hrev hdecl hext hadd hstz hoff (fun t h => hts t (by rw [e]; exact List.mem_append_left _ h))
    rw [ho] at h0
    have e0 := Except.ok.inj h0
    subst e0
    unfold closeRev2 at h5
    rw [seekEnd_zero, ok_bind, if_neg (by rw [hcl _ _ h4]; simp)] at h5
    have e5 : w1.file.data = data := Except.ok.inj h5
    exact ⟨w1, r, backs, h4, by rw [e5]; exact h6, h7, h8, h9⟩
  have hp : ∀ ts w1, writeAll (writeTraceRev2 est) w0 ts = .ok w1 → programRev2 est (text :: exts) bh [] m ts =
      openPuts false w0.texts bh ++ callPuts (writeTraceRev2 est) (putsRev2 est) w0 ts := by
    intro ts w1 h
    unfold programRev2
    rw [ho]
    simp only
    rw [h]
    simp only
    unfold closePuts
    rw [if_neg (by rw [hcl _ _ h]; simp), List.append_nil]
  obtain ⟨p1, p2⟩ := openPuts_row (rev0 := false) (trl := []) (m := m) (bps := bps) h1 h1' h3
  subst hw0
  refine stopped (rev := .r2) (puts := programRev2 est (text :: exts) bh [] m) (fun ts1 _ w1 _ h => hp ts1 w1 h)
    hi2.inv hauto p1 p2 good hstz hadd (opened_length hl) (map_ne hm) k

example := C86_rev2_partial (.strict fun _ => 0) exText [exText]
  { formatCode := 3, revMajor := 2, extTextHeadersNum := 1, byteOffOfFirstTr := 6800, numOfTrInFile := 2 }
  exWMap exB [exT1, exT2] 7045 (by decide +kernel) (by decide) ⟨by decide, .inl rfl, by decide⟩ (exMapOk _ rfl)
  (by decide) (.inl rfl) (by unfold ExtendedOk; decide) rfl rfl (.inr rfl)
  (fun t ht => by
    simp only [List.mem_cons, List.not_mem_nil, or_false] at ht
    rcases ht with rfl | rfl
    · exact ⟨(exStorable _).1, rfl, _, .tail _ (.head _), rfl, _, rfl, by decide⟩
    · exact ⟨(exStorable _).2, rfl, _, .tail _ (.head _), rfl, _, rfl, by decide⟩)

/-- **C86 (part).** The same for an `OSEGYRev0` opened without a binary header, which stores the binary header
again at the first trace. While it does so (bytes 3600 to 4000) the file holds the headers, the second one partly
old and partly new, and no trace. The conditions are those of C28. -/
theorem C86_automatic_partial (est : LogEst) (text : Bytes) (m : HdrMap) (b : HBlock) (w0 : Writer) (t0 : Trace)
    (ts : List Trace) (n : Nat) (x : ℚ) (si : Int) (k : Nat)
    (ho : openRev0 text {} m = .ok w0) (hm : MapOk {} m b)
    (hn : t0.header.get "SAMP_NUM" = some (.int n)) (hle : n ≤ 32767)
    (hx : HeaderNum t0.header "SAMP_INT" x) (hmax : x ≤ 32767) (htr : Truncates x si) (hsi : si ≠ 0)
    (hlo : -32768 ≤ si)
    (hts : ∀ t ∈ t0 :: ts, Storable est 1 .be b.fields t ∧ t.samples.length = n) :
    (k < 3600 → openReader (onDisk (programRev0 est text {} m (t0 :: ts)) k) none m = throwExn .iosFailure) ∧
    (3600 ≤ k → k < 4000 → ∃ new : Bytes, onDisk (programRev0 est text {} m (t0 :: ts)) k =
      w0.file.data.take 3200 ++ (new ++ w0.file.data.drop (3200 + new.length)) ∧ new.length = k - 3600) ∧
    (4000 ≤ k → Rescued (fun ts => max 4000 (handedOver (programRev0 est text {} m ts)))
      (onDisk (programRev0 est text {} m (t0 :: ts)) k) m (TraceBack est 1 .be b.fields)
      [w0.file.data.take 3200] { formatCode := 1, sampPerTr := n, sampInt := si } (t0 :: ts) k) := by
  have good : ∀ ts1 ts2, ts = ts1 ++ ts2 → ∃ w1 r backs, writeAll ((Rev.r0).write est) w0 (t0 :: ts1) = .ok w1 ∧
      openReader w1.file.data none m = .ok r ∧ r.texts = [w0.file.data.take 3200] ∧
      r.bh = { formatCode := 1, sampPerTr := n, sampInt := si } ∧
      List.Forall₂ (TraceBack est 1 .be b.fields) (t0 :: ts1) backs ∧ Visits r backs := by
    intro ts1 ts2 e
    exact C28_roundtrip_partial est text m b w0 t0 ts1 n x si ho hm hn hle hx hmax htr hsi hlo (fun t h => hts t (by
      rw [e, ← List.cons_append]; exact List.mem_append_left _ h))
  obtain ⟨hopens, hauto, hbh, hbo, hlen, hfp⟩ := auto_opens (rev := .r0) ⟨text, m, ho⟩
  have hi := opens_inv hopens
  have hp : ∀ ts, programRev0 est text {} m ts = openPuts true w0.texts {} ++
      callPuts (writeTraceRev0 est) (putsRev0 est) w0 ts := by
    intro ts
    unfold programRev0
    rw [ho]
  obtain ⟨p1, p2⟩ : InRow 0 (openPuts true w0.texts {}) ∧ bytesOf (openPuts true w0.texts {}) = w0.file.data := by
    obtain ⟨-, t, bo, bps, h1, -, -, h3, -, -, rfl⟩ := openRev0_ok ho
    exact openPuts_row (rev0 := true) (ts := []) h1 (by simp) h3
  -- the first trace
  obtain ⟨wa, ra, _, ha, hra, hta, hba, -⟩ := good [] ts rfl
  have ha1 : (Rev.r0).write est w0 t0 = .ok wa := by
    unfold writeAll at ha
    rw [List.foldlM_cons] at ha
    obtain ⟨w', h1, h2⟩ := bind_ok ha
    have : w' = wa := Except.ok.inj h2
    rw [← this]
    exact h1
  have later : ∀ ts1 w1, writeAll ((Rev.r0).write est) w0 (t0 :: ts1) = .ok w1 →
      writeAll ((Rev.r0).write est) wa ts1 = .ok w1 := by
    intro ts1 w1 h
    unfold writeAll at h ⊢
    rw [List.foldlM_cons, ha1] at h
    exact h
  obtain ⟨hd, ps, _, hhl, hput, -, -, hwa, -⟩ := auto_calls (ts := []) hi hauto (by omega) ha1 rfl
  have calls : ∀ ts1 w1, writeAll ((Rev.r0).write est) w0 (t0 :: ts1) = .ok w1 → ∃ qs,
      programRev0 est text {} m (t0 :: ts1) = openPuts true w0.texts {} ++ ⟨3200, hd⟩ :: (ps ++ qs) ∧
      InRow 3600 (ps ++ qs) ∧ w1.file.data = w0.file.data.take 3200 ++ (hd ++ bytesOf (ps ++ qs)) := by
    intro ts1 w1 h
    obtain ⟨hd', ps', qs, -, hput', h1, h2, h3, h4⟩ := auto_calls hi hauto (by omega) ha1 (later _ _ h)
    rw [hput] at hput'
    obtain ⟨e1, e2⟩ := List.cons.inj hput'
    obtain ⟨-, e1⟩ := Put.mk.inj e1
    subst e1 e2
    refine ⟨qs, ?_, h2, ?_⟩
    · rw [hp]
      exact congrArg _ h1
    · rw [h4, h3, bytesOf_append, List.append_assoc, List.append_assoc]
  have ht3 : (w0.file.data.take 3200).length = 3200 := by rw [List.length_take]; omega
  obtain ⟨wn, _, _, hwn, _⟩ := good ts [] (by simp)
  obtain ⟨qs, c1, c2, c3⟩ := calls ts wn hwn
  obtain ⟨d1, d2, d3⟩ := onDisk_again (o := w0.file.data.drop 3200) p1 (by rw [p2, List.take_append_drop]) ht3
    (by rw [List.length_drop]; omega) hhl c2 k
  rw [← c1] at d1 d2 d3
  refine ⟨fun hk => ?_, fun h1 h2 => ?_, fun hk => ?_⟩
  · rw [d1 (by omega)]
    refine C34_short_file _ none m hm.accepted ?_
    rw [List.length_take]
    omega
  · refine ⟨_, ?_, show (hd.take (k - 3600)).length = k - 3600 by rw [List.length_take]; omega⟩
    rw [d2 h1 (by omega), List.drop_drop, List.length_take]
    rw [show min (k - 3600) hd.length = k - 3600 by omega]
  · let D : List Trace → Bytes := fun ts1 =>
      if ts1 = [] then w0.file.data.take 3200 ++ hd else fileAfter ((Rev.r0).write est) w0 ts1
    have hD0 : D [] = w0.file.data.take 3200 ++ hd := by simp [D]
    have hD1 : ∀ ts1, D (t0 :: ts1) = fileAfter ((Rev.r0).write est) w0 (t0 :: ts1) := by
      intro ts1
      simp [D]
    have l0 : (D []).length = 3600 := by rw [hD0, List.length_append]; omega
    have data : ∀ ts1 ts2, ts = ts1 ++ ts2 → ∃ y, D (t0 :: ts1) = D [] ++ y ∧
        handedOver (programRev0 est text {} m (t0 :: ts1)) = 400 + (D (t0 :: ts1)).length := by
      intro ts1 ts2 e
      obtain ⟨w1, _, _, h, _⟩ := good ts1 ts2 e
      obtain ⟨qs, h1, h2, h3⟩ := calls ts1 w1 h
      rw [hD1, fileAfter_ok h, hD0]
      refine ⟨_, by rw [h3, List.append_assoc], ?_⟩
      rw [h1, h3, handedOver_eq, bytesOf_append, p2, bytesOf_cons]
      simp only [List.length_append]
      omega
    refine rescued (D := D) (s := 400) ?_ ?_ ?_ rfl rfl ?_ (map_ne hm) ?_ ?_
    · intro ts1 ts2 e
      match ts1, e with
      | [], _ =>
        rw [l0, hp]
        have : handedOver (openPuts true w0.texts {} ++ callPuts (writeTraceRev0 est) (putsRev0 est) w0 []) = 3600 := by
          rw [handedOver_eq, bytesOf_append, p2]
          simp [callPuts, bytesOf, hlen]
        rw [this]
        rfl
      | t :: ts1, e =>
        rw [List.cons_append] at e
        obtain ⟨rfl, e1⟩ := List.cons.inj e
        obtain ⟨y, h1, h2⟩ := data ts1 ts2 e1
        rw [h2]
        have : 3600 ≤ (D (t0 :: ts1)).length := by rw [h1, List.length_append]; omega
        omega
    · intro ts1 ts2 ts3 e
      match ts1, ts2, e with
      | [], [], _ => exact ⟨[], by simp⟩
      | [], t :: ts2, e =>
        rw [List.nil_append, List.cons_append] at e
        obtain ⟨rfl, e1⟩ := List.cons.inj e
        obtain ⟨y, h1, _⟩ := data ts2 ts3 e1
        exact ⟨y, h1⟩
      | t :: ts1, ts2, e =>
        rw [List.cons_append, List.cons_append] at e
        obtain ⟨rfl, e1⟩ := List.cons.inj e
        obtain ⟨w2, _, _, h, _⟩ := good (ts1 ++ ts2) ts3 e1
        obtain ⟨w1, h1⟩ := writeAll_prefix (ts1 := t0 :: ts1) (by rw [List.cons_append]; exact h)
        rw [List.cons_append, hD1, hD1, fileAfter_ok h, fileAfter_ok h1]
        have q1 := later _ _ h1
        have q2 := later _ _ h
        have hlt : wa.firstPos < wa.file.data.length := by
          obtain ⟨s, -⟩ := step_any hi ha1
          have h1 := (winv_of_auto hi s.auto).1.first.2
          rw [s.app.kept.first, s.app.data, List.length_append, List.length_append, s.hdrLen]
          omega
        have hia : WInv wa := by
          obtain ⟨s, -⟩ := step_any hi ha1
          exact s.app.inv
        have a := hands_calls hia (.inr hlt) q1
        exact ⟨_, (hands_calls a.app.inv (.inr (by
          rw [a.app.kept.first, a.app.data, List.length_append]; omega)) (writeAll_split q1 q2)).app.data⟩
    · intro ts1 ts2 e
      match ts1, e with
      | [], _ =>
        have hsame : SameStart 3600 wa.file.data (D []) := by
          refine ⟨?_, by omega, ?_⟩
          · rw [hwa, ← List.append_assoc, List.length_append, ← hD0]; omega
          · rw [hwa, ← List.append_assoc, ← hD0, List.take_append_of_le_length (by omega)]
        have hh : headersEnd ra ≤ 3600 := by
          unfold headersEnd
          rw [hta]
          rfl
        have h1 := open_same hsame hra (by rw [hba]) hh
        refine ⟨_, [], h1, hta, hba, .nil, ?_⟩
        show hasTrace _ = false
        obtain ⟨_, f2, _, _, _, _, _, _, _, h6, h7, h8, _, _, hc, _, _, _⟩ := openReader_ok hra
        rw [hba] at h8 h6
        rw [if_neg (by simp)] at h8
        unfold readExtText at h6
        rw [if_pos rfl] at h6
        have h6' := (Prod.mk.inj (Except.ok.inj h6)).2
        rw [← h6'] at h8
        unfold hasTrace
        simp only [hc, h8, l0]
        rfl
      | t :: ts1, e =>
        rw [List.cons_append] at e
        obtain ⟨rfl, e1⟩ := List.cons.inj e
        obtain ⟨w1, r, backs, h, h1⟩ := good ts1 ts2 e1
        rw [hD1, fileAfter_ok h]
        exact ⟨r, backs, h1⟩
    · rw [l0]
      rfl
    · show max 4000 _ ≤ k
      rw [hp]
      have : handedOver (openPuts true w0.texts {} ++ callPuts (writeTraceRev0 est) (putsRev0 est) w0 []) = 3600 := by
        rw [handedOver_eq, bytesOf_append, p2]
        simp [callPuts, bytesOf, hlen]
      rw [this]
      omega
    · rw [d3 hk, hD1, fileAfter_ok hwn, c3]

/-- The conditions of `C86_automatic_partial`. -/
example (k : Nat) : ∃ w0, openRev0 exText {} exWMap = .ok w0 ∧
    (4000 ≤ k → Rescued (fun ts => max 4000 (handedOver (programRev0 (.strict fun _ => 65) exText {} exWMap ts)))
      (onDisk (programRev0 (.strict fun _ => 65) exText {} exWMap [exA, exA]) k) exWMap
      (TraceBack (.strict fun _ => 65) 1 .be exB.fields)
      [w0.file.data.take 3200] { formatCode := 1, sampPerTr := 2, sampInt := 2000 } [exA, exA] k) := by
  obtain ⟨w0, h⟩ : ∃ w0, openRev0 exText {} exWMap = .ok w0 := by
    have : (openRev0 exText {} exWMap).isOk = true := by decide +kernel
    cases h : openRev0 exText {} exWMap with
    | ok w => exact ⟨w, rfl⟩
    | error e => rw [h] at this; cases this
  refine ⟨w0, h, (C86_automatic_partial _ exText exWMap exB w0 exA [exA] 2 (4001 / 2) 2000 k h (exMapOk _ rfl) rfl
    (by decide) (.inr ⟨_, rfl, by decide +kernel⟩) (by norm_num) ⟨by norm_num, by norm_num⟩ (by decide) (by decide)
    ?_).2.2⟩
  intro t ht
  simp only [List.mem_cons, List.not_mem_nil, or_false, or_self] at ht
  subst ht
  refine ⟨⟨?_, ?_, by decide⟩, rfl⟩
  · intro f hf
    simp only [exB, List.mem_cons, List.not_mem_nil, or_false] at hf
    rcases hf with rfl | rfl
    · exact ⟨0, .inr ⟨by decide, rfl⟩, nofun⟩
    · exact ⟨2, .inl rfl, nofun⟩
  · intro x hx
    simp only [exA, List.mem_cons, List.not_mem_nil, or_false, or_self] at hx
    subst hx
    exact ⟨_, exSurvivesIbm⟩

/-- **C86 fails with trailer stanzas.** With stanzas in the form that a reader understands (the conditions are those
of C23), the file cannot be opened before the very last byte is on disk: if the program is stopped at any moment
before that, all traces are lost. -/
theorem C86_stanzas_lost (est : LogEst) (text : Bytes) (exts init : List Bytes) (last : Bytes)
    (bh : BinHeader) (m : HdrMap) (b : HBlock) (ts : List Trace) (k : Nat)
    (hl : ∀ x ∈ text :: exts, x.length = 3200) (hn : exts.length < 65536)
    (htl : ∀ x ∈ init ++ [last], x.length = 3200) (hinit : ∀ x ∈ init, isEndText x = false)
    (hlast : isEndText last = true)
    (hbh : HeaderOk bh) (hm : MapOk bh m b) (hrev : 2 ≤ bh.revMajor)
    (hdecl : TextsDeclared bh exts) (hext : ExtendedOk bh) (hvar : bh.fixedTrLength = 0)
    (hadd : bh.maxNumAddTrHeaders = 0) (hstz : bh.numOfTrailerStanza = -1)
    (hnum : bh.numOfTrInFile = ts.length) (hne : ts ≠ [])
    (hoff : bh.byteOffOfFirstTr = 0 ∨ bh.byteOffOfFirstTr = 3600 + 3200 * exts.length)
    (hfield : ⟨114, "SAMP_NUM", .i16⟩ ∈ b.fields)
    (hts : ∀ t ∈ ts, Storable est bh.formatCode (orderOfMarker bh.endianness) b.fields t ∧
      t.header.get "SAMP_NUM" = some (.int t.samples.length) ∧ t.samples.length < 32768)
    (hk : k < handedOver (programRev2 est (text :: exts) bh (init ++ [last]) m ts)) :
    openReader (onDisk (programRev2 est (text :: exts) bh (init ++ [last]) m ts) k) none m = throwExn .iosFailure := by
  obtain ⟨w0, w, data, r, backs, ho, hw, hc, hopen, -, hrb, hrt, hdata, hed, -⟩ := delimited est text exts init last bh m b
    ts hl hn htl hinit hlast hbh hm hrev hdecl hext hvar hadd hstz hnum hne hoff hfield hts
  have hi2 := opens_inv2 (rev := .r2) ⟨text :: exts, bh, init ++ [last], m, by rw [List.length_cons]; omega, ho⟩
  obtain ⟨-, htr, t, ts', bo, bps, h1, h1', h2, -, h3, -, -, e0⟩ := openRev2_ok ho
  have hauto : w0.auto = false := by
    rw [e0]
    show decide _ = false
    refine decide_eq_false fun c => ?_
    unfold memHeader at c
    rw [if_neg (by simp), fmt_ne hbh] at c
    have := congrArg BinHeader.revMajor c
    simp only at this
    omega
  have a := hands_calls (rev := .r2) hi2.inv (.inl hauto) hw
  have hb0 : w.bh.numOfTrailerStanza = -1 := by
    rw [a.app.bh, e0]
    show (memHeader _ _ _).numOfTrailerStanza = -1
    unfold memHeader
    rw [if_neg (by simp), fmt_ne hbh]
    exact hstz
  have ht0 : w.trailers = init ++ [last] := by
    rw [a.app.kept.trailers, e0]
    rfl
  obtain ⟨p1, p2⟩ := openPuts_row (rev0 := false) (trl := init ++ [last]) (m := m) (bps := bps) h1 h1' h3
  rw [← e0] at p2
  obtain ⟨t1, t2⟩ := textPuts_row w.file.data.length (init ++ [last]) fun x hx => by rw [htl x hx]
  have hp : programRev2 est (text :: exts) bh (init ++ [last]) m ts = openPuts false w0.texts bh ++
      callPuts (Rev.r2.write est) (Rev.puts est .r2) w0 ts ++ textPuts w.file.data.length (init ++ [last]) := by
    unfold programRev2
    rw [ho]
    simp only
    rw [hw]
    simp only
    unfold closePuts
    rw [if_pos (by rw [hb0]; decide), ht0]
    rfl
  have hwt : w0.texts = t :: ts' := by rw [e0]; rfl
  rw [← hwt] at p1 p2
  have hrow : InRow 0 (programRev2 est (text :: exts) bh (init ++ [last]) m ts) ∧
      bytesOf (programRev2 est (text :: exts) bh (init ++ [last]) m ts) = data := by
    rw [hp, hdata, bytesOf_append, bytesOf_append, p2, t2, ← a.app.data, textBytes_exact htl]
    refine ⟨(p1.append (by rw [p2, Nat.zero_add]; exact a.row)).append ?_, rfl⟩
    rw [bytesOf_append, p2, ← a.app.data, Nat.zero_add]
    exact t1
  rw [handedOver_eq, hrow.2] at hk
  rw [onDisk_inRow hrow.1, hrow.2]
  refine open_cut_stanzas hopen (by rw [hrb]; exact hstz) (by rw [hrb]; exact hvar) (by rw [hrb]; exact hadd) ?_
    (by omega)
  rw [hed, hrt]
  rw [hdata, List.length_append, flatten_length_const 3200 htl] at hk
  exact hk

/-- Two traces, a stanza and an end stanza; all but the last byte of the end stanza is on disk. -/
example := C86_stanzas_lost (.strict fun _ => 0) exText [] [exText] exEnd
  { formatCode := 3, revMajor := 2, numOfTrailerStanza := -1, numOfTrInFile := 2 }
  exWMap exB [exT1, exT2] 10489 (by decide +kernel) (by decide) (by decide +kernel) (by decide +kernel) (by decide +kernel)
  ⟨by decide, .inl rfl, by decide⟩ (exMapOk _ rfl)
  (by decide) (.inl rfl) (by unfold ExtendedOk; decide) rfl rfl rfl rfl (by simp) (.inl rfl) (by decide)
  (fun t ht => by
    simp only [List.mem_cons, List.not_mem_nil, or_false] at ht
    rcases ht with rfl | rfl
    · exact ⟨(exStorable _).1, rfl, by decide⟩
    · exact ⟨(exStorable _).2, rfl, by decide⟩) (by decide +kernel)

/-- The number of bytes in this example. -/
example : handedOver (programRev2 (.strict fun _ => 0) [exText]
    { formatCode := 3, revMajor := 2, numOfTrailerStanza := -1, numOfTrInFile := 2 } ([exText] ++ [exEnd]) exWMap
    [exT1, exT2]) = 10490 := by decide +kernel

end Sedaman.Props
