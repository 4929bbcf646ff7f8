import Verif.Lemmas.OSEGYFail
import Verif.Lemmas.SegyCut
import Verif.Lemmas.WriteInv
import Verif.Spec.OSEGYDisk

/-!
# The bytes handed over and the file
-/

namespace Sedaman

open Spec

theorem storeByte_mid (a c : Bytes) (x y : Byte) : storeByte (a ++ x :: c) (y, a.length) = a ++ y :: c := by
  unfold storeByte
  have := write_over a [x] c [y] rfl
  simp only [List.cons_append, List.nil_append] at this
  rw [this]

theorem storeByte_end (a : Bytes) (y : Byte) : storeByte a (y, a.length) = a ++ [y] := by
  unfold storeByte
  rw [write_append rfl]

/-- Bytes stored at the end. -/
theorem stored_end (bs a : Bytes) : (bs.zipIdx a.length).foldl storeByte a = a ++ bs := by
  induction bs generalizing a with
  | nil => simp
  | cons b bs ih =>
    rw [List.zipIdx_cons, List.foldl_cons, storeByte_end]
    have := ih (a ++ [b])
    rw [List.length_append, List.length_singleton] at this
    rw [this, List.append_assoc, List.singleton_append]

/-- Bytes stored over others. -/
theorem stored_mid (bs a o c : Bytes) (h : o.length = bs.length) :
    (bs.zipIdx a.length).foldl storeByte (a ++ (o ++ c)) = a ++ (bs ++ c) := by
  induction bs generalizing a o with
  | nil => rw [List.eq_nil_of_length_eq_zero h]; rfl
  | cons b bs ih =>
    match o, h with
    | x :: o, h =>
      rw [List.zipIdx_cons, List.foldl_cons, List.cons_append, storeByte_mid]
      have := ih (a ++ [b]) o (by simpa using h)
      rw [List.length_append, List.length_singleton, List.append_assoc, List.append_assoc] at this
      exact this

/-- Each write starts where the one before ended. -/
def InRow : Nat → List Put → Prop
  | _, [] => True
  | n, p :: ps => p.pos = n ∧ InRow (n + p.bytes.length) ps

/-- All bytes. -/
def bytesOf (ps : List Put) : Bytes := ps.flatMap (·.bytes)

theorem bytesOf_append (a b : List Put) : bytesOf (a ++ b) = bytesOf a ++ bytesOf b := by
  simp [bytesOf]

theorem bytesOf_cons (p : Put) (b : List Put) : bytesOf (p :: b) = p.bytes ++ bytesOf b := by
  simp [bytesOf]

theorem handedOver_eq (ps : List Put) : handedOver ps = (bytesOf ps).length := by
  simp [handedOver, bytesOf, List.length_flatMap]

theorem InRow.append {n : Nat} {a b : List Put} (ha : InRow n a) (hb : InRow (n + (bytesOf a).length) b) :
    InRow n (a ++ b) := by
  induction a generalizing n with
  | nil => simpa [bytesOf] using hb
  | cons p ps ih =>
    refine ⟨ha.1, ih ha.2 ?_⟩
    rw [bytesOf_cons, List.length_append] at hb
    rwa [Nat.add_assoc]

theorem each_inRow {n : Nat} {ps : List Put} (h : InRow n ps) :
    ps.flatMap Put.each = (bytesOf ps).zipIdx n := by
  induction ps generalizing n with
  | nil => rfl
  | cons p ps ih =>
    rw [List.flatMap_cons, bytesOf_cons, List.zipIdx_append, ih h.2, Put.each, h.1, Nat.add_comm]

theorem zipIdx_take (l : Bytes) (n k : Nat) : (l.zipIdx n).take k = (l.take k).zipIdx n := by
  induction l generalizing n k with
  | nil => simp
  | cons x xs ih =>
    cases k with
    | zero => rfl
    | succ k => rw [List.zipIdx_cons, List.take_succ_cons, List.take_succ_cons, List.zipIdx_cons, ih]

/-- Without a seek the disk holds the first bytes. -/
theorem onDisk_inRow {ps : List Put} (h : InRow 0 ps) (k : Nat) : onDisk ps k = (bytesOf ps).take k := by
  unfold onDisk
  rw [each_inRow h, zipIdx_take]
  simpa using stored_end ((bytesOf ps).take k) []

/-! ## Steps of `write_trace` -/

/-- The step hands over these writes, one after the other, at the end of the file. -/
structure Hands (w w' : Writer) (ps : List Put) : Prop where
  row : InRow w.file.data.length ps
  app : Appends w w' (bytesOf ps)

theorem Hands.trans {a b c : Writer} {x y : List Put} (h : Hands a b x) (k : Hands b c y) : Hands a c (x ++ y) := by
  refine ⟨h.row.append ?_, by rw [bytesOf_append]; exact h.app.trans k.app⟩
  have := k.row
  rwa [h.app.data, List.length_append] at this

theorem hands_one {w w' : Writer} {bs : Bytes} (hi : WInv w) (h : Appends w w' bs) :
    Hands w w' [⟨w.file.pos, bs⟩] :=
  ⟨⟨hi.atEnd, trivial⟩, by simpa [bytesOf] using h⟩

theorem hands_nil {w : Writer} (hi : WInv w) : Hands w w [] :=
  ⟨trivial, by simp [bytesOf], rfl, Kept.refl w, hi⟩

theorem hands_header {est : LogEst} {w w' : Writer} {hdr : Header} (hi : WInv w)
    (h : putTraceHeader est w hdr = .ok w') : Hands w w' [⟨w.file.pos, w'.hdrBuf⟩] := by
  obtain ⟨b, m, out, h1, h2, rfl⟩ := putTraceHeader_ok hi.hdr h
  have hl := writeBlock_length (by rw [List.length_replicate]) h2
  exact hands_one hi (appends_write hi out out w.samp hl)

theorem hands_samples {est : LogEst} {w w' : Writer} {t : Trace} {c : Prop} [Decidable c] (hi : WInv w)
    (h : (if c then writeSamplesFix est w t.samples else writeSamplesVar est w t) = .ok w') :
    Hands w w' [⟨w.file.pos, w'.samp⟩] := by
  split at h
  · exact hands_one hi (writeSamplesFix_appends hi h).choose_spec.2.2.2
  · obtain ⟨_, _, _, _, _, _, _, _, _, a⟩ := writeSamplesVar_appends hi h
    exact hands_one hi a

theorem addBlock_length {est : LogEst} {w : Writer} {hdr : Header} {i : Nat} {buf : Bytes}
    (hl : w.hdrBuf.length = 240) (h : addBlock est w hdr i = .ok buf) : buf.length = 240 := by
  unfold addBlock at h
  obtain ⟨b, h1, h⟩ := bind_ok h
  have h1' := h1
  rw [memsetHdr_eq hl] at h1'
  have e := Except.ok.inj h1'
  subst e
  split at h
  · rw [writeFields_length h, List.length_replicate]
  · rw [← Except.ok.inj h, List.length_replicate]

theorem addLoopIO_zero (est : LogEst) (hdr : Header) (i : Nat) (w : Writer) :
    addLoopIO est hdr 0 i w = (.ok (), w) := by
  with_unfolding_all rfl

theorem addPuts_zero (est : LogEst) (hdr : Header) (i : Nat) (w : Writer) : addPuts est hdr 0 i w = [] := by
  with_unfolding_all rfl

set_option maxRecDepth 20000 in
theorem addPuts_succ (est : LogEst) (hdr : Header) (n i : Nat) (w : Writer) :
    addPuts est hdr (n + 1) i w =
      match addBlock est w hdr i with
      | .error _ => []
      | .ok buf => ⟨w.file.pos, buf⟩ ::
          addPuts est hdr n (i + 1) { w with hdrBuf := buf, file := w.file.write buf } := by
  with_unfolding_all rfl

theorem hands_add {est : LogEst} {hdr : Header} (n i : Nat) {w w' : Writer} (hi : WInv w)
    (h : addLoopIO est hdr n i w = (.ok (), w')) : Hands w w' (addPuts est hdr n i w) := by
  induction n generalizing i w with
  | zero =>
    rw [addLoopIO_zero] at h
    rw [← (Prod.mk.inj h).2, addPuts_zero]
    exact hands_nil hi
  | succ n ih =>
    rw [addLoopIO_succ] at h
    rw [addPuts_succ]
    cases hb : addBlock est w hdr i with
    | error e => rw [hb] at h; cases h
    | ok buf =>
      rw [hb] at h
      simp only at h ⊢
      have a := appends_write hi buf buf w.samp (addBlock_length hi.hdr hb)
      exact (hands_one hi a).trans (ih _ a.inv h)

/-- What the classes hand over. -/
def Rev.puts (est : LogEst) : Rev → Writer → Trace → List Put
  | .r0 => putsRev0 est
  | .r1 => putsRev1 est
  | .r2 => putsRev2 est

/-- Behind the automatic step. -/
def Rev.restPuts (est : LogEst) (rev : Rev) (t : Trace) (w : Writer) : List Put :=
  match rev with
  | .r0 =>
    putStep (putTraceHeader est w t.header) (fun w' => [⟨w.file.pos, w'.hdrBuf⟩]) fun w =>
    putStep (writeSamplesFix est w t.samples) (fun w' => [⟨w.file.pos, w'.samp⟩]) fun _ => []
  | .r1 =>
    putStep (putTraceHeader est w t.header) (fun w' => [⟨w.file.pos, w'.hdrBuf⟩]) fun w =>
    putStep (if !w.auto ∧ w.bh.fixedTrLength ≠ 0 then writeSamplesFix est w t.samples else writeSamplesVar est w t)
      (fun w' => [⟨w.file.pos, w'.samp⟩]) fun _ => []
  | .r2 =>
    putStep (putTraceHeader est w t.header) (fun w' => [⟨w.file.pos, w'.hdrBuf⟩]) fun w =>
    let add := if w.bh.maxNumAddTrHeaders ≠ 0 then
      addPuts est t.header (w.bh.maxNumAddTrHeaders - 1).toNat 1 w else []
    add ++ putStep (addHdrs est w t.header) (fun _ => []) fun w =>
    putStep (if w.bh.fixedTrLength ≠ 0 then writeSamplesFix est w t.samples else writeSamplesVar est w t)
      (fun w' => [⟨w.file.pos, w'.samp⟩]) fun _ => []

theorem puts_eq (est : LogEst) (rev : Rev) (w : Writer) (t : Trace) :
    Rev.puts est rev w t =
      putStep (autoHdrs (Rev.onlyInt rev) w t.header) (autoPuts w) (Rev.restPuts est rev t) := by
  cases rev <;> rfl

theorem putStep_ok {x : Out Writer} {w : Writer} {own next : Writer → List Put} (h : x = .ok w) :
    putStep x own next = own w ++ next w := by subst h; rfl

theorem hands_rest {est : LogEst} {rev : Rev} {t : Trace} {w w' : Writer} (hi : WInv w)
    (h : rest est rev t w = .ok w') : Hands w w' (Rev.restPuts est rev t w) := by
  cases rev with
  | r0 =>
    obtain ⟨w1, h1, h⟩ := bind_ok h
    have a := hands_header hi h1
    unfold Rev.restPuts
    simp only [putStep_ok h1, putStep_ok h, List.append_nil]
    exact a.trans (hands_samples (t := t) (c := True) a.app.inv (by rw [if_pos trivial]; exact h))
  | r1 =>
    obtain ⟨w1, h1, h⟩ := bind_ok h
    have a := hands_header hi h1
    unfold Rev.restPuts
    simp only [putStep_ok h1]
    rw [putStep_ok h, List.append_nil]
    exact a.trans (hands_samples a.app.inv h)
  | r2 =>
    obtain ⟨w1, h1, h⟩ := bind_ok h
    obtain ⟨w2, h2, h⟩ := bind_ok h
    have a := hands_header hi h1
    have b := agrees_addHdrs est w1 t.header a.app.inv.atEnd
    rw [h2] at b
    have b : addHdrsIO est w1 t.header = (.ok (), w2) := b
    have c : Hands w1 w2 (if w1.bh.maxNumAddTrHeaders ≠ 0 then
        addPuts est t.header (w1.bh.maxNumAddTrHeaders - 1).toNat 1 w1 else []) := by
      unfold addHdrsIO at b
      split at b
      · rename_i hz
        rw [if_pos hz]
        exact hands_add _ _ a.app.inv b
      · rename_i hz
        rw [if_neg hz]
        rw [← (Prod.mk.inj b).2]
        exact hands_nil a.app.inv
    unfold Rev.restPuts
    simp only [putStep_ok h1]
    rw [putStep_ok h2, List.nil_append, putStep_ok h, List.append_nil]
    exact a.trans (c.trans (hands_samples c.app.inv h))

/-- A call that is not the first one of an automatic writer. -/
theorem hands_later {est : LogEst} {rev : Rev} {t : Trace} {w w' : Writer} (hi : WInv w)
    (ha : w.auto = false ∨ w.file.data.length ≠ w.firstPos) (h : rev.write est w t = .ok w') :
    Hands w w' (Rev.puts est rev w t) := by
  rw [write_eq_rest] at h
  obtain ⟨w1, h1, h2⟩ := bind_ok h
  obtain ⟨_, _, hc⟩ := autoHdrs_ok hi h1
  rw [if_neg (by rintro ⟨x, y⟩; rcases ha with ha | ha; · rw [x] at ha; cases ha
                 · exact ha y)] at hc
  subst hc
  rw [puts_eq, putStep_ok h1]
  unfold autoPuts
  rw [if_neg (by rw [hi.atEnd]; rintro ⟨x, y⟩; rcases ha with ha | ha; · rw [x] at ha; cases ha
                 · exact ha y), List.nil_append]
  exact hands_rest hi h2

/-- The first call of an automatic writer. -/
theorem hands_first {est : LogEst} {rev : Rev} {t : Trace} {w w' : Writer} (hi : WInv w)
    (ha : w.auto = true) (hf : w.file.data.length = w.firstPos) (h : rev.write est w t = .ok w') :
    ∃ w1, WInv w1 ∧ Kept w w1 ∧ w1.file.data = w.file.data.take 3200 ++ binHeaderBytes w.bo w1.bh ∧
      Rev.puts est rev w t = ⟨3200, binHeaderBytes w.bo w1.bh⟩ :: Rev.restPuts est rev t w1 ∧
      Hands w1 w' (Rev.restPuts est rev t w1) := by
  rw [write_eq_rest] at h
  obtain ⟨w1, h1, h⟩ := bind_ok h
  obtain ⟨i1, k1, hc⟩ := autoHdrs_ok hi h1
  rw [if_pos ⟨ha, hf⟩] at hc
  refine ⟨w1, i1, k1, hc.2, ?_, hands_rest i1 h⟩
  rw [puts_eq, putStep_ok h1]
  unfold autoPuts
  rw [if_pos ⟨ha, by rw [hi.atEnd]; exact hf⟩, k1.bo]
  rfl

theorem hands_calls {est : LogEst} {rev : Rev} {ts : List Trace} {w w' : Writer} (hi : WInv w)
    (ha : w.auto = false ∨ w.firstPos < w.file.data.length) (h : writeAll (rev.write est) w ts = .ok w') :
    Hands w w' (callPuts (rev.write est) (Rev.puts est rev) w ts) := by
  induction ts generalizing w with
  | nil =>
    have e : w = w' := Except.ok.inj h
    subst e
    exact hands_nil hi
  | cons t ts ih =>
    unfold writeAll at h
    rw [List.foldlM_cons] at h
    obtain ⟨w1, h1, h⟩ := bind_ok h
    have a := hands_later hi (ha.imp id fun x => by omega) h1
    unfold callPuts
    rw [h1]
    refine a.trans (ih a.app.inv ?_ h)
    rw [a.app.kept.auto, a.app.kept.first, a.app.data, List.length_append]
    exact ha.imp id fun x => by omega

/-! ## Opening -/

theorem textPuts_row (n : Nat) (ts : List Bytes) (h : ∀ t ∈ ts, 3200 ≤ t.length) :
    InRow n (textPuts n ts) ∧ bytesOf (textPuts n ts) = textBytes ts := by
  induction ts generalizing n with
  | nil => exact ⟨trivial, rfl⟩
  | cons t ts ih =>
    obtain ⟨a, b⟩ := ih (n + textHeaderSize) fun x hx => h x (.tail _ hx)
    have hl : (t.take textHeaderSize).length = textHeaderSize := by
      have := h t (.head _)
      rw [List.length_take]; unfold textHeaderSize; omega
    refine ⟨⟨rfl, by simp only [hl]; exact a⟩, ?_⟩
    unfold textPuts
    rw [bytesOf_cons, b]
    rfl

theorem openPuts_row {rev0 : Bool} {t : Bytes} {ts trl : List Bytes} {bh : BinHeader} {m : HdrMap} {bo : ByteOrder}
    {bps : Nat} (ht : 3200 ≤ t.length) (hts : ∀ x ∈ ts, 3200 ≤ x.length)
    (hbo : byteOrderOf bh.endianness = .ok bo) :
    InRow 0 (openPuts rev0 (t :: ts) bh) ∧
      bytesOf (openPuts rev0 (t :: ts) bh) = (openedWriter rev0 t ts trl bh m bo bps).file.data := by
  have e : openPuts rev0 (t :: ts) bh = textPuts 0 [t] ++
      (⟨3200, binHeaderBytes bo (fmtOr rev0 bh)⟩ :: if rev0 then [] else textPuts 3600 ts) := by
    unfold openPuts
    have hbo' : byteOrderOf (fmtOr rev0 bh).endianness = .ok bo := by
      unfold fmtOr; split <;> exact hbo
    have eF : (if bh.formatCode = 0 then { bh with formatCode := (if rev0 then 1 else 5) } else bh) =
      fmtOr rev0 bh := rfl
    simp only [eF, hbo']
    rfl
  have hl : (t.take 3200).length = 3200 := by rw [List.length_take]; omega
  obtain ⟨a1, a2⟩ := textPuts_row 0 [t] (by simpa using ht)
  obtain ⟨b1, b2⟩ := textPuts_row 3600 ts hts
  have e1 : textBytes [t] = t.take 3200 := by simp [textBytes]
  rw [e]
  constructor
  · refine a1.append ?_
    rw [a2, e1, hl]
    refine ⟨rfl, ?_⟩
    rw [binHeaderBytes_length]
    cases rev0 with
    | true => trivial
    | false => exact b1
  · rw [bytesOf_append, a2, e1, bytesOf_cons]
    cases rev0 with
    | true => rfl
    | false => exact congrArg (fun x => t.take 3200 ++ (binHeaderBytes bo (fmtOr false bh) ++ x)) b2

/-! ## Automatic writers -/

/-- The calls of an automatic writer: the binary header is stored again, everything else goes to the end. -/
theorem auto_calls {est : LogEst} {rev : Rev} {t0 : Trace} {ts : List Trace} {w w' w1 : Writer} (hi : WInv w)
    (ha : w.auto = true) (hf : w.file.data.length = w.firstPos) (h0 : rev.write est w t0 = .ok w1)
    (h : writeAll (rev.write est) w1 ts = .ok w') :
    ∃ hd ps qs, hd.length = 400 ∧ Rev.puts est rev w t0 = ⟨3200, hd⟩ :: ps ∧
      callPuts (rev.write est) (Rev.puts est rev) w (t0 :: ts) = ⟨3200, hd⟩ :: (ps ++ qs) ∧
      InRow 3600 (ps ++ qs) ∧ w1.file.data = w.file.data.take 3200 ++ (hd ++ bytesOf ps) ∧
      w'.file.data = w1.file.data ++ bytesOf qs := by
  obtain ⟨wa, i1, k1, hd, hp, hh⟩ := hands_first hi ha hf h0
  have hfp := hi.autoFirst ha
  have hl : wa.file.data.length = 3600 := by
    rw [hd, List.length_append, List.length_take, binHeaderBytes_length]
    omega
  have hrow := hh.row
  rw [hl] at hrow
  have hlt : w1.firstPos < w1.file.data.length := by
    obtain ⟨s, -⟩ := step_any hi h0
    have h1 := (winv_of_auto hi s.auto).1.first.2
    rw [s.app.kept.first, s.app.data, List.length_append, List.length_append, s.hdrLen]
    omega
  have hq := hands_calls hh.app.inv (.inr hlt) h
  refine ⟨_, _, callPuts (rev.write est) (Rev.puts est rev) w1 ts, binHeaderBytes_length _ _, hp, ?_, ?_, ?_,
    hq.app.data⟩
  · rw [callPuts, h0, hp, List.cons_append]
  · refine hrow.append ?_
    have := hq.row
    rwa [hh.app.data, List.length_append, hl] at this
  · rw [hh.app.data, hd, List.append_assoc]

/-- What is on disk while the binary header is stored again, and after that. -/
theorem onDisk_again {op ps : List Put} {a o hd : Bytes} (hop : InRow 0 op) (hb : bytesOf op = a ++ o)
    (ha : a.length = 3200) (ho : o.length = 400) (hh : hd.length = 400) (hps : InRow 3600 ps) (k : Nat) :
    (k ≤ 3600 → onDisk (op ++ ⟨3200, hd⟩ :: ps) k = (a ++ o).take k) ∧
    (3600 ≤ k → k ≤ 4000 →
      onDisk (op ++ ⟨3200, hd⟩ :: ps) k = a ++ (hd.take (k - 3600) ++ o.drop (k - 3600))) ∧
    (4000 ≤ k → onDisk (op ++ ⟨3200, hd⟩ :: ps) k = (a ++ (hd ++ bytesOf ps)).take (k - 400)) := by
  have e : (op ++ ⟨3200, hd⟩ :: ps).flatMap Put.each =
      (a ++ o).zipIdx 0 ++ (hd.zipIdx 3200 ++ (bytesOf ps).zipIdx 3600) := by
    rw [List.flatMap_append, List.flatMap_cons, each_inRow hop, hb, each_inRow hps]
    rfl
  have l : ((a ++ o).zipIdx 0).length = 3600 := by
    rw [List.length_zipIdx, List.length_append]; omega
  have s0 := stored_end (a ++ o) []
  rw [List.nil_append] at s0
  have s0 : ((a ++ o).zipIdx 0).foldl storeByte [] = a ++ o := s0
  unfold onDisk
  rw [e]
  refine ⟨fun h => ?_, fun h1 h2 => ?_, fun h => ?_⟩
  · rw [List.take_append_of_le_length (by omega), zipIdx_take]
    simpa using stored_end ((a ++ o).take k) []
  · rw [List.take_append, l, List.take_of_length_le (by omega), List.foldl_append, s0,
      List.take_append_of_le_length (by rw [List.length_zipIdx]; omega), zipIdx_take]
    have := stored_mid (hd.take (k - 3600)) a (o.take (k - 3600)) (o.drop (k - 3600)) (by
      rw [List.length_take, List.length_take, ho, hh])
    rwa [List.take_append_drop, ha] at this
  · rw [List.take_append, l, List.take_of_length_le (by omega), List.foldl_append, s0, List.take_append,
      List.take_of_length_le (by rw [List.length_zipIdx]; omega), List.foldl_append, List.length_zipIdx, hh,
      zipIdx_take]
    have h1 := stored_mid hd a o [] (by omega)
    rw [List.append_nil, List.append_nil, ha] at h1
    rw [h1]
    have h2 := stored_end ((bytesOf ps).take (k - 3600 - 400)) (a ++ hd)
    rw [show (a ++ hd).length = 3600 by rw [List.length_append]; omega] at h2
    rw [h2, ← List.append_assoc, List.take_append (l₁ := a ++ hd),
      List.take_of_length_le (l := a ++ hd) (by rw [List.length_append]; omega),
      List.length_append, ha, hh, show k - 3600 - 400 = k - 400 - (3200 + 400) by omega]

/-! ## All bytes -/

theorem kept_calls {est : LogEst} {rev : Rev} {ts : List Trace} {w w' : Writer} (hi : WInv w)
    (h : writeAll (rev.write est) w ts = .ok w') : Kept w w' := by
  induction ts generalizing w with
  | nil =>
    have e : w = w' := Except.ok.inj h
    subst e
    exact Kept.refl w
  | cons t ts ih =>
    unfold writeAll at h
    rw [List.foldlM_cons] at h
    obtain ⟨w1, h1, h2⟩ := bind_ok h
    obtain ⟨s, -⟩ := step_any hi h1
    exact (s.kept hi).trans (ih s.app.inv h2)

theorem stored_row {a : Bytes} {ps : List Put} (h : InRow a.length ps) :
    (ps.flatMap Put.each).foldl storeByte a = a ++ bytesOf ps := by
  rw [each_inRow h, stored_end]

theorem onDisk_all (ps : List Put) : onDisk ps (handedOver ps) = (ps.flatMap Put.each).foldl storeByte [] := by
  unfold onDisk
  rw [List.take_of_length_le]
  rw [handedOver_eq]
  simp only [bytesOf, List.length_flatMap, Put.each, List.length_zipIdx]
  exact Nat.le_refl _

/-- All calls of a program, and what it still writes at the end of the file. -/
theorem stored_program {est : LogEst} {rev : Rev} {ts : List Trace} {w w' : Writer} {op tail : List Put} (hi : WInv w)
    (hf : w.file.data.length = w.firstPos) (hop : InRow 0 op) (hb : bytesOf op = w.file.data)
    (h : writeAll (rev.write est) w ts = .ok w') (ht : InRow w'.file.data.length tail) :
    onDisk (op ++ callPuts (rev.write est) (Rev.puts est rev) w ts ++ tail)
      (handedOver (op ++ callPuts (rev.write est) (Rev.puts est rev) w ts ++ tail)) =
      w'.file.data ++ bytesOf tail := by
  rw [onDisk_all, List.flatMap_append, List.foldl_append, List.flatMap_append, List.foldl_append]
  have h0 := stored_row (a := []) hop
  rw [h0, List.nil_append, hb]
  have key : ((callPuts (rev.write est) (Rev.puts est rev) w ts).flatMap Put.each).foldl storeByte w.file.data =
      w'.file.data := by
    cases hauto : w.auto with
    | false =>
      have a := hands_calls hi (.inl hauto) h
      rw [stored_row a.row, a.app.data]
    | true =>
      match ts, h with
      | [], h =>
        have e : w = w' := Except.ok.inj h
        rw [← e]
        rfl
      | t :: ts, h =>
        unfold writeAll at h
        rw [List.foldlM_cons] at h
        obtain ⟨w1, h1, h2⟩ := bind_ok h
        obtain ⟨hd, ps, qs, e1, -, e3, e4, e5, e6⟩ := auto_calls hi hauto hf h1 h2
        rw [e3, List.flatMap_cons, List.foldl_append]
        have hfp := hi.autoFirst hauto
        have ht3 : (w.file.data.take 3200).length = 3200 := by rw [List.length_take]; omega
        have h3 := stored_mid hd (w.file.data.take 3200) (w.file.data.drop 3200) [] (by
          rw [List.length_drop]; omega)
        rw [List.append_nil, List.append_nil, List.take_append_drop, ht3] at h3
        show List.foldl storeByte ((hd.zipIdx 3200).foldl storeByte w.file.data) _ = _
        rw [h3, stored_row (by rw [List.length_append, ht3, e1]; exact e4), e6, e5, bytesOf_append]
        simp only [List.append_assoc]
  rw [key, stored_row ht]

/-! ## Headers that are cut -/

theorem readUntilEnd_cut {k n n' : Nat} {a : Bytes} {p : Nat} {recs : List Bytes} {f : File}
    (hr : readUntilEnd n ⟨a, p⟩ = .ok (recs, f)) (hp : k < p + 3200 * recs.length) (hn : k < p + 3200 * n') :
    readUntilEnd n' ⟨a.take k, p⟩ = throwExn .iosFailure := by
  induction n generalizing p recs f n' with
  | zero => simp only [readUntilEnd] at hr; cases hr
  | succ n ih =>
    cases n' with
    | zero => rfl
    | succ n' =>
    unfold readUntilEnd at hr
    obtain ⟨⟨t, f1⟩, h1, hr⟩ := bind_ok hr
    obtain ⟨_, _, hf1⟩ := read_ok h1
    simp only at hf1
    subst hf1
    unfold readUntilEnd
    rcases read_cut (k := k) (p := p) (n := 3200) h1 with ⟨_, _, hc⟩ | ⟨hc1, hc⟩
    · rw [show File.read ⟨a.take k, p⟩ textHeaderSize = _ from hc]
      rfl
    · have hc1 : p + 3200 ≤ k := by simpa using hc1
      rw [show File.read ⟨a.take k, p⟩ textHeaderSize = _ from hc, ok_bind]
      simp only at hr ⊢
      split at hr
      · simp only [pure_eq_ok, Except.ok.injEq, Prod.mk.injEq] at hr
        obtain ⟨rfl, _⟩ := hr
        simp only [List.length_singleton] at hp
        omega
      · rename_i he
        obtain ⟨⟨more, f2⟩, h2, hr⟩ := bind_ok hr
        simp only [pure_eq_ok, Except.ok.injEq, Prod.mk.injEq] at hr
        obtain ⟨rfl, rfl⟩ := hr
        rw [List.length_cons] at hp
        rw [if_neg he, ih (p := p + 3200) h2 (by omega) (by omega)]
        rfl

theorem readRecords_cut {k n : Nat} {a : Bytes} {p : Nat} {recs : List Bytes} {f : File}
    (hr : readRecords n ⟨a, p⟩ = .ok (recs, f)) (h : p ≤ k) (hp : k < p + 3200 * n) :
    readRecords n ⟨a.take k, p⟩ = throwExn .iosFailure := by
  induction n generalizing p recs f with
  | zero => omega
  | succ n ih =>
    unfold readRecords at hr ⊢
    obtain ⟨⟨t, f1⟩, h1, hr⟩ := bind_ok hr
    obtain ⟨_, _, hf1⟩ := read_ok h1
    simp only at hf1
    subst hf1
    rcases read_cut (k := k) (p := p) (n := 3200) h1 with ⟨_, _, hc⟩ | ⟨hc1, hc⟩
    · rw [show File.read ⟨a.take k, p⟩ textHeaderSize = _ from hc]
      rfl
    · have hc1 : p + 3200 ≤ k := by simpa using hc1
      rw [show File.read ⟨a.take k, p⟩ textHeaderSize = _ from hc, ok_bind]
      obtain ⟨⟨more, f2⟩, h2, hr⟩ := bind_ok hr
      simp only
      rw [ih (p := p + 3200) h2 (by omega) (by omega)]
      rfl

theorem records_fit (k : Nat) : k < 3600 + 3200 * ((k - 3600) / 3200 + 1) := by omega

/-- A file that ends inside its headers cannot be opened. -/
theorem open_cut {k : Nat} {a : Bytes} {ub : Option BinHeader} {m : HdrMap} {r : Reader}
    (ho : openReader a ub m = .ok r) (hk : k < headersEnd r) :
    openReader (a.take k) ub m = throwExn .iosFailure := by
  obtain ⟨exts, f2, rd, size, h0, h1, h3, h4, h5, h6, h7, _⟩ := openReader_ok ho
  unfold headersEnd at hk
  rw [h7, List.length_cons] at hk
  unfold openReader
  rw [h0, ok_bind]
  simp only
  have r1 : File.read ⟨a, 0⟩ 3200 = .ok (a.take 3200, ⟨a, 3200⟩) := by
    have hl : ((a.drop 0).take 3200).length = 3200 := by
      rw [List.drop_zero, List.length_take]
      omega
    have := read_eq (f := ⟨a, 0⟩) (n := 3200) hl
    rwa [List.drop_zero] at this
  have r2 : File.read ⟨a, 3200⟩ 400 = .ok ((a.drop 3200).take 400, ⟨a, 3600⟩) := by
    have hl : ((a.drop 3200).take 400).length = 400 := by
      rw [List.length_take, List.length_drop]
      omega
    exact read_eq (f := ⟨a, 3200⟩) (n := 400) hl
  rcases read_cut (k := k) r1 with ⟨_, _, hc⟩ | ⟨_, hc⟩
  · rw [show File.read ⟨a.take k, 0⟩ textHeaderSize = _ from hc]
    rfl
  rw [show File.read ⟨a.take k, 0⟩ textHeaderSize = _ from hc, ok_bind]
  simp only
  rcases read_cut (k := k) r2 with ⟨_, _, hc⟩ | ⟨hk2, hc⟩
  · rw [show File.read ⟨a.take k, 0 + 3200⟩ binHeaderSize = _ from hc]
    rfl
  rw [show File.read ⟨a.take k, 0 + 3200⟩ binHeaderSize = _ from hc, ok_bind]
  simp only
  rw [h3, ok_bind]
  simp only
  rw [h4, ok_bind, h5]
  simp only
  have hk2 : 3600 ≤ k := by simpa using hk2
  have hx : readExtText r.bh.extTextHeadersNum ⟨a.take k, 3600⟩ = throwExn .iosFailure := by
    unfold readExtText at h6 ⊢
    split at h6
    · simp only [Except.ok.injEq, Prod.mk.injEq] at h6
      obtain ⟨rfl, _⟩ := h6
      rw [List.length_nil] at hk
      omega
    · rename_i hz
      rw [if_neg hz]
      split at h6
      · rename_i h1'
        rw [if_pos h1']
        refine readUntilEnd_cut h6 (by omega) ?_
        unfold File.records textHeaderSize
        simp only [List.length_take]
        have hrl : 3600 ≤ a.length := h1
        by_cases hka : k ≤ a.length
        · rw [Nat.min_eq_left hka]
          exact records_fit k
        · exfalso
          obtain ⟨_, q2, q3, _⟩ := readUntilEnd_ok h6
          have e := flatten_length_const 3200 q2
          rw [q3, List.length_take, List.length_drop] at e
          simp only at e
          omega
      · rename_i h1'
        rw [if_neg h1']
        by_cases hneg : r.bh.extTextHeadersNum < 0
        · exfalso
          refine readRecords_all _ _ ?_ h6
          unfold loopCount
          rw [if_pos hneg]
        · unfold loopCount at h6 ⊢
          rw [if_neg hneg] at h6 ⊢
          have hl := (readRecords_ok h6).2.1
          exact readRecords_cut h6 hk2 (by rw [← hl]; omega)
  rw [show readExtText r.bh.extTextHeadersNum ⟨a.take k, 3200 + 400⟩ = _ from hx]
  rfl

/-! ## Stanzas that are cut -/

set_option maxRecDepth 20000 in
/-- Opening fails where the stanzas are read. -/
theorem open_same_fails {k : Nat} {a b : Bytes} {ub : Option BinHeader} {m : HdrMap} {r : Reader} (h : SameStart k a b)
    (ho : openReader a ub m = .ok r) (hk : headersEnd r ≤ k)
    (ht : readTrailers r.bo r.bh r.spt r.bps ⟨b, r.file.pos⟩ = throwExn .iosFailure) :
    openReader b ub m = throwExn .iosFailure := by
  obtain ⟨exts, f2, rd, size, h0, h1, h3, h4, h5, h6, h7, h8, h9, h10, h11, h12, h13, h14, h15, h16⟩ := openReader_ok ho
  unfold headersEnd at hk
  rw [h7, List.length_cons] at hk
  have hf2 := readExtText_file h6
  have hx := readExtText_same h h6 (by omega)
  have e0 : b.take 3200 = a.take 3200 := by
    have := slice_same (p := 0) (n := 3200) h (by omega)
    simpa using this.symm
  have e1 : (b.drop 3200).take 400 = (a.drop 3200).take 400 := (slice_same (p := 3200) (n := 400) h (by omega)).symm
  have hb := h.2.1
  have r1 : File.read ⟨b, 0⟩ textHeaderSize = .ok (a.take 3200, ⟨b, 3200⟩) := by
    have hl : ((b.drop 0).take 3200).length = 3200 := by
      rw [List.drop_zero, List.length_take]
      omega
    have := read_eq (f := ⟨b, 0⟩) (n := 3200) hl
    rw [List.drop_zero, e0] at this
    exact this
  have r2 : File.read ⟨b, 3200⟩ binHeaderSize = .ok ((a.drop 3200).take 400, ⟨b, 3600⟩) := by
    have hl : ((b.drop 3200).take 400).length = 400 := by
      rw [List.length_take, List.length_drop]
      omega
    have := read_eq (f := ⟨b, 3200⟩) (n := 400) hl
    rw [e1] at this
    exact this
  have hsf : seekFirst r.bh ⟨b, 3600 + 3200 * exts.length⟩ = .ok ⟨b, r.file.pos⟩ := by
    unfold seekFirst
    split at h8
    · rename_i hz
      rw [if_pos hz, ← h8, seek_nat]
    · rename_i hz
      rw [if_neg hz, h8, hf2]
  unfold openReader
  rw [h0, ok_bind]
  simp only
  rw [r1, ok_bind]; simp only
  rw [r2, ok_bind]; simp only
  rw [h3, ok_bind]; simp only
  rw [h4, ok_bind, h5]; simp only
  rw [hx, ok_bind]; simp only
  rw [hsf, ok_bind]; simp only
  rw [← h10, ht]
  rfl

theorem skipVarTrace_cut {bo : ByteOrder} {bps k : Nat} {a : Bytes} {p : Nat} {f : File}
    (h : skipVarTrace bo 0 bps ⟨a, p⟩ = .ok f) :
    skipVarTrace bo 0 bps ⟨a.take k, p⟩ = throwExn .iosFailure ∨
    f.data = a ∧ skipVarTrace bo 0 bps ⟨a.take k, p⟩ = .ok ⟨a.take k, f.pos⟩ := by
  unfold skipVarTrace at h ⊢
  obtain ⟨⟨buf, f1⟩, h1, h⟩ := bind_ok h
  obtain ⟨n16, h2, h⟩ := bind_ok h
  rw [if_neg (by simp)] at h
  have hf1 := (read_ok h1).2.2
  rcases read_cut (k := k) h1 with ⟨_, _, hc⟩ | ⟨_, hc⟩
  · left
    rw [hc]
    rfl
  · right
    rw [hc, ok_bind]
    simp only at h2 ⊢
    rw [h2, ok_bind, if_neg (by simp)]
    unfold File.seekCur File.seek at h ⊢
    split at h
    · cases h
    · rename_i hneg
      have e := Except.ok.inj h
      rw [hf1] at e hneg
      simp only at e hneg ⊢
      rw [if_neg hneg, ← e]
      exact ⟨rfl, rfl⟩

theorem skipVarTraces_cut {bo : ByteOrder} {bps k : Nat} {a : Bytes} (n : Nat) {p : Nat} {f : File}
    (h : skipVarTraces bo 0 bps n ⟨a, p⟩ = .ok f) :
    skipVarTraces bo 0 bps n ⟨a.take k, p⟩ = throwExn .iosFailure ∨
    f.data = a ∧ skipVarTraces bo 0 bps n ⟨a.take k, p⟩ = .ok ⟨a.take k, f.pos⟩ := by
  induction n generalizing p with
  | zero =>
    right
    unfold skipVarTraces at h ⊢
    rw [← Except.ok.inj h]
    exact ⟨rfl, rfl⟩
  | succ n ih =>
    unfold skipVarTraces at h ⊢
    obtain ⟨⟨d, q⟩, h1, h2⟩ := bind_ok h
    rcases skipVarTrace_cut (k := k) h1 with hc | ⟨hd, hc⟩
    · left
      rw [hc]
      rfl
    · simp only at hd
      subst hd
      rw [hc, ok_bind]
      exact ih h2

theorem records_fit_at (p n : Nat) : n < p + 3200 * ((n - p) / 3200 + 1) := by omega

/-- A file of variable length traces that ends inside the stanzas, or before them, cannot be opened. -/
theorem open_cut_stanzas {k : Nat} {a : Bytes} {ub : Option BinHeader} {m : HdrMap} {r : Reader}
    (ho : openReader a ub m = .ok r) (hs : r.bh.numOfTrailerStanza = -1) (hv : r.bh.fixedTrLength = 0)
    (ha : r.bh.maxNumAddTrHeaders = 0) (hk : k < r.endData + 3200 * r.trailers.length) (hka : k ≤ a.length) :
    openReader (a.take k) ub m = throwExn .iosFailure := by
  by_cases hh : k < headersEnd r
  · exact open_cut ho hh
  refine open_same_fails (k := k) (a := a) ⟨hka, by rw [List.length_take]; omega, by rw [List.take_take, Nat.min_self]⟩ ho
    (by omega) ?_
  obtain ⟨_, _, _, _, _, _, _, _, _, _, _, _, ht, _, _, hd, _⟩ := openReader_ok ho
  have hfile : r.file = ⟨a, r.file.pos⟩ := by rw [← hd]
  unfold readTrailers at ht ⊢
  rw [if_pos hs] at ht ⊢
  split at ht
  · cases ht
  rename_i hz
  rw [if_neg hz]
  rw [if_neg (by rw [hv]; simp)] at ht ⊢
  obtain ⟨f, h1, ht⟩ := bind_ok ht
  obtain ⟨⟨recs, f'⟩, h2, ht⟩ := bind_ok ht
  obtain ⟨e1, e2⟩ := Prod.mk.inj (Except.ok.inj ht)
  rw [hfile, ha] at h1
  rw [ha]
  rcases skipVarTraces_cut (k := k) _ h1 with hc | ⟨hfd, hc⟩
  · rw [hc]
    rfl
  · rw [hc, ok_bind]
    have hf : f = ⟨a, f.pos⟩ := by rw [← hfd]
    rw [hf] at h2
    rw [← e1, ← e2] at hk
    have : readUntilEnd (File.records ⟨a.take k, f.pos⟩) ⟨a.take k, f.pos⟩ = throwExn .iosFailure := by
      refine readUntilEnd_cut h2 hk ?_
      unfold File.records textHeaderSize
      simp only [List.length_take]
      rw [Nat.min_eq_left hka]
      exact records_fit_at _ k
    rw [this]
    rfl

end Sedaman
