import Verif.Model.OSEGY
import Verif.Lemmas.File
import Verif.Lemmas.TraceHdr
import Verif.Lemmas.BinHeader
import Verif.Lemmas.SampleFmt

/-!
# Lemmas about writing SEG-Y files
-/

namespace Sedaman

open Spec

/-! ## Samples -/

/-- `samples` encoded one by one are `pieces`. -/
def Encoded (enc : Dbl → Out Bytes) (samples : List Dbl) (pieces : List Bytes) : Prop :=
  List.Forall₂ (fun x p => enc x = .ok p) samples pieces

theorem storeSamples_ok {enc : Dbl → Out Bytes} {xs : List Dbl} {off : Nat} {buf out : Bytes}
    (h : storeSamples enc xs off buf = .ok out) :
    ∃ ps, Encoded enc xs ps ∧ (xs = [] ∨ off + ps.flatten.length ≤ buf.length) ∧
      out = (if xs = [] then buf
        else buf.take off ++ ps.flatten ++ buf.drop (off + ps.flatten.length)) := by
  induction xs generalizing off buf with
  | nil =>
    simp only [storeSamples, Except.ok.injEq] at h
    exact ⟨[], .nil, .inl rfl, by rw [if_pos rfl]; exact h.symm⟩
  | cons x xs ih =>
    unfold storeSamples at h
    obtain ⟨bs, h1, h⟩ := bind_ok h
    obtain ⟨b1, h2, h⟩ := bind_ok h
    obtain ⟨hle, hb1⟩ := writeAt_ok h2
    have hl1 := writeAt_length h2
    obtain ⟨ps, he, hfit, hout⟩ := ih h
    refine ⟨bs :: ps, .cons h1 he, .inr ?_, ?_⟩
    · rw [List.flatten_cons, List.length_append]
      rcases hfit with rfl | hfit
      · cases he; simp; omega
      · omega
    · rw [if_neg (by simp), hout, List.flatten_cons, List.length_append]
      by_cases hx : xs = []
      · rw [if_pos hx]
        subst hx
        cases he
        simp [hb1]
      · rw [if_neg hx, hb1]
        have hfit := hfit.resolve_left hx
        have e1 : (buf.take off ++ bs).length = off + bs.length := by simp; omega
        rw [show (buf.take off ++ bs ++ buf.drop (off + bs.length)).take (off + bs.length) =
          buf.take off ++ bs from List.take_left' e1]
        rw [show off + bs.length + ps.flatten.length = (off + bs.length) + ps.flatten.length from rfl,
          ← List.drop_drop, List.drop_left' e1, List.drop_drop]
        simp only [List.append_assoc, Nat.add_assoc]

theorem storeSamples_of {enc : Dbl → Out Bytes} {xs : List Dbl} {ps : List Bytes}
    (he : Encoded enc xs ps) {off : Nat} {buf : Bytes} (hf : off + ps.flatten.length ≤ buf.length) :
    storeSamples enc xs off buf =
      .ok (buf.take off ++ ps.flatten ++ buf.drop (off + ps.flatten.length)) := by
  induction he generalizing off buf with
  | nil => simp [storeSamples]
  | @cons x bs xs ps h1 _ ih =>
    rw [List.flatten_cons, List.length_append] at hf ⊢
    unfold storeSamples
    rw [h1, ok_bind, writeAt_of_le (by omega), ok_bind]
    have e1 : (buf.take off ++ bs).length = off + bs.length := by simp; omega
    rw [ih (by simp only [List.length_append, List.length_take, List.length_drop]; omega)]
    rw [show (buf.take off ++ bs ++ buf.drop (off + bs.length)).take (off + bs.length) =
      buf.take off ++ bs from List.take_left' e1, ← List.drop_drop, List.drop_left' e1, List.drop_drop]
    simp only [List.append_assoc, Nat.add_assoc]

/-- When the buffer has exactly the size of the samples nothing else ends up in it. -/
theorem storeSamples_exact {enc : Dbl → Out Bytes} {xs : List Dbl} {ps : List Bytes}
    (he : Encoded enc xs ps) {buf : Bytes} (hf : ps.flatten.length = buf.length) :
    storeSamples enc xs 0 buf = .ok ps.flatten := by
  rw [storeSamples_of he (by omega), List.take_zero, List.nil_append,
    List.drop_of_length_le (by omega), List.append_nil]

theorem storeSamples_overflow {enc : Dbl → Out Bytes} {xs : List Dbl} {ps : List Bytes}
    (he : Encoded enc xs ps) {off : Nat} {buf : Bytes} (ho : off ≤ buf.length)
    (hf : buf.length < off + ps.flatten.length) :
    storeSamples enc xs off buf = isUb .outOfBounds := by
  induction he generalizing off buf with
  | nil => simp at hf; omega
  | @cons x bs xs ps h1 _ ih =>
    rw [List.flatten_cons, List.length_append] at hf
    unfold storeSamples
    rw [h1, ok_bind]
    by_cases hb : off + bs.length ≤ buf.length
    · rw [writeAt_of_le hb, ok_bind]
      apply ih <;> simp only [List.length_append, List.length_take, List.length_drop] <;> omega
    · unfold writeAt
      rw [if_neg hb]
      rfl

theorem storeSamples_length {enc : Dbl → Out Bytes} {xs : List Dbl} {off : Nat} {buf out : Bytes}
    (h : storeSamples enc xs off buf = .ok out) : out.length = buf.length := by
  induction xs generalizing off buf with
  | nil => simp only [storeSamples, Except.ok.injEq] at h; rw [h]
  | cons x xs ih =>
    unfold storeSamples at h
    obtain ⟨bs, h1, h⟩ := bind_ok h
    obtain ⟨b1, h2, h⟩ := bind_ok h
    rw [ih h, writeAt_length h2]

theorem encoded_length {est : LogEst} {fmt : Int} {enc : ByteOrder → Dbl → Out Bytes}
    (hw : sampleWriter est fmt = .ok enc) {n : Nat} (hn : bytesPerSample fmt = some n)
    {bo : ByteOrder} {xs : List Dbl} {ps : List Bytes} (he : Encoded (enc bo) xs ps) :
    ps.flatten.length = xs.length * n := by
  have hs : fmt ∈ supportedFormats := by
    by_contra hc
    rw [writer_error est hc] at hw
    cases hw
  obtain ⟨n', w', hn', hw', hlen⟩ := writer_shape est hs
  rw [hn] at hn'
  rw [hw] at hw'
  have e1 := Option.some.inj hn'
  have e2 := Except.ok.inj hw'
  subst e1; subst e2
  induction he with
  | nil => simp
  | cons h1 _ ih =>
    rw [List.flatten_cons, List.length_append, hlen _ _ _ h1, ih, List.length_cons, Nat.succ_mul, Nat.add_comm]

/-! ## Header blocks -/

theorem putTraceHeader_ok {est : LogEst} {w w' : Writer} {hdr : Header}
    (hb : w.hdrBuf.length = 240) (h : putTraceHeader est w hdr = .ok w') :
    ∃ b m out, w.map = b :: m ∧ writeBlock est w.bo b.fields hdr (List.replicate 240 0) = .ok out ∧
      w' = { w with hdrBuf := out, file := w.file.write out } := by
  unfold putTraceHeader at h
  obtain ⟨out, h1, h⟩ := bind_ok h
  simp only [pure_eq_ok, Except.ok.injEq] at h
  unfold writeTraceHeader at h1
  rw [memsetHdr_eq hb, ok_bind] at h1
  cases hm : w.map with
  | nil => rw [hm] at h1; cases h1
  | cons b m =>
    rw [hm] at h1
    refine ⟨b, m, out, rfl, ?_, by rw [← h, hm]⟩
    unfold writeBlock
    rw [memsetHdr_eq (by rw [List.length_replicate]), ok_bind]
    exact h1

theorem putTraceHeader_of {est : LogEst} {w : Writer} {hdr : Header} {b : HBlock} {m : HdrMap}
    {out : Bytes} (hb : w.hdrBuf.length = 240) (hm : w.map = b :: m)
    (h : writeBlock est w.bo b.fields hdr (List.replicate 240 0) = .ok out) :
    putTraceHeader est w hdr = .ok { w with hdrBuf := out, file := w.file.write out } := by
  unfold putTraceHeader writeTraceHeader
  unfold writeBlock at h
  rw [memsetHdr_eq (by rw [List.length_replicate]), ok_bind] at h
  rw [memsetHdr_eq hb, ok_bind, hm]
  simp only
  rw [h, ok_bind]
  rfl

theorem writeFields_length {est : LogEst} {bo : ByteOrder} {hdr : Header} {fs : List HField}
    {buf out : Bytes} (h : writeFields est bo hdr fs buf = .ok out) : out.length = buf.length := by
  induction fs generalizing buf with
  | nil => simp only [writeFields, Except.ok.injEq] at h; rw [h]
  | cons f t ih =>
    unfold writeFields at h
    obtain ⟨v, h1, h⟩ := bind_ok h
    obtain ⟨bs, h2, h⟩ := bind_ok h
    obtain ⟨b1, h3, h⟩ := bind_ok h
    rw [ih h, writeAt_length h3]

theorem writeBlock_length {est : LogEst} {bo : ByteOrder} {hdr : Header} {fs : List HField}
    {old out : Bytes} (ho : old.length = 240) (h : writeBlock est bo fs hdr old = .ok out) :
    out.length = 240 := by
  unfold writeBlock at h
  rw [memsetHdr_eq ho, ok_bind] at h
  rw [writeFields_length h, List.length_replicate]

theorem writeAddLoop_length {est : LogEst} {bo : ByteOrder} {m : HdrMap} {hdr : Header} {n i : Nat}
    {buf out last : Bytes} (hb : buf.length = 240)
    (h : writeAddLoop est bo m hdr n i buf = .ok (out, last)) :
    out.length = 240 * n ∧ last.length = 240 := by
  induction n generalizing i buf out with
  | zero =>
    simp only [writeAddLoop, Except.ok.injEq, Prod.mk.injEq] at h
    obtain ⟨rfl, rfl⟩ := h
    exact ⟨rfl, hb⟩
  | succ n ih =>
    unfold writeAddLoop at h
    rw [memsetHdr_eq hb, ok_bind] at h
    cases hm : m[i]? with
    | none =>
      rw [hm] at h
      simp only at h
      obtain ⟨b1, h1, h⟩ := bind_ok h
      have e := Except.ok.inj h1
      obtain ⟨⟨o, l⟩, h2, h⟩ := bind_ok h
      simp only [pure_eq_ok, Except.ok.injEq, Prod.mk.injEq] at h
      obtain ⟨rfl, rfl⟩ := h
      have hb1 : b1.length = 240 := by rw [← e, List.length_replicate]
      obtain ⟨e1, e2⟩ := ih hb1 h2
      exact ⟨by rw [List.length_append, hb1, e1]; omega, e2⟩
    | some b =>
      rw [hm] at h
      simp only at h
      obtain ⟨b1, h1, h⟩ := bind_ok h
      obtain ⟨⟨o, l⟩, h2, h⟩ := bind_ok h
      simp only [pure_eq_ok, Except.ok.injEq, Prod.mk.injEq] at h
      obtain ⟨rfl, rfl⟩ := h
      have hb1 : b1.length = 240 := by rw [writeFields_length h1, List.length_replicate]
      obtain ⟨e1, e2⟩ := ih hb1 h2
      exact ⟨by rw [List.length_append, hb1, e1]; omega, e2⟩

/-! ## States of a writer -/

/-- What holds of a writer between calls. -/
structure WInv (w : Writer) : Prop where
  atEnd : w.file.pos = w.file.data.length
  hdr : w.hdrBuf.length = 240
  first : 3600 ≤ w.firstPos ∧ w.firstPos ≤ w.file.data.length
  autoFirst : w.auto = true → w.firstPos = 3600

/-- What two successive states have in common. -/
structure Kept (w w' : Writer) : Prop where
  map : w'.map = w.map
  bo : w'.bo = w.bo
  bps : w'.bps = w.bps
  first : w'.firstPos = w.firstPos
  auto : w'.auto = w.auto
  texts : w'.texts = w.texts
  trailers : w'.trailers = w.trailers

theorem Kept.refl (w : Writer) : Kept w w := ⟨rfl, rfl, rfl, rfl, rfl, rfl, rfl⟩

theorem Kept.trans {a b c : Writer} (h : Kept a b) (k : Kept b c) : Kept a c :=
  ⟨k.map.trans h.map, k.bo.trans h.bo, k.bps.trans h.bps, k.first.trans h.first,
    k.auto.trans h.auto, k.texts.trans h.texts, k.trailers.trans h.trailers⟩

/-- A step that only appends `new`. -/
structure Appends (w w' : Writer) (new : Bytes) : Prop where
  data : w'.file.data = w.file.data ++ new
  bh : w'.bh = w.bh
  kept : Kept w w'
  inv : WInv w'

theorem Appends.trans {a b c : Writer} {x y : Bytes} (h : Appends a b x) (k : Appends b c y) :
    Appends a c (x ++ y) :=
  ⟨by rw [k.data, h.data, List.append_assoc], k.bh.trans h.bh, h.kept.trans k.kept, k.inv⟩

theorem appends_write {w : Writer} (hi : WInv w) (bs : Bytes) (hb s : Bytes) (hh : hb.length = 240) :
    Appends w { w with hdrBuf := hb, samp := s, file := w.file.write bs } bs := by
  have e := write_append hi.atEnd bs
  refine ⟨by rw [e], rfl, ⟨rfl, rfl, rfl, rfl, rfl, rfl, rfl⟩, ?_, hh, ⟨hi.first.1, ?_⟩, hi.autoFirst⟩
  · simp only [e, List.length_append]
  · have := hi.first.2
    simp only [e, List.length_append]; omega

theorem putTraceHeader_appends {est : LogEst} {w w' : Writer} {hdr : Header} (hi : WInv w)
    (h : putTraceHeader est w hdr = .ok w') :
    ∃ b m out, w.map = b :: m ∧ writeBlock est w.bo b.fields hdr (List.replicate 240 0) = .ok out ∧
      out.length = 240 ∧ w'.samp = w.samp ∧ Appends w w' out := by
  obtain ⟨b, m, out, h1, h2, rfl⟩ := putTraceHeader_ok hi.hdr h
  have hl := writeBlock_length (by rw [List.length_replicate]) h2
  exact ⟨b, m, out, h1, h2, hl, rfl, appends_write hi out out w.samp hl⟩

theorem putAdditional_appends {est : LogEst} {w w' : Writer} {hdr : Header} (hi : WInv w)
    (h : putAdditional est w hdr = .ok w') :
    ∃ out, out.length = 240 * (w.bh.maxNumAddTrHeaders - 1).toNat ∧ w'.samp = w.samp ∧
      Appends w w' out := by
  unfold putAdditional writeAdditional at h
  obtain ⟨⟨out, buf⟩, h1, h⟩ := bind_ok h
  simp only [pure_eq_ok, Except.ok.injEq] at h
  subst h
  obtain ⟨e1, e2⟩ := writeAddLoop_length hi.hdr h1
  exact ⟨out, e1, rfl, appends_write hi out buf w.samp e2⟩

theorem addHdrs_appends {est : LogEst} {w w' : Writer} {hdr : Header} (hi : WInv w)
    (h : addHdrs est w hdr = .ok w') :
    ∃ out, out.length = 240 * (w.bh.maxNumAddTrHeaders - 1).toNat ∧ w'.samp = w.samp ∧
      Appends w w' out := by
  unfold addHdrs at h
  split at h
  · exact putAdditional_appends hi h
  · rename_i hz
    simp only [ne_eq, Decidable.not_not] at hz
    have e := Except.ok.inj h
    subst e
    exact ⟨[], by rw [hz]; rfl, rfl, by rw [List.append_nil], rfl, Kept.refl w, hi⟩

theorem writeSamplesFix_appends {est : LogEst} {w w' : Writer} {xs : List Dbl} (hi : WInv w)
    (h : writeSamplesFix est w xs = .ok w') :
    ∃ enc, sampleWriter est w.bh.formatCode = .ok enc ∧
      storeSamples (enc w.bo) xs 0 w.samp = .ok w'.samp ∧ w'.samp.length = w.samp.length ∧
      Appends w w' w'.samp := by
  unfold writeSamplesFix at h
  obtain ⟨enc, h1, h⟩ := bind_ok h
  obtain ⟨buf, h2, h⟩ := bind_ok h
  simp only [pure_eq_ok, Except.ok.injEq] at h
  subst h
  exact ⟨enc, h1, h2, storeSamples_length h2, appends_write hi buf w.hdrBuf buf hi.hdr⟩

theorem fitBuf_ok {buf out : Bytes} {n : Nat} (h : fitBuf buf n = .ok out) : out.length = n := by
  unfold fitBuf at h
  split at h
  · exact (resizeVec_ok h).2.1
  · rename_i hn
    have e := Except.ok.inj h
    rw [← e]; omega

theorem fitBuf_of {buf : Bytes} {n : Nat} (h : n < 2 ^ 63) :
    ∃ out, fitBuf buf n = .ok out ∧ out.length = n := by
  unfold fitBuf
  split
  · exact ⟨_, resizeVec_of_lt h, (resizeVec_ok (resizeVec_of_lt h)).2.1⟩
  · exact ⟨buf, rfl, by omega⟩

theorem winv_samp {w : Writer} (hi : WInv w) (s : Bytes) : WInv { w with samp := s } :=
  ⟨hi.atEnd, hi.hdr, hi.first, hi.autoFirst⟩

theorem writeSamplesVar_appends {est : LogEst} {w w' : Writer} {t : Trace} (hi : WInv w)
    (h : writeSamplesVar est w t = .ok w') :
    ∃ n enc buf, t.header.get "SAMP_NUM" = some (.int n) ∧ mulInt64 n w.bps = .ok (n * w.bps) ∧
      fitBuf w.samp (toU 8 (n * w.bps)) = .ok buf ∧
      sampleWriter est w.bh.formatCode = .ok enc ∧
      storeSamples (enc w.bo) t.samples 0 buf = .ok w'.samp ∧
      w'.samp.length = toU 8 (n * w.bps) ∧ Appends w w' w'.samp := by
  unfold writeSamplesVar at h
  obtain ⟨n, h1, h⟩ := bind_ok h
  obtain ⟨size, h2, h⟩ := bind_ok h
  have hsz := (mulInt64_ok h2).1
  rw [hsz] at h h2
  obtain ⟨buf, h3, h⟩ := bind_ok h
  obtain ⟨enc, h4, h5, h6, h7⟩ := writeSamplesFix_appends (winv_samp hi buf) h
  have hn : t.header.get "SAMP_NUM" = some (.int n) := by
    unfold needInt at h1
    cases hg : t.header.get "SAMP_NUM" with
    | none => rw [hg] at h1; cases h1
    | some v =>
      rw [hg] at h1
      cases v with
      | int k => simp only [Except.ok.injEq] at h1; rw [h1]
      | dbl d => cases h1
  exact ⟨n, enc, buf, hn, h2, h3, h4, h5, by rw [h6]; exact fitBuf_ok h3, h7.data, h7.bh, ⟨h7.kept.map, h7.kept.bo,
    h7.kept.bps, h7.kept.first, h7.kept.auto, h7.kept.texts, h7.kept.trailers⟩, h7.inv⟩

/-- The 400 bytes of the binary header replaced. -/
theorem writeBinHeader_eq {bo : ByteOrder} {bh : BinHeader} {f : File} (h : 3600 ≤ f.data.length) :
    writeBinHeader bo bh f =
      ⟨f.data.take 3200 ++ (binHeaderBytes bo bh ++ f.data.drop 3600), 3600⟩ := by
  unfold writeBinHeader
  have e : f.data = f.data.take 3200 ++ ((f.data.drop 3200).take 400 ++ f.data.drop 3600) := by
    have e1 : f.data.drop 3600 = (f.data.drop 3200).drop 400 := by rw [List.drop_drop]
    rw [e1, List.take_append_drop, List.take_append_drop]
  have hl : (f.data.take 3200).length = 3200 := by simp; omega
  have := write_over (f.data.take 3200) ((f.data.drop 3200).take 400) (f.data.drop 3600)
    (binHeaderBytes bo bh) (by rw [binHeaderBytes_length]; simp; omega)
  rw [← e, hl, binHeaderBytes_length] at this
  exact this

theorem setMinHdrs_first {onlyInt : Bool} {w w' : Writer} {hdr : Header}
    (hf : w.file.pos = w.firstPos) (h : setMinHdrs onlyInt w hdr = .ok w') :
    ∃ n d si, hdr.get "SAMP_NUM" = some (.int n) ∧ n ≤ 32767 ∧ sampIntOf onlyInt hdr = .ok d ∧
      dblGtNat d 32767 = false ∧ dblToS 2 d = .ok si ∧ si ≠ 0 ∧
      mulInt64 n w.bps = .ok (n * w.bps) ∧ toU 8 (n * w.bps) < 2 ^ 63 ∧
      w'.samp.length = toU 8 (n * w.bps) ∧
      w' = { w with bh := { w.bh with sampPerTr := toS 2 (toU 2 n), sampInt := si }, samp := w'.samp,
                    file := writeBinHeader w.bo { w.bh with sampPerTr := toS 2 (toU 2 n), sampInt := si } w.file } := by
  unfold setMinHdrs at h
  rw [if_pos hf] at h
  obtain ⟨n, h1, h⟩ := bind_ok h
  have hn : hdr.get "SAMP_NUM" = some (.int n) := by
    unfold needInt at h1
    cases hg : hdr.get "SAMP_NUM" with
    | none => rw [hg] at h1; cases h1
    | some v =>
      rw [hg] at h1
      cases v with
      | int k => simp only [Except.ok.injEq] at h1; rw [h1]
      | dbl d => cases h1
  split at h
  · cases h
  rename_i hle
  obtain ⟨d, h2, h⟩ := bind_ok h
  split at h
  · cases h
  rename_i hgt
  obtain ⟨si, h3, h⟩ := bind_ok h
  split at h
  · cases h
  rename_i hsi
  obtain ⟨size, h4, h⟩ := bind_ok h
  obtain ⟨samp, h5, h⟩ := bind_ok h
  simp only [pure_eq_ok, Except.ok.injEq] at h
  subst h
  have hsz := (mulInt64_ok h4).1
  subst hsz
  obtain ⟨g1, g2, -⟩ := resizeVec_ok h5
  exact ⟨n, d, si, hn, by omega, h2, by simpa using hgt, h3, hsi, h4, g1, g2, rfl⟩

/-- The automatic header step: nothing happens unless the writer is automatic and at its first
trace; then only the binary header changes. -/
theorem autoHdrs_ok {onlyInt : Bool} {w w' : Writer} {hdr : Header} (hi : WInv w)
    (h : autoHdrs onlyInt w hdr = .ok w') :
    WInv w' ∧ Kept w w' ∧
    (if w.auto = true ∧ w.file.data.length = w.firstPos then
      setMinHdrs onlyInt w hdr = .ok w' ∧
        w'.file.data = w.file.data.take 3200 ++ binHeaderBytes w.bo w'.bh
     else w' = w) := by
  unfold autoHdrs at h
  by_cases ha : w.auto = true
  · rw [if_pos ha] at h
    by_cases hf : w.file.data.length = w.firstPos
    · rw [if_pos ⟨ha, hf⟩]
      have h3600 := hi.autoFirst ha
      obtain ⟨n, d, si, -, -, -, -, -, -, -, -, -, e⟩ := setMinHdrs_first (by rw [hi.atEnd]; exact hf) h
      have hb := writeBinHeader_eq (bo := w.bo)
        (bh := { w.bh with sampPerTr := toS 2 (toU 2 n), sampInt := si }) (f := w.file) (by omega)
      rw [List.drop_of_length_le (by omega), List.append_nil] at hb
      refine ⟨?_, ?_, h, ?_⟩
      · rw [e, hb]
        refine ⟨?_, hi.hdr, ⟨hi.first.1, ?_⟩, hi.autoFirst⟩
        · simp only [List.length_append, binHeaderBytes_length, List.length_take]; omega
        · simp only [List.length_append, binHeaderBytes_length, List.length_take]; omega
      · rw [e]; exact ⟨rfl, rfl, rfl, rfl, rfl, rfl, rfl⟩
      · rw [e, hb]
    · rw [if_neg (fun c => hf c.2)]
      unfold setMinHdrs at h
      rw [if_neg (by rw [hi.atEnd]; exact hf)] at h
      have e := Except.ok.inj h
      subst e
      exact ⟨hi, Kept.refl w, rfl⟩
  · rw [if_neg ha] at h
    rw [if_neg (fun c => ha c.1)]
    have e := Except.ok.inj h
    subst e
    exact ⟨hi, Kept.refl w, rfl⟩

end Sedaman
