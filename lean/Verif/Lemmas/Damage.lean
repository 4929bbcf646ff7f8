import Verif.Spec.Damage
import Verif.Lemmas.SegyCut
import Verif.Lemmas.MapView
import Verif.Lemmas.Open
import Verif.Props.MapView

/-!
# Reading damaged traces
-/

namespace Sedaman

open Spec

theorem agree_slice {a b : Bytes} {p n : Nat} (h : Agree a b p n) : (a.drop p).take n = (b.drop p).take n := by
  apply List.ext_getElem?
  intro i
  rw [List.getElem?_take, List.getElem?_take]
  split
  · rw [List.getElem?_drop, List.getElem?_drop]
    exact h _ (by omega) (by omega)
  · rfl

theorem agree_of_slice {a b : Bytes} {p n : Nat} (h : (a.drop p).take n = (b.drop p).take n) : Agree a b p n := by
  intro j h1 h2
  have := congrArg (fun l => l[j - p]?) h
  simp only [List.getElem?_take, List.getElem?_drop] at this
  rw [if_pos (by omega), if_pos (by omega), show p + (j - p) = j by omega] at this
  exact this

theorem readAt_fits {bo : ByteOrder} {f : HField} {b : Bytes} {v : Value}
    (h : readAt b f.off (readField bo f.ty) = .ok v) : ((b.drop f.off).take f.ty.size).length = f.ty.size := by
  have h1 : readFields bo [f] b [] = .ok (Header.set [] f.name v) := by
    unfold readFields
    rw [h, ok_bind]
    rfl
  have h2 := readFields_values 0 h1 f.name
  have e : lastNamed f.name (([f] : List HField).map fun f => (0 + f.off, f)) = some (0 + f.off, f) := by
    simp [lastNamed]
  rw [e] at h2
  obtain ⟨_, _, _, h3⟩ := h2
  exact h3.1

/-- Whether the fields of a block can be read depends on the length of the block only. -/
theorem readFields_any {bo : ByteOrder} {fs : List HField} {b b' : Bytes} (hl : b'.length = b.length)
    {acc h : Header} (hr : readFields bo fs b acc = .ok h) (acc' : Header) :
    ∃ h', readFields bo fs b' acc' = .ok h' := by
  induction fs generalizing acc acc' with
  | nil => exact ⟨acc', rfl⟩
  | cons f t ih =>
    unfold readFields at hr ⊢
    obtain ⟨v, h1, h2⟩ := bind_ok hr
    have hf := readAt_fits h1
    rw [List.length_take, List.length_drop] at hf
    have hoff : f.off ≤ b.length := by
      unfold readAt at h1
      split at h1
      · assumption
      · cases h1
    obtain ⟨v', hv'⟩ := readField_ok bo f.ty ((b'.drop f.off).take f.ty.size) (by
      rw [List.length_take, List.length_drop, hl]; exact hf)
    have h1' : readAt b' f.off (readField bo f.ty) = .ok v' :=
      readAt_slice b' f.off f.ty.size _ _ v' (by omega) rfl hv'
    rw [h1', ok_bind]
    exact ih h2 _

theorem readBlocks_any {bo : ByteOrder} {m : HdrMap} {a b : Bytes} (hl : b.length = a.length) {n i p : Nat}
    {acc h : Header} {f : File} (hr : readBlocks bo m n i ⟨a, p⟩ acc = .ok (h, f)) (acc' : Header) :
    ∃ h', readBlocks bo m n i ⟨b, p⟩ acc' = .ok (h', ⟨b, p + 240 * n⟩) := by
  induction n generalizing i p acc acc' with
  | zero => exact ⟨acc', rfl⟩
  | succ n ih =>
    unfold readBlocks at hr ⊢
    cases hm : m[i]? with
    | some blk =>
      rw [hm] at hr
      simp only at hr ⊢
      obtain ⟨⟨buf, f1⟩, h1, hr⟩ := bind_ok hr
      obtain ⟨acc1, h2, hr⟩ := bind_ok hr
      obtain ⟨hx, hxl, rfl⟩ := read_ok h1
      simp only at hx hr
      have hlen : ((b.drop p).take trHeaderSize).length = trHeaderSize := by
        rw [hx] at hxl
        rw [List.length_take, List.length_drop] at hxl ⊢
        rw [hl]
        exact hxl
      obtain ⟨acc2, h2'⟩ := readFields_any (b' := (b.drop p).take trHeaderSize) (by rw [hlen, hxl]) h2 acc'
      rw [read_eq (f := ⟨b, p⟩) hlen, ok_bind]
      simp only
      rw [h2', ok_bind]
      obtain ⟨h', hh⟩ := ih hr acc2
      refine ⟨h', ?_⟩
      have e : trHeaderSize = 240 := rfl
      rw [hh, e]
      congr 3
      omega
    | none =>
      rw [hm] at hr
      simp only at hr ⊢
      have e (f : File) : f.seekCur (trHeaderSize : Nat) = .ok ⟨f.data, f.pos + 240⟩ := seekCur_nat f 240
      rw [e, ok_bind] at hr
      rw [e, ok_bind]
      obtain ⟨h', hh⟩ := ih (p := p + 240) hr acc'
      refine ⟨h', ?_⟩
      rw [hh]
      congr 3
      omega

/-- The samples of a buffer. -/
theorem decodeSamples_chunks {rd : Rd Dbl} {w : Nat} {v : Bytes → Dbl}
    (hv : ∀ bs, rd bs = if w ≤ bs.length then .ok (v (bs.take w), bs.drop w) else isUb .outOfBounds)
    {n : Nat} {buf rest : Bytes} {xs : List Dbl} (h : decodeSamples rd n buf = .ok (xs, rest)) :
    n * w ≤ buf.length ∧ ∀ k, k < n → xs[k]? = some (v ((buf.drop (k * w)).take w)) := by
  induction n generalizing buf xs rest with
  | zero => exact ⟨by omega, fun k hk => by omega⟩
  | succ n ih =>
    unfold decodeSamples at h
    rw [rd_bind, hv] at h
    by_cases c : w ≤ buf.length
    · rw [if_pos c] at h
      rw [ok_bind] at h
      simp only at h
      rw [rd_bind] at h
      obtain ⟨⟨ys, rest'⟩, h1, h2⟩ := bind_ok h
      obtain ⟨i1, i2⟩ := ih h1
      simp only [rd_pure, Except.ok.injEq, Prod.mk.injEq] at h2
      obtain ⟨rfl, rfl⟩ := h2
      rw [List.length_drop] at i1
      refine ⟨by rw [Nat.add_mul]; omega, fun k hk => ?_⟩
      cases k with
      | zero => simp
      | succ k =>
        rw [List.getElem?_cons_succ, i2 k (by omega), List.drop_drop, Nat.add_mul, Nat.one_mul, Nat.add_comm w]
    · rw [if_neg c] at h
      cases h

theorem trcHeader_shows' {r : Reader} {h : Header} {f : File} (hr : readTrcHeader r = .ok (h, f)) :
    ShowsHeader r.bo r.map (headerBlocks r.bh) r.file.data r.file.pos [] h := by
  unfold readTrcHeader at hr
  split at hr
  · cases hr
  · intro k
    have := readBlocks_values (i := 0) (base := r.file.pos) (data := r.file.data) (k := k) hr
    rw [← placed_eq] at this
    exact this

theorem shows_agree {bo : ByteOrder} {m : HdrMap} {n p : Nat} {a b : Bytes} {extra : List (String × Value)}
    {h h' : Header} (s : ShowsHeader bo m n a p extra h) (s' : ShowsHeader bo m n b p extra h') (k : String)
    (ha : ∀ q ∈ placed m n, q.2.name = k → Agree a b (p + q.1) q.2.ty.size) : h.get k = h'.get k := by
  have h1 := s k
  have h2 := s' k
  cases hl : lastNamed k (placed m n) with
  | none =>
    rw [hl] at h1 h2
    simp only at h1 h2
    rw [h1, h2]
  | some q =>
    obtain ⟨o, f⟩ := q
    rw [hl] at h1 h2
    obtain ⟨v, g1, g2⟩ := h1
    obtain ⟨v', g1', g2'⟩ := h2
    have hm : (o, f) ∈ placed m n ∧ f.name = k := by
      unfold lastNamed at hl
      have m1 := List.mem_of_find?_eq_some hl
      have m2 := List.find?_some hl
      rw [List.mem_reverse] at m1
      exact ⟨m1, by simpa using m2⟩
    have := agree_slice (ha _ hm.1 hm.2)
    simp only at this
    rw [← this] at g2'
    rw [g1, g1', fieldValue_unique g2 g2']

theorem sampleBytes_agree {r : Reader} {h0 h0' h : Header} {n : Nat} {ed : Nat} {tx : List Bytes} {b : Bytes}
    (hn : sampleBytes r h0 = .ok (n, h)) (hk : fixedLength r.bh = true ∨ h0.get "SAMP_NUM" = h0'.get "SAMP_NUM") :
    ∃ h', sampleBytes { r with file := ⟨b, r.file.pos⟩, endData := ed, texts := tx } h0' = .ok (n, h') := by
  unfold sampleBytes at hn ⊢
  simp only at hn ⊢
  by_cases hf : fixedLength r.bh = true
  · rw [if_pos hf] at hn ⊢
    simp only [Except.ok.injEq, Prod.mk.injEq] at hn
    exact ⟨h0', by rw [hn.1]⟩
  · rw [if_neg hf] at hn ⊢
    have hs : ∀ m g, sampNum h0 = .ok (m, g) → ∃ g', sampNum h0' = .ok (m, g') := by
      intro m g hm
      have e := hk.resolve_left hf
      unfold sampNum Header.at at hm ⊢
      rw [← e]
      cases hg : h0.get "SAMP_NUM" with
      | none =>
        rw [hg] at hm
        simp only [Except.ok.injEq, Prod.mk.injEq] at hm ⊢
        exact ⟨_, hm.1, rfl⟩
      | some v =>
        rw [hg] at hm
        cases v with
        | int k =>
          simp only [Except.ok.injEq, Prod.mk.injEq] at hm ⊢
          exact ⟨_, hm.1, rfl⟩
        | dbl d => cases hm
    obtain ⟨⟨m, g⟩, h1, h2⟩ := bind_ok hn
    obtain ⟨g', h1'⟩ := hs m g h1
    rw [h1', ok_bind]
    simp only at h2 ⊢
    split at h2
    · cases h2
    · rename_i hc
      rw [if_neg hc]
      simp only [pure_eq_ok, Except.ok.injEq, Prod.mk.injEq] at h2 ⊢
      exact ⟨g', h2.1, rfl⟩

/-- One trace of a damaged file. -/
theorem readTrace_damaged {r r1 : Reader} {t : Trace} {b : Bytes} {ed : Nat} {tx : List Bytes} (hl : b.length = r.file.data.length)
    (hb : bytesPerSample r.bh.formatCode = some r.bps) (hr : readTrace r = .ok (t, r1))
    (hk : fixedLength r.bh = true ∨ ∀ q ∈ placed r.map (headerBlocks r.bh), q.2.name = "SAMP_NUM" →
      Agree r.file.data b (r.file.pos + q.1) q.2.ty.size) :
    ∃ t', readTrace { r with file := ⟨b, r.file.pos⟩, endData := ed, texts := tx } =
        .ok (t', { r1 with file := ⟨b, r1.file.pos⟩, endData := ed, texts := tx }) ∧
      SameBut r r.file.data b r.file.pos t t' := by
  have hr0 := hr
  obtain ⟨h0, n, buf, rd, rest, h1, h2, h3, h4, h5, rfl⟩ := readTrace_ok hr
  have h1' : ∃ h0', readTrcHeader { r with file := ⟨b, r.file.pos⟩, endData := ed, texts := tx } =
      .ok (h0', ⟨b, r.file.pos + 240 * hdrBlocks r.bh⟩) := by
    unfold readTrcHeader at h1 ⊢
    split at h1
    · cases h1
    · rename_i hx
      rw [if_neg hx]
      exact readBlocks_any (a := r.file.data) hl h1 []
  obtain ⟨h0', h1'⟩ := h1'
  have hk' : fixedLength r.bh = true ∨ h0.get "SAMP_NUM" = h0'.get "SAMP_NUM" := by
    rcases hk with hk | hk
    · exact .inl hk
    · exact .inr (shows_agree (trcHeader_shows' h1)
        (trcHeader_shows' (r := { r with file := ⟨b, r.file.pos⟩, endData := ed, texts := tx }) h1') _ hk)
  obtain ⟨h', h2'⟩ := sampleBytes_agree (b := b) (ed := ed) (tx := tx) h2 hk'
  obtain ⟨hx, hxl, -⟩ := read_ok h3
  simp only at hx
  have hlen : ((b.drop (r.file.pos + 240 * hdrBlocks r.bh)).take n).length = n := by
    rw [hx] at hxl
    rw [List.length_take, List.length_drop] at hxl ⊢
    rw [hl]
    exact hxl
  have h3' := read_eq (f := ⟨b, r.file.pos + 240 * hdrBlocks r.bh⟩) hlen
  have hf : r.bh.formatCode ∈ supportedFormats := by
    by_contra c
    rw [reader_error c] at h4
    cases h4
  obtain ⟨w, rd', k1, k2, k3⟩ := reader_shape hf
  rw [hb] at k1
  rw [h4] at k2
  cases k1
  cases k2
  obtain ⟨v, hv⟩ := k3 r.bo
  obtain ⟨c1, c2⟩ := decodeSamples_chunks hv h5
  obtain ⟨w, rd', k1, kp, k2, k4⟩ := decodeSamples_total hf r.bo
  rw [hb] at k1
  rw [h4] at k2
  cases k1
  cases k2
  obtain ⟨xs, h5'⟩ := k4 (n / r.bps) ((b.drop (r.file.pos + 240 * hdrBlocks r.bh)).take n) (by rw [hlen]; exact hxl ▸ c1)
  obtain ⟨-, d2⟩ := decodeSamples_chunks hv h5'
  have l1 := decodeSamples_length h5
  have l2 := decodeSamples_length h5'
  have hrd : readTrace { r with file := ⟨b, r.file.pos⟩, endData := ed, texts := tx } = _ := readTrace_of h1' h2' h3' h4 h5'
  refine ⟨⟨h', xs⟩, hrd, ?_, by simp only; omega, ?_⟩
  · intro k ha
    exact shows_agree (Props.C80_trace_header_values _ _ _ hr0)
      (Props.C80_trace_header_values { r with file := ⟨b, r.file.pos⟩, endData := ed, texts := tx } _ _ hrd) k ha
  · intro k ha
    by_cases c : k < n / r.bps
    · simp only
      rw [c2 k c, d2 k c, hx]
      have hm : (k + 1) * r.bps ≤ n := by
        have := Nat.mul_le_mul_right r.bps (Nat.succ_le_of_lt c)
        exact this.trans (Nat.div_mul_le_self n r.bps)
      rw [Nat.add_mul, Nat.one_mul] at hm
      have := agree_slice ha
      rw [List.drop_take, List.drop_take, List.take_take, List.take_take, Nat.min_eq_left (by omega), List.drop_drop,
        List.drop_drop]
      rw [show headerBlocks r.bh = hdrBlocks r.bh from rfl] at this
      rw [this]
    · simp only
      rw [List.getElem?_eq_none (by omega), List.getElem?_eq_none (by omega)]

/-- Any number of traces of a damaged file. -/
theorem readsTraces_damaged {r r1 : Reader} {us : List Trace} {b : Bytes} {ed : Nat} {tx : List Bytes} (hl : b.length = r.file.data.length)
    (hb : bytesPerSample r.bh.formatCode = some r.bps) (hr : ReadsTraces r us r1) (hk : LengthsKept r b) :
    (∃ us', us'.length = us.length ∧ ReadsTraces { r with file := ⟨b, r.file.pos⟩, endData := ed, texts := tx } us'
      { r1 with file := ⟨b, r1.file.pos⟩, endData := ed, texts := tx }) ∧
    r1.bh = r.bh ∧ r1.bps = r.bps ∧ r1.map = r.map ∧ r1.file.data = r.file.data ∧ LengthsKept r1 b := by
  induction us generalizing r with
  | nil =>
    have e : r1 = r := hr
    subst e
    exact ⟨⟨[], rfl, rfl⟩, rfl, rfl, rfl, rfl, hk⟩
  | cons u us ih =>
    obtain ⟨r2, h1, h2⟩ := hr
    obtain ⟨t', g1, -⟩ := readTrace_damaged (ed := ed) (tx := tx) hl hb h1
      (hk.imp_right fun h => h [] r u r2 rfl h1)
    obtain ⟨_, p2, p3, -, p5, -⟩ := readTrace_pos h1
    have p4 : r2.bps = r.bps := by
      obtain ⟨_, _, _, _, _, _, _, _, _, _, rfl⟩ := readTrace_ok h1
      rfl
    have hk2 : LengthsKept r2 b := by
      unfold LengthsKept at hk ⊢
      rw [p2, p3, p5]
      exact hk.imp_right fun h us r3 t r4 a1 a2 => h (u :: us) r3 t r4 ⟨r2, h1, a1⟩ a2
    obtain ⟨⟨us', i1, i2⟩, i3, i4, i5, i6, i7⟩ := ih (by rw [p2]; exact hl) (by rw [p3, p4]; exact hb) h2 hk2
    exact ⟨⟨t' :: us', by simp [i1], _, g1, i2⟩, i3.trans p3, i4.trans p4, i5.trans p5, i6.trans p2, i7⟩

/-! ## Headers in front of the traces -/

theorem readRecords_any {n : Nat} {a b : Bytes} (hl : b.length = a.length) {p : Nat} {recs : List Bytes} {f : File}
    (hr : readRecords n ⟨a, p⟩ = .ok (recs, f)) :
    ∃ recs', readRecords n ⟨b, p⟩ = .ok (recs', ⟨b, p + 3200 * recs.length⟩) ∧ recs'.length = recs.length ∧
      ∀ k : Nat, Agree a b (p + 3200 * k) 3200 → recs[k]? = recs'[k]? := by
  induction n generalizing p recs f with
  | zero =>
    simp only [readRecords, Except.ok.injEq, Prod.mk.injEq] at hr
    obtain ⟨rfl, rfl⟩ := hr
    exact ⟨[], rfl, rfl, fun _ _ => rfl⟩
  | succ n ih =>
    unfold readRecords at hr
    obtain ⟨⟨buf, f1⟩, h1, hr⟩ := bind_ok hr
    obtain ⟨⟨more, f2⟩, h2, hr⟩ := bind_ok hr
    simp only [pure_eq_ok, Except.ok.injEq, Prod.mk.injEq] at hr
    obtain ⟨rfl, rfl⟩ := hr
    obtain ⟨e1, e2, rfl⟩ := read_ok h1
    simp only [textHeaderSize] at e1 e2
    have hlen : ((b.drop p).take 3200).length = 3200 := by
      rw [e1, List.length_take, List.length_drop] at e2
      rw [List.length_take, List.length_drop, hl]
      exact e2
    obtain ⟨recs', i1, i2, i3⟩ := ih (p := p + 3200) h2
    refine ⟨(b.drop p).take 3200 :: recs', ?_, by simp [i2], ?_⟩
    · unfold readRecords
      rw [show File.read ⟨b, p⟩ textHeaderSize = .ok ((b.drop p).take 3200, ⟨b, p + 3200⟩) from
        read_eq (f := ⟨b, p⟩) (n := 3200) hlen, ok_bind]
      simp only
      rw [i1, ok_bind]
      simp only [pure_eq_ok, List.length_cons, Except.ok.injEq, Prod.mk.injEq, File.mk.injEq, true_and]
      omega
    · intro k ha
      cases k with
      | zero =>
        have := agree_slice ha
        simp only [Nat.mul_zero, Nat.add_zero] at this
        rw [List.getElem?_cons_zero, List.getElem?_cons_zero, e1, this]
      | succ k =>
        rw [List.getElem?_cons_succ, List.getElem?_cons_succ]
        exact i3 k (by rw [show p + 3200 + 3200 * k = p + 3200 * (k + 1) by omega]; exact ha)

/-- Opening a file with damaged texts. -/
theorem open_damaged {a b : Bytes} {ub : Option BinHeader} {m : HdrMap} {r : Reader} (hl : b.length = a.length)
    (ho : openReader a ub m = .ok r) (ht : r.bh.numOfTrailerStanza = 0) (hx : r.bh.extTextHeadersNum ≠ -1)
    (hb : Agree a b 3200 400) :
    ∃ tx, openReader b ub m = .ok { r with file := ⟨b, r.file.pos⟩, endData := b.length, texts := tx } ∧
      tx.length = r.texts.length ∧ ∀ k : Nat, Agree a b (textPlace k) 3200 → r.texts[k]? = tx[k]? := by
  obtain ⟨exts, f2, rd, size, h0, h1, h3, h4, h5, h6, h7, h8, h9, h10, h11, h12, h13, h14, h15, h16⟩ := openReader_ok ho
  have hf2 := readExtText_file h6
  have hrec : ∃ recs', readExtText r.bh.extTextHeadersNum ⟨b, 3600⟩ = .ok (recs', ⟨b, 3600 + 3200 * exts.length⟩) ∧
      recs'.length = exts.length ∧ ∀ k : Nat, Agree a b (3600 + 3200 * k) 3200 → exts[k]? = recs'[k]? := by
    unfold readExtText at h6 ⊢
    split at h6
    · rename_i hz
      simp only [Except.ok.injEq, Prod.mk.injEq] at h6
      obtain ⟨rfl, -⟩ := h6
      rw [if_pos hz]
      exact ⟨[], rfl, rfl, fun _ _ => rfl⟩
    · rename_i hz
      rw [if_neg hz, if_neg hx]
      by_cases hneg : r.bh.extTextHeadersNum < 0
      · exfalso
        refine readRecords_all _ _ ?_ h6
        unfold loopCount
        rw [if_pos hneg]
      · unfold loopCount at h6 ⊢
        rw [if_neg hneg] at h6 ⊢
        exact readRecords_any hl h6
  obtain ⟨recs', x1, x2, x3⟩ := hrec
  have e1 : (b.drop 3200).take 400 = (a.drop 3200).take 400 := (agree_slice hb).symm
  have r1 : File.read ⟨b, 0⟩ textHeaderSize = .ok (b.take 3200, ⟨b, 3200⟩) := by
    have hl : ((b.drop 0).take 3200).length = 3200 := by
      rw [List.drop_zero, List.length_take]
      omega
    have := read_eq (f := ⟨b, 0⟩) (n := 3200) hl
    rw [List.drop_zero] at this
    exact this
  have r2 : File.read ⟨b, 3200⟩ binHeaderSize = .ok ((a.drop 3200).take 400, ⟨b, 3600⟩) := by
    have hl : ((b.drop 3200).take 400).length = 400 := by
      rw [List.length_take, List.length_drop]
      omega
    have := read_eq (f := ⟨b, 3200⟩) (n := 400) hl
    rw [e1] at this
    exact this
  have hsf : seekFirst r.bh ⟨b, 3600 + 3200 * exts.length⟩ = .ok ⟨b, r.file.pos⟩ := by
    unfold seekFirst
    split at h8
    · rename_i hz
      rw [if_pos hz, ← h8, seek_nat]
    · rename_i hz
      rw [if_neg hz, h8, hf2]
  refine ⟨b.take 3200 :: recs', ?_, by rw [h7]; simp [x2], ?_⟩
  · unfold openReader
    rw [h0, ok_bind]
    simp only
    rw [r1, ok_bind]; simp only
    rw [r2, ok_bind]; simp only
    rw [h3, ok_bind]; simp only
    rw [h4, ok_bind, h5]; simp only
    rw [x1, ok_bind]; simp only
    rw [hsf, ok_bind]; simp only
    rw [readTrailers_none ht, ok_bind]; simp only
    rw [seek_nat, ok_bind, ← h10, h14, ok_bind, resizeVec_of_lt h15, ok_bind]
    have h9' : r.trailers = [] := by
      rw [readTrailers_none ht] at h9
      exact ((Prod.mk.inj (Except.ok.inj h9)).1).symm
    simp only [pure_eq_ok, List.take_nil, List.nil_append, List.length_replicate, List.length_nil, Nat.sub_zero]
    rw [← h16, ← h9', ← h13, ← h11]
  · intro k ha
    rw [h7]
    cases k with
    | zero =>
      have := agree_slice ha
      simp only [textPlace, if_true, List.drop_zero] at this
      rw [List.getElem?_cons_zero, List.getElem?_cons_zero, this]
    | succ k =>
      rw [List.getElem?_cons_succ, List.getElem?_cons_succ]
      refine x3 k ?_
      unfold textPlace at ha
      rw [if_neg (by omega)] at ha
      rw [show 3600 + 3200 * k = 400 + 3200 * (k + 1) by omega]
      exact ha

end Sedaman
