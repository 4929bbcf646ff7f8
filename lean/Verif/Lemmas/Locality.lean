import Verif.Spec.Locality
import Verif.Lemmas.WriteInv
import Verif.Lemmas.E2E
import Verif.Lemmas.Copy

/-!
# Lemmas: which bytes of a file depend on which part of a trace
-/

namespace Sedaman

open Spec

/-- The bytes of a trace as the writer's parameters and the trace alone determine them. -/
def TraceBytes (est : LogEst) (rev : Rev) (w : Writer) (t : Trace) (bs : Bytes) : Prop :=
  ∃ blk rest hb add last ps, w.map = blk :: rest ∧
    writeFields est w.bo t.header blk.fields (List.replicate 240 0) = .ok hb ∧
    writeAddLoop est w.bo w.map t.header (rev.blocks w.bh - 1) 1 (List.replicate 240 0) = .ok (add, last) ∧
    EncodedBy est w.bh.formatCode w.bo t.samples ps ∧ bs = hb ++ (add ++ ps.flatten)

theorem addLoop_buf {est : LogEst} {bo : ByteOrder} {m : HdrMap} {hdr : Header} {n i : Nat} {b b' : Bytes}
    {out last : Bytes} (hb : b.length = 240) (hb' : b'.length = 240)
    (h : writeAddLoop est bo m hdr n i b = .ok (out, last)) :
    ∃ last', writeAddLoop est bo m hdr n i b' = .ok (out, last') := by
  cases n with
  | zero =>
    simp only [writeAddLoop, Except.ok.injEq, Prod.mk.injEq] at h ⊢
    exact ⟨b', h.1, rfl⟩
  | succ n =>
    unfold writeAddLoop at h ⊢
    rw [memsetHdr_eq hb] at h
    rw [memsetHdr_eq hb']
    exact ⟨last, h⟩

theorem add_loop {est : LogEst} {rev : Rev} {w w' : Writer} {t : Trace} (hi : WInv2 rev w)
    (h : rev.write est w t = .ok w') (s : Step est w w' t (Rev.onlyInt rev))
    (hl : s.add.length = (if rev = .r2 then 240 * (w.bh.maxNumAddTrHeaders - 1).toNat else 0)) :
    ∃ last, writeAddLoop est w.bo w.map t.header (rev.blocks w.bh - 1) 1 (List.replicate 240 0) =
        .ok (s.add, last) := by
  by_cases hr : rev = .r2
  swap
  · rw [if_neg hr, List.length_eq_zero_iff] at hl
    rw [hl]
    cases rev with
    | r0 => exact ⟨_, rfl⟩
    | r1 => exact ⟨_, rfl⟩
    | r2 => exact absurd rfl hr
  subst hr
  change writeTraceRev2 est w t = .ok w' at h
  unfold writeTraceRev2 at h
  obtain ⟨wa, h1, h⟩ := bind_ok h
  obtain ⟨wb, h2, h⟩ := bind_ok h
  obtain ⟨wc, h3, h⟩ := bind_ok h
  have ewa : wa = s.wa := Except.ok.inj (h1.symm.trans s.auto)
  obtain ⟨i1, k1⟩ := winv_of_auto hi.inv h1
  obtain ⟨b, m, hb, e1, e2, e3, e4, a1⟩ := putTraceHeader_appends i1 h2
  have hmx : wa.bh.maxNumAddTrHeaders = w.bh.maxNumAddTrHeaders := by
    obtain ⟨-, -, hc⟩ := autoHdrs_ok hi.inv h1
    split at hc
    · rename_i hau
      obtain ⟨_, _, _, -, -, -, -, -, -, -, -, -, e⟩ :=
        setMinHdrs_first (by rw [hi.inv.atEnd]; exact hau.2) hc.1
      rw [e]
    · rw [hc]
  have hsamp : Appends wc w' w'.samp := by
    obtain ⟨add, l1, e5, a1'⟩ := addHdrs_appends a1.inv h3
    split at h
    · exact (writeSamplesFix_appends a1'.inv h).choose_spec.2.2.2
    · obtain ⟨n, enc, buf, g1, g2, g3, f1, f2, f3, a2⟩ := writeSamplesVar_appends a1'.inv h
      exact a2
  have key : ∃ out last, wc.file.data = wb.file.data ++ out ∧ out.length = s.add.length ∧
      writeAddLoop est w.bo w.map t.header (Rev.r2.blocks w.bh - 1) 1 (List.replicate 240 0) =
        .ok (out, last) := by
    rw [if_pos rfl] at hl
    unfold addHdrs at h3
    rw [a1.bh, hmx] at h3
    split at h3
    · obtain ⟨add, l1, e5, a1'⟩ := putAdditional_appends a1.inv h3
      unfold putAdditional writeAdditional at h3
      obtain ⟨⟨out, buf⟩, g1, g⟩ := bind_ok h3
      simp only [pure_eq_ok, Except.ok.injEq] at g
      have hd := (appends_write a1.inv out buf wb.samp (writeAddLoop_length a1.inv.hdr g1).2).data
      rw [a1.bh, hmx] at g1
      obtain ⟨last, g2⟩ := addLoop_buf (b' := List.replicate 240 0) a1.inv.hdr List.length_replicate g1
      rw [a1.kept.bo, a1.kept.map, k1.bo, k1.map] at g2
      refine ⟨out, last, by rw [← g]; exact hd, ?_, ?_⟩
      · rw [(writeAddLoop_length a1.inv.hdr g1).1, hl]
      · rw [show Rev.r2.blocks w.bh - 1 = (w.bh.maxNumAddTrHeaders - 1).toNat by
          unfold Rev.blocks; simp only; omega]
        exact g2
    · rename_i hz
      simp only [ne_eq, Decidable.not_not] at hz
      rw [← Except.ok.inj h3, hl]
      refine ⟨[], List.replicate 240 0, (List.append_nil _).symm, by rw [hz]; rfl, ?_⟩
      rw [show Rev.r2.blocks w.bh - 1 = 0 by unfold Rev.blocks; simp only; rw [hz]; rfl]
      rfl
  obtain ⟨out, last, d1, d2, d3⟩ := key
  refine ⟨last, ?_⟩
  have hbe : hb.length = s.hb.length := by rw [e3, s.hdrLen]
  have hd := s.app.data
  rw [hsamp.data, d1, a1.data, ewa, List.append_assoc, List.append_assoc] at hd
  have := List.append_cancel_left hd
  obtain ⟨-, h4⟩ := List.append_inj this hbe
  obtain ⟨h5, -⟩ := List.append_inj h4 d2
  rw [← h5]
  exact d3

/-- A call adds the bytes of its trace. -/
theorem write_bytes {est : LogEst} {rev : Rev} {w w' : Writer} {t : Trace} (hi : WInv2 rev w)
    (h : rev.write est w t = .ok w') (hn : Announced rev w'.bh t t.samples.length) :
    ∃ wa bs, autoHdrs (Rev.onlyInt rev) w t.header = .ok wa ∧ TraceBytes est rev w t bs ∧
      w'.file.data = wa.file.data ++ bs ∧ w'.bh = wa.bh := by
  obtain ⟨-, s, hadd, -, -, -, -, n, hn', hl⟩ := step_full hi h
  obtain ⟨last, hlast⟩ := add_loop hi h s hadd
  have hnn : n = t.samples.length := by
    unfold Announced at hn hn'
    split at hn
    · rename_i hf
      rw [if_pos hf] at hn'
      omega
    · rename_i hf
      rw [if_neg hf, hn] at hn'
      simp only [Option.some.injEq, Value.int.injEq] at hn'
      omega
  have hfm : s.wa.bh.formatCode = w.bh.formatCode := by
    obtain ⟨-, -, hc⟩ := autoHdrs_ok hi.inv s.auto
    split at hc
    · rename_i hau
      obtain ⟨_, _, _, -, -, -, -, -, -, -, -, -, e⟩ :=
        setMinHdrs_first (by rw [hi.inv.atEnd]; exact hau.2) hc.1
      rw [e]
    · rw [hc]
  obtain ⟨ps, he, -, hout⟩ := storeSamples_ok s.store
  have hw' := s.encOk
  rw [hfm] at hw'
  have hpl := encoded_length hw' hi.bps he
  have hps : w'.samp = ps.flatten := by
    by_cases hx : t.samples = []
    · rw [hx] at hnn
      rw [hx] at hpl
      simp only [List.length_nil, Nat.zero_mul] at hpl hnn
      rw [hnn, Nat.zero_mul] at hl
      rw [List.length_eq_zero_iff.1 hl, List.length_eq_zero_iff.1 hpl]
    · rw [if_neg hx] at hout
      rw [hout, List.take_zero, List.nil_append, List.drop_of_length_le, List.append_nil]
      rw [hpl, ← s.sampLen, hl, hnn]
      omega
  have hhdr := s.hdr
  unfold writeBlock at hhdr
  rw [memsetHdr_eq List.length_replicate, ok_bind] at hhdr
  exact ⟨s.wa, _, s.auto, ⟨s.blk, s.rest, s.hb, s.add, last, ps, s.map, hhdr, hlast, ⟨s.enc, hw', he⟩, rfl⟩,
    by rw [s.app.data, hps], s.app.bh⟩

theorem encodedBy_unique {est : LogEst} {fmt : Int} {bo : ByteOrder} {xs : List Dbl} {ps qs : List Bytes}
    (h : EncodedBy est fmt bo xs ps) (h' : EncodedBy est fmt bo xs qs) : ps = qs := by
  obtain ⟨e, h1, h2⟩ := h
  obtain ⟨e', h1', h2'⟩ := h'
  cases h1.symm.trans h1'
  exact encoded_unique h2 h2'

theorem traceBytes_unique {est : LogEst} {rev : Rev} {w : Writer} {t : Trace} {bs bs' : Bytes}
    (h : TraceBytes est rev w t bs) (h' : TraceBytes est rev w t bs') : bs = bs' := by
  obtain ⟨b, r, hb, add, l, ps, h1, h2, h3, h4, rfl⟩ := h
  obtain ⟨b', r', hb', add', l', ps', g1, g2, g3, g4, rfl⟩ := h'
  cases h1.symm.trans g1
  cases h2.symm.trans g2
  cases h3.symm.trans g3
  rw [encodedBy_unique h4 g4]

theorem traceBytes_congr {est : LogEst} {rev : Rev} {w v : Writer} {t : Trace} {bs : Bytes}
    (h1 : w.map = v.map) (h2 : w.bo = v.bo) (h3 : w.bh.formatCode = v.bh.formatCode)
    (h4 : w.bh.maxNumAddTrHeaders = v.bh.maxNumAddTrHeaders) (h : TraceBytes est rev w t bs) :
    TraceBytes est rev v t bs := by
  unfold TraceBytes at h ⊢
  have : rev.blocks w.bh = rev.blocks v.bh := by unfold Rev.blocks; rw [h4]
  rw [h1, h2, h3, this] at h
  exact h

theorem writeAt_get_in {buf bs out : Bytes} {off : Nat} (h : writeAt buf off bs = .ok out) (i : Nat)
    (h1 : off ≤ i) (h2 : i < off + bs.length) : out[i]? = bs[i - off]? := by
  obtain ⟨hl, rfl⟩ := writeAt_ok h
  have e : (buf.take off).length = off := by simp; omega
  rw [List.append_assoc, List.getElem?_append_right (by omega), e, List.getElem?_append_left (by omega)]

/-- Fields without a different value under a byte leave the byte alike. -/
theorem fields_differ {est : LogEst} {bo : ByteOrder} {h h' : Header} {fs : List HField}
    {b b' out out' : Bytes} (h1 : writeFields est bo h fs b = .ok out)
    (h2 : writeFields est bo h' fs b' = .ok out') (j : Nat) (hj : out[j]? ≠ out'[j]?) :
    b[j]? ≠ b'[j]? ∨ ∃ f ∈ fs, h.get f.name ≠ h'.get f.name ∧ f.off ≤ j ∧ j < f.off + f.ty.size := by
  induction fs generalizing b b' with
  | nil =>
    simp only [writeFields, Except.ok.injEq] at h1 h2
    subst h1 h2
    exact .inl hj
  | cons f fs ih =>
    unfold writeFields at h1 h2
    obtain ⟨v, a1, h1⟩ := bind_ok h1
    obtain ⟨bs, a2, h1⟩ := bind_ok h1
    obtain ⟨c, a3, h1⟩ := bind_ok h1
    obtain ⟨v', a1', h2⟩ := bind_ok h2
    obtain ⟨bs', a2', h2⟩ := bind_ok h2
    obtain ⟨c', a3', h2⟩ := bind_ok h2
    rcases ih h1 h2 with hc | ⟨g, hg, h3⟩
    · by_cases hr : f.off ≤ j ∧ j < f.off + f.ty.size
      · by_cases hv : h.get f.name = h'.get f.name
        · exfalso
          have e : v = v' := by
            unfold intOf at a1 a1'
            rw [← hv] at a1'
            exact Except.ok.inj (a1.symm.trans a1')
          subst e
          have e : bs = bs' := Except.ok.inj (a2.symm.trans a2')
          subst e
          apply hc
          have hl := fieldBytes_length a2
          rw [writeAt_get_in a3 j (by omega) (by omega), writeAt_get_in a3' j (by omega) (by omega)]
        · exact .inr ⟨f, List.mem_cons_self, hv, hr⟩
      · left
        have hl := fieldBytes_length a2
        have hl' := fieldBytes_length a2'
        rw [writeAt_get_out a3 j (by omega), writeAt_get_out a3' j (by omega)] at hc
        exact hc
    · exact .inr ⟨g, List.mem_cons_of_mem _ hg, h3⟩

theorem append_differ {a a' b b' : Bytes} {n j : Nat} (h1 : a.length = n) (h2 : a'.length = n)
    (h : (a ++ b)[j]? ≠ (a' ++ b')[j]?) :
    (j < n ∧ a[j]? ≠ a'[j]?) ∨ (n ≤ j ∧ b[j - n]? ≠ b'[j - n]?) := by
  by_cases hj : j < n
  · rw [List.getElem?_append_left (by omega), List.getElem?_append_left (by omega)] at h
    exact .inl ⟨hj, h⟩
  · rw [List.getElem?_append_right (h1 ▸ Nat.le_of_not_lt hj),
      List.getElem?_append_right (h2 ▸ Nat.le_of_not_lt hj), h1, h2] at h
    exact .inr ⟨by omega, h⟩

/-- One block of additional headers. -/
def extraBlock (est : LogEst) (bo : ByteOrder) (m : HdrMap) (hdr : Header) (i : Nat) : Out Bytes :=
  match m[i]? with
  | some b => writeFields est bo hdr b.fields (List.replicate 240 0)
  | none => .ok (List.replicate 240 0)

theorem extraBlock_length {est : LogEst} {bo : ByteOrder} {m : HdrMap} {hdr : Header} {i : Nat} {x : Bytes}
    (h : extraBlock est bo m hdr i = .ok x) : x.length = 240 := by
  unfold extraBlock at h
  split at h
  · rw [writeFields_length h, List.length_replicate]
  · rw [← Except.ok.inj h, List.length_replicate]

theorem addLoop_succ {est : LogEst} {bo : ByteOrder} {m : HdrMap} {hdr : Header} {n i : Nat}
    {b out last : Bytes} (hb : b.length = 240) (h : writeAddLoop est bo m hdr (n + 1) i b = .ok (out, last)) :
    ∃ c o, extraBlock est bo m hdr i = .ok c ∧ writeAddLoop est bo m hdr n (i + 1) c = .ok (o, last) ∧
      out = c ++ o := by
  unfold writeAddLoop at h
  rw [memsetHdr_eq hb, ok_bind] at h
  unfold extraBlock
  cases hm : m[i]? with
  | none =>
    rw [hm] at h
    simp only [ok_bind] at h
    obtain ⟨⟨o, l⟩, a2, h⟩ := bind_ok h
    simp only [pure_eq_ok, Except.ok.injEq, Prod.mk.injEq] at h
    exact ⟨_, o, rfl, by rw [a2, h.2], h.1.symm⟩
  | some blk =>
    rw [hm] at h
    simp only at h
    obtain ⟨c, a1, h⟩ := bind_ok h
    obtain ⟨⟨o, l⟩, a2, h⟩ := bind_ok h
    simp only [pure_eq_ok, Except.ok.injEq, Prod.mk.injEq] at h
    exact ⟨c, o, a1, by rw [a2, h.2], h.1.symm⟩

/-- The same for the additional headers. -/
theorem addLoop_differ {est : LogEst} {bo : ByteOrder} {m : HdrMap} {h h' : Header} {n i : Nat}
    {b b' out out' last last' : Bytes} (hb : b.length = 240) (hb' : b'.length = 240)
    (h1 : writeAddLoop est bo m h n i b = .ok (out, last))
    (h2 : writeAddLoop est bo m h' n i b' = .ok (out', last')) (j : Nat) (hj : out[j]? ≠ out'[j]?) :
    ∃ k blk f, k < n ∧ m[i + k]? = some blk ∧ f ∈ blk.fields ∧ h.get f.name ≠ h'.get f.name ∧
      240 * k + f.off ≤ j ∧ j < 240 * k + f.off + f.ty.size := by
  induction n generalizing i b b' out out' j with
  | zero =>
    simp only [writeAddLoop, Except.ok.injEq, Prod.mk.injEq] at h1 h2
    rw [← h1.1, ← h2.1] at hj
    exact absurd rfl hj
  | succ n ih =>
    obtain ⟨c, o, a1, a2, rfl⟩ := addLoop_succ hb h1
    obtain ⟨c', o', a1', a2', rfl⟩ := addLoop_succ hb' h2
    have l1 := extraBlock_length a1
    have l2 := extraBlock_length a1'
    rcases append_differ l1 l2 hj with ⟨hjl, hj⟩ | ⟨hjl, hj⟩
    · unfold extraBlock at a1 a1'
      cases hm : m[i]? with
      | none =>
        rw [hm] at a1 a1'
        exact absurd (by rw [← Except.ok.inj a1, ← Except.ok.inj a1']) hj
      | some blk =>
        rw [hm] at a1 a1'
        rcases fields_differ a1 a1' j hj with hc | ⟨f, g1, g2, g3, g4⟩
        · exact absurd rfl hc
        · exact ⟨0, blk, f, by omega, hm, g1, g2, by omega, by omega⟩
    · obtain ⟨k, blk, f, g0, g1, g2, g3, g4, g5⟩ := ih l1 l2 a2 a2' _ hj
      exact ⟨k + 1, blk, f, by omega, by rw [← g1, show i + (k + 1) = i + 1 + k by omega], g2, g3, by omega, by omega⟩

theorem pieces_length {enc : Dbl → Out Bytes} {n : Nat} (hn : ∀ x p, enc x = .ok p → p.length = n)
    {xs : List Dbl} {ps : List Bytes} (h : Encoded enc xs ps) : ps.flatten.length = xs.length * n := by
  induction h with
  | nil => simp
  | cons h1 _ ih =>
    rw [List.flatten_cons, List.length_append, hn _ _ h1, ih, List.length_cons, Nat.succ_mul, Nat.add_comm]

/-- The sample over a byte. -/
theorem sample_over {l n j : Nat} (h : j < l * n) : j / n < l ∧ j / n * n ≤ j ∧ j < (j / n + 1) * n := by
  have hn : 0 < n := by
    rcases Nat.eq_zero_or_pos n with rfl | c
    · simp at h
    · exact c
  exact ⟨(Nat.div_lt_iff_lt_mul hn).2 h, Nat.div_mul_le_self _ _, by
    have := Nat.lt_div_mul_add hn (a := j)
    rw [Nat.add_mul]; omega⟩

/-- The same for the samples. -/
theorem samples_differ {enc : Dbl → Out Bytes} {n : Nat} (hn : ∀ x p, enc x = .ok p → p.length = n)
    {xs ys : List Dbl} {ps qs : List Bytes} (h : Encoded enc xs ps) (h' : Encoded enc ys qs) (j : Nat)
    (hj : ps.flatten[j]? ≠ qs.flatten[j]?) :
    ∃ k, xs[k]? ≠ ys[k]? ∧ k * n ≤ j ∧ j < (k + 1) * n := by
  induction h generalizing ys qs j with
  | nil =>
    cases h' with
    | nil => exact absurd rfl hj
    | @cons y q ys qs a b =>
      have hl := pieces_length hn (List.Forall₂.cons a b)
      have hlt : j < (y :: ys).length * n := by
        by_contra c
        apply hj
        rw [List.getElem?_eq_none (l := (_ :: _ : List Bytes).flatten) (by omega)]
        rfl
      obtain ⟨g1, g2, g3⟩ := sample_over hlt
      exact ⟨j / n, by rw [List.getElem?_eq_getElem g1]; simp, g2, g3⟩
  | @cons x p xs ps a b ih =>
    cases h' with
    | nil =>
      have hl := pieces_length hn (List.Forall₂.cons a b)
      have hlt : j < (x :: xs).length * n := by
        by_contra c
        apply hj
        rw [List.getElem?_eq_none (l := (_ :: _ : List Bytes).flatten) (by omega)]
        rfl
      obtain ⟨g1, g2, g3⟩ := sample_over hlt
      exact ⟨j / n, by rw [List.getElem?_eq_getElem g1]; simp, g2, g3⟩
    | @cons y q ys qs a' b' =>
      simp only [List.flatten_cons] at hj
      have l1 := hn _ _ a
      have l2 := hn _ _ a'
      by_cases hjl : j < n
      · rw [List.getElem?_append_left (by omega), List.getElem?_append_left (by omega)] at hj
        refine ⟨0, fun c => hj ?_, by omega, by omega⟩
        simp only [List.getElem?_cons_zero, Option.some.injEq] at c
        subst c
        rw [Except.ok.inj (a.symm.trans a')]
      · rw [List.getElem?_append_right (by omega), List.getElem?_append_right (by omega), l1, l2] at hj
        obtain ⟨k, g1, g2, g3⟩ := ih b' _ hj
        refine ⟨k + 1, by simpa using g1, ?_, ?_⟩
        · rw [Nat.add_mul]; omega
        · rw [Nat.add_mul]; omega

/-- Bytes of a trace that differ belong to a part of the trace that differs. -/
theorem bytes_touched {est : LogEst} {rev : Rev} {w : Writer} {t t' : Trace} {bs bs' : Bytes}
    (hb : bytesPerSample w.bh.formatCode = some w.bps)
    (h : TraceBytes est rev w t bs) (h' : TraceBytes est rev w t' bs') (j : Nat) (hj : bs[j]? ≠ bs'[j]?) :
    Touched rev w t t' j := by
  obtain ⟨b, r, hd, add, l, ps, h1, h2, h3, h4, rfl⟩ := h
  obtain ⟨b', r', hd', add', l', ps', g1, g2, g3, g4, rfl⟩ := h'
  cases h1.symm.trans g1
  have hl := writeFields_length h2
  have hl' := writeFields_length g2
  rw [List.length_replicate] at hl hl'
  obtain ⟨ha, -⟩ := writeAddLoop_length List.length_replicate h3
  obtain ⟨ha', -⟩ := writeAddLoop_length List.length_replicate g3
  have hbl : 1 ≤ rev.blocks w.bh := by unfold Rev.blocks; split <;> omega
  rcases append_differ hl hl' hj with ⟨hj1, hj⟩ | ⟨hj1, hj⟩
  · rcases fields_differ h2 g2 j hj with hc | ⟨f, a1, a2, a3, a4⟩
    · exact absurd rfl hc
    · exact .value 0 b f (by omega) (by rw [h1]; rfl) a1 a2 (by omega) (by omega)
  · rcases append_differ ha ha' hj with ⟨hj2, hj⟩ | ⟨hj2, hj⟩
    · obtain ⟨k, blk, f, a0, a1, a2, a3, a4, a5⟩ :=
        addLoop_differ List.length_replicate List.length_replicate h3 g3 _ hj
      exact .value (1 + k) blk f (by omega) a1 a2 a3 (by omega) (by omega)
    · obtain ⟨enc, e1, e2⟩ := h4
      obtain ⟨enc', e1', e2'⟩ := g4
      cases e1.symm.trans e1'
      have hn : ∀ x p, enc w.bo x = .ok p → p.length = w.bps := by
        intro x p hx
        have := encoded_length e1 hb (List.Forall₂.cons hx List.Forall₂.nil)
        simpa using this
      obtain ⟨k, a1, a2, a3⟩ := samples_differ hn e2 e2' _ hj
      exact .sample k a1 (by omega) (by omega)

/-- Traces that are alike touch nothing. -/
theorem touched_self {rev : Rev} {w : Writer} {t : Trace} {j : Nat} : ¬ Touched rev w t t j := by
  rintro (⟨_, _, _, -, -, -, h, -, -⟩ | ⟨_, h, -, -⟩) <;> exact h rfl

/-! ## Histories -/

theorem autoHdrs_later {rev : Rev} {w wa : Writer} {hdr : Header} (hi : WInv2 rev w)
    (hl : w.auto = true → w.firstPos < w.file.data.length) (h : autoHdrs (Rev.onlyInt rev) w hdr = .ok wa) :
    wa = w := by
  obtain ⟨-, -, hc⟩ := autoHdrs_ok hi.inv h
  rw [if_neg] at hc
  · exact hc
  · rintro ⟨a, b⟩
    have := hl a
    omega

/-- What is in front of the traces. -/
def FrontOf (rev : Rev) (w0 : Writer) (ts : List Trace) (wa : Writer) : Prop :=
  (ts = [] → wa = w0) ∧ ∀ t, ts.head? = some t → autoHdrs (Rev.onlyInt rev) w0 t.header = .ok wa

theorem written_bytes {est : LogEst} {rev : Rev} {w0 w : Writer} {ts : List Trace} (hi : WInv2 rev w0)
    (h : Written (rev.write est) w0 ts w) (hn : ∀ t ∈ ts, Announced rev w.bh t t.samples.length) :
    ∃ wa bss, FrontOf rev w0 ts wa ∧ w.bh = wa.bh ∧ List.Forall₂ (TraceBytes est rev w0) ts bss ∧
      w.file.data = wa.file.data ++ bss.flatten := by
  induction h with
  | opened => exact ⟨w0, [], ⟨fun _ => rfl, fun t c => by cases c⟩, rfl, .nil, by simp⟩
  | @wrote ts t w w' hw hs ih =>
    obtain ⟨i1, i2, i3, i4, i5, i6, i7, i8⟩ := written_inv2 hi hw
    obtain ⟨wa, bs, b1, b2, b3, b4⟩ := write_bytes i1 hs (hn t (by simp))
    have b2' : TraceBytes est rev w0 t bs := traceBytes_congr i2.map i2.bo i4 i5 b2
    by_cases hts : ts = []
    · subst hts
      cases i7 rfl
      refine ⟨wa, [bs], ⟨fun c => by simp at c, fun t' ht' => ?_⟩, b4, .cons b2' .nil, by rw [b3]; simp⟩
      simp only [List.nil_append, List.head?_cons, Option.some.injEq] at ht'
      subst ht'
      exact b1
    · have e := autoHdrs_later i1 (fun _ => i8 hts) b1
      subst e
      obtain ⟨wf, bss, c1, c2, c3, c4⟩ := ih fun u hu => by
        rw [← b4]
        exact hn u (List.mem_append_left _ hu)
      refine ⟨wf, bss ++ [bs], ⟨fun c => by simp at c, fun t' ht' => c1.2 t' ?_⟩, b4.trans c2,
        List.rel_append c3 (.cons b2' .nil), ?_⟩
      · cases ts with
        | nil => exact absurd rfl hts
        | cons a l => exact ht'
      · rw [b3, c4, List.append_assoc, List.flatten_append]
        simp

/-- The function that gives the bytes of a trace. -/
theorem bytes_function (est : LogEst) (rev : Rev) (w0 : Writer) : ∃ bytesOf : Trace → Bytes,
    ∀ t bs, TraceBytes est rev w0 t bs → bs = bytesOf t := by
  classical
  refine ⟨fun t => if h : ∃ bs, TraceBytes est rev w0 t bs then h.choose else [], fun t bs h => ?_⟩
  have hx : ∃ bs, TraceBytes est rev w0 t bs := ⟨bs, h⟩
  simp only [dif_pos hx]
  exact traceBytes_unique h hx.choose_spec

theorem map_function {R : Trace → Bytes → Prop} {f : Trace → Bytes} (hf : ∀ t bs, R t bs → bs = f t)
    {ts : List Trace} {bss : List Bytes} (h : List.Forall₂ R ts bss) : bss = ts.map f := by
  induction h with
  | nil => rfl
  | cons a _ ih => rw [List.map_cons, hf _ _ a, ih]

theorem front_shape {rev : Rev} {w wa : Writer} {hdr : Header} (hi : WInv2 rev w)
    (h : autoHdrs (Rev.onlyInt rev) w hdr = .ok wa) :
    wa.file.data.length = w.file.data.length ∧ wa.file.data.take 3200 = w.file.data.take 3200 ∧
      wa.file.data.drop 3600 = w.file.data.drop 3600 := by
  obtain ⟨-, -, hc⟩ := autoHdrs_ok hi.inv h
  split at hc
  · rename_i ha
    have hf := hi.inv.autoFirst ha.1
    have hl := binHeaderBytes_length w.bo wa.bh
    have ht : (w.file.data.take 3200).length = 3200 := by rw [List.length_take]; omega
    have hall : wa.file.data.length = 3600 := by rw [hc.2, List.length_append, ht, hl]
    refine ⟨by omega, ?_, ?_⟩
    · rw [hc.2, List.take_append_of_le_length (by omega), List.take_take, Nat.min_self]
    · rw [List.drop_of_length_le (by omega), List.drop_of_length_le (by omega)]
  · rw [hc]
    exact ⟨rfl, rfl, rfl⟩

theorem front_length {rev : Rev} {w wa : Writer} {hdr : Header} (hi : WInv2 rev w)
    (h : autoHdrs (Rev.onlyInt rev) w hdr = .ok wa) : wa.file.data.length = w.file.data.length :=
  (front_shape hi h).1

theorem front_function {rev : Rev} {w : Writer} (hi : WInv2 rev w) :
    ∃ g : Trace → Bytes, (∀ t, (g t).length = w.file.data.length ∧ (g t).take 3200 = w.file.data.take 3200 ∧
        (g t).drop 3600 = w.file.data.drop 3600) ∧
      ∀ t wa, autoHdrs (Rev.onlyInt rev) w t.header = .ok wa → wa.file.data = g t := by
  refine ⟨fun t => match autoHdrs (Rev.onlyInt rev) w t.header with
    | .ok wa => wa.file.data
    | .error _ => w.file.data, fun t => ?_, fun t wa h => by simp only [h]⟩
  simp only
  cases h : autoHdrs (Rev.onlyInt rev) w t.header with
  | ok wa => exact front_shape hi h
  | error e => exact ⟨rfl, rfl, rfl⟩

theorem front_explicit {rev : Rev} {w0 wa : Writer} {ts : List Trace} (hx : w0.auto = false)
    (h : FrontOf rev w0 ts wa) : wa = w0 := by
  cases ts with
  | nil => exact h.1 rfl
  | cons t ts =>
    have := h.2 t rfl
    unfold autoHdrs at this
    rw [hx] at this
    exact (Except.ok.inj this).symm

theorem explicit_bh {est : LogEst} {rev : Rev} {w0 w : Writer} {ts : List Trace} (hi : WInv2 rev w0)
    (hx : w0.auto = false) (h : Written (rev.write est) w0 ts w) : w.bh = w0.bh := by
  induction h with
  | opened => rfl
  | @wrote ts t w w' hw hs ih =>
    obtain ⟨i1, i2, -⟩ := written_inv2 hi hw
    obtain ⟨-, s, -⟩ := step_full i1 hs
    have e := autoHdrs_later i1 (fun c => by rw [i2.auto, hx] at c; cases c) s.auto
    rw [s.app.bh, e, ih]

theorem get_set_ne {h : Header} {k k' : String} {v : Value} (hk : k' ≠ k) : (h.set k v).get k' = h.get k' := by
  rw [get_set, if_neg (Ne.symm hk)]

/-! ## Names the map does not mention -/

theorem intOf_congr {h h' : Header} {n : String} (e : h.get n = h'.get n) : intOf h n = intOf h' n := by
  unfold intOf
  rw [e]

theorem fields_same {est : LogEst} {bo : ByteOrder} {h h' : Header} {fs : List HField}
    (he : ∀ f ∈ fs, h.get f.name = h'.get f.name) (buf : Bytes) :
    writeFields est bo h fs buf = writeFields est bo h' fs buf :=
  writeFields_congr (fun f hf => by rw [intOf_congr (he f hf)]) buf

theorem addLoop_same {est : LogEst} {bo : ByteOrder} {m : HdrMap} {h h' : Header}
    (he : ∀ b ∈ m, ∀ f ∈ b.fields, h.get f.name = h'.get f.name) (n i : Nat) (buf : Bytes) :
    writeAddLoop est bo m h n i buf = writeAddLoop est bo m h' n i buf := by
  induction n generalizing i buf with
  | zero => rfl
  | succ n ih =>
    unfold writeAddLoop
    cases hm : m[i]? with
    | none => simp only [ih]
    | some b => simp only [ih, fields_same (he b (List.mem_of_getElem? hm))]

theorem bind_same {α β : Type} {x : Out α} {f g : α → Out β} (h : ∀ a, x = .ok a → f a = g a) :
    x >>= f = x >>= g := by
  cases x with
  | error e => rfl
  | ok a => exact h a rfl

theorem setMin_map {o : Bool} {w wa : Writer} {h : Header} (e : autoHdrs o w h = .ok wa) : wa.map = w.map := by
  unfold autoHdrs setMinHdrs at e
  split at e
  · split at e
    · obtain ⟨n, -, e⟩ := bind_ok e
      split at e
      · cases e
      obtain ⟨d, -, e⟩ := bind_ok e
      split at e
      · cases e
      obtain ⟨si, -, e⟩ := bind_ok e
      split at e
      · cases e
      obtain ⟨si, -, e⟩ := bind_ok e
      obtain ⟨sa, -, e⟩ := bind_ok e
      simp only [pure_eq_ok, Except.ok.injEq] at e
      rw [← e]
    · rw [← Except.ok.inj e]
  · rw [← Except.ok.inj e]

theorem auto_same {o : Bool} {w : Writer} {h h' : Header} (hn : h.get "SAMP_NUM" = h'.get "SAMP_NUM")
    (hd : h.get "SAMP_INT" = h'.get "SAMP_INT") : autoHdrs o w h = autoHdrs o w h' := by
  unfold autoHdrs setMinHdrs needInt sampIntOf
  rw [hn, hd]

theorem put_same {est : LogEst} {w : Writer} {h h' : Header}
    (he : ∀ b ∈ w.map, ∀ f ∈ b.fields, h.get f.name = h'.get f.name) :
    putTraceHeader est w h = putTraceHeader est w h' := by
  have : ∀ buf, writeTraceHeader est w.bo w.map h buf = writeTraceHeader est w.bo w.map h' buf := by
    intro buf
    unfold writeTraceHeader
    apply bind_same
    intro b _
    cases hm : w.map with
    | nil => rfl
    | cons x m => exact fields_same (he x (by rw [hm]; exact List.mem_cons_self)) b
  unfold putTraceHeader
  rw [this]

theorem put_map {est : LogEst} {w w' : Writer} {h : Header} (e : putTraceHeader est w h = .ok w') :
    w'.map = w.map := by
  unfold putTraceHeader at e
  obtain ⟨b, -, e⟩ := bind_ok e
  simp only [pure_eq_ok, Except.ok.injEq] at e
  rw [← e]

theorem add_same {est : LogEst} {w : Writer} {h h' : Header}
    (he : ∀ b ∈ w.map, ∀ f ∈ b.fields, h.get f.name = h'.get f.name) :
    addHdrs est w h = addHdrs est w h' := by
  unfold addHdrs putAdditional writeAdditional
  rw [addLoop_same he]

theorem var_same {est : LogEst} {w : Writer} {h h' : Header} {xs : List Dbl}
    (hn : h.get "SAMP_NUM" = h'.get "SAMP_NUM") :
    writeSamplesVar est w ⟨h, xs⟩ = writeSamplesVar est w ⟨h', xs⟩ := by
  unfold writeSamplesVar needInt
  rw [hn]

/-- Only the names of the map, and the two that automatic headers and traces of any length use,
matter. -/
theorem write_same {est : LogEst} {rev : Rev} {w : Writer} {h h' : Header} {xs : List Dbl}
    (he : ∀ b ∈ w.map, ∀ f ∈ b.fields, h.get f.name = h'.get f.name)
    (hn : h.get "SAMP_NUM" = h'.get "SAMP_NUM") (hd : h.get "SAMP_INT" = h'.get "SAMP_INT") :
    rev.write est w ⟨h, xs⟩ = rev.write est w ⟨h', xs⟩ := by
  cases rev with
  | r0 =>
    change writeTraceRev0 _ _ _ = writeTraceRev0 _ _ _
    unfold writeTraceRev0
    simp only
    rw [auto_same hn hd]
    refine bind_same fun wa h1 => ?_
    rw [put_same (by rw [setMin_map h1]; exact he)]
  | r1 =>
    change writeTraceRev1 _ _ _ = writeTraceRev1 _ _ _
    unfold writeTraceRev1
    simp only
    rw [auto_same hn hd]
    refine bind_same fun wa h1 => ?_
    rw [put_same (by rw [setMin_map h1]; exact he)]
    refine bind_same fun wb h2 => ?_
    rw [var_same hn]
  | r2 =>
    change writeTraceRev2 _ _ _ = writeTraceRev2 _ _ _
    unfold writeTraceRev2
    simp only
    rw [auto_same hn hd]
    refine bind_same fun wa h1 => ?_
    rw [put_same (by rw [setMin_map h1]; exact he)]
    refine bind_same fun wb h2 => ?_
    rw [add_same (by rw [put_map h2, setMin_map h1]; exact he)]
    refine bind_same fun wc h3 => ?_
    rw [var_same hn]

end Sedaman
