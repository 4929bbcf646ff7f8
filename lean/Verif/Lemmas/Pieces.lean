import Verif.Spec.SegyCut
import Verif.Lemmas.Visits
import Verif.Lemmas.SegyCut
import Verif.Lemmas.SortedWithin

/-!
# Lemmas: a SEG-Y file is its traces, one behind the other
-/

namespace Sedaman

open Spec

theorem read_unframe {pre c rest b : Bytes} {p n : Nat} {f' : File}
    (h : File.read ⟨pre ++ (c ++ rest), pre.length + p⟩ n = .ok (b, f')) (hp : p + n ≤ c.length) :
    File.read ⟨c, p⟩ n = .ok (b, ⟨c, p + n⟩) := by
  obtain ⟨⟨b', f''⟩, hr⟩ := (read_iff ⟨c, p⟩ n).2 (.inr hp)
  obtain ⟨rfl, h2⟩ := read_frame hr pre rest
  rw [h2] at h
  simp only [Except.ok.injEq, Prod.mk.injEq] at h
  rw [hr, h.1]

theorem readBlocks_unframe {bo : ByteOrder} {m : HdrMap} {n i : Nat} {pre c rest : Bytes} {p : Nat}
    {acc h : Header} {f' : File}
    (hr : readBlocks bo m n i ⟨pre ++ (c ++ rest), pre.length + p⟩ acc = .ok (h, f'))
    (hp : p + 240 * n ≤ c.length) : readBlocks bo m n i ⟨c, p⟩ acc = .ok (h, ⟨c, p + 240 * n⟩) := by
  induction n generalizing i p acc with
  | zero =>
    simp only [readBlocks, Except.ok.injEq, Prod.mk.injEq] at hr ⊢
    exact ⟨hr.1, rfl⟩
  | succ n ih =>
    unfold readBlocks at hr ⊢
    cases hm : m[i]? with
    | some b =>
      rw [hm] at hr
      simp only at hr ⊢
      obtain ⟨⟨buf, f1⟩, h1, hr⟩ := bind_ok hr
      obtain ⟨acc', h2, hr⟩ := bind_ok hr
      simp only at h2 hr
      obtain ⟨-, -, rfl⟩ := read_ok h1
      rw [read_unframe h1 (by unfold trHeaderSize; omega), ok_bind]
      simp only
      rw [h2, ok_bind]
      rw [show (⟨pre ++ (c ++ rest), pre.length + p⟩ : File).pos + trHeaderSize =
        pre.length + (p + trHeaderSize) by simp only; omega] at hr
      rw [ih hr (by unfold trHeaderSize; omega)]
      unfold trHeaderSize
      rw [show p + 240 + 240 * n = p + 240 * (n + 1) by omega]
    | none =>
      rw [hm] at hr
      simp only at hr ⊢
      obtain ⟨f1, h1, hr⟩ := bind_ok hr
      have hs (d : Bytes) (q : Nat) : File.seekCur ⟨d, q⟩ trHeaderSize = .ok ⟨d, q + trHeaderSize⟩ := by
        unfold File.seekCur
        rw [show ((⟨d, q⟩ : File).pos : Int) + ((trHeaderSize : Nat) : Int) = ((q + trHeaderSize : Nat) : Int) by
          push_cast; rfl, seek_nat]
      rw [hs] at h1
      cases h1
      rw [hs, ok_bind]
      rw [Nat.add_assoc] at hr
      rw [ih hr (by unfold trHeaderSize; omega)]
      unfold trHeaderSize
      rw [show p + 240 + 240 * n = p + 240 * (n + 1) by omega]

/-- Two readers see the same in a piece if they have the same parameters. -/
structure Alike (r s : Reader) : Prop where
  bh : s.bh = r.bh
  bo : s.bo = r.bo
  map : s.map = r.map
  bps : s.bps = r.bps
  buf : s.bufLen < 2 ^ 63
  buf' : r.bufLen < 2 ^ 63
  fix : fixedLength r.bh = true → s.bufLen = r.bufLen

theorem Alike.symm {r s : Reader} (h : Alike r s) : Alike s r :=
  ⟨h.bh.symm, h.bo.symm, h.map.symm, h.bps.symm, h.buf', h.buf, fun c => (h.fix (by rw [← h.bh]; exact c)).symm⟩

theorem sampleBytes_alike {r s : Reader} (h : Alike r s) {h0 hdr : Header} {n : Nat}
    (hb : sampleBytes r h0 = .ok (n, hdr)) : sampleBytes s h0 = .ok (n, hdr) := by
  have := sampleBytes_congr h.buf' h.buf h.fix r.file r.curr hb
  rw [← this]
  unfold sampleBytes
  simp only [h.bh, h.bps]

theorem isTrace_alike {r s : Reader} (h : Alike r s) {c : Bytes} {t : Trace} (ht : IsTrace r c t) :
    IsTrace s c t := by
  obtain ⟨h1, r', h2, h3⟩ := ht
  obtain ⟨h0, n, buf, rd, rest, g1, g2, g3, g4, g5, rfl⟩ := readTrace_ok h2
  have e : readTrcHeader { s with file := ⟨c, 0⟩ } = readTrcHeader { r with file := ⟨c, 0⟩ } := by
    unfold readTrcHeader
    simp only [h.bh, h.bo, h.map]
  have k2 : sampleBytes { s with file := ⟨c, 0⟩ } h0 = .ok (n, t.header) :=
    sampleBytes_alike (r := { r with file := ⟨c, 0⟩ }) ⟨h.bh, h.bo, h.map, h.bps, h.buf, h.buf', h.fix⟩ g2
  refine ⟨h1, _, readTrace_of (r := { s with file := ⟨c, 0⟩ }) (rd := rd) (buf := buf) (rest := rest)
    (e.trans g1) k2 ?_ ?_ ?_, h3⟩
  · exact g3
  · simp only [h.bh]; exact g4
  · simp only [h.bo, h.bps]; exact g5

/-- The bytes a trace was read from are a piece on their own. -/
theorem trace_piece {r r' : Reader} {t : Trace} {m : HdrMap} {data : Bytes} (hi : Inv data m r)
    (hmax : 0 ≤ r.bh.maxNumAddTrHeaders) (ht : readTrace r = .ok (t, r')) (hl : r'.file.pos ≤ data.length) :
    r.file.pos + 240 ≤ r'.file.pos ∧
      IsTrace r ((data.drop r.file.pos).take (r'.file.pos - r.file.pos)) t := by
  obtain ⟨h0, n, buf, rd, rest, h1, h2, h3, h4, h5, rfl⟩ := readTrace_ok ht
  have hblk := hdrBlocks_pos hmax
  simp only at hl ⊢
  refine ⟨by omega, ?_⟩
  generalize hc : (data.drop r.file.pos).take (r.file.pos + 240 * hdrBlocks r.bh + n - r.file.pos) = c
  have hcl : c.length = 240 * hdrBlocks r.bh + n := by rw [← hc]; simp; omega
  have hsplit : data = data.take r.file.pos ++ (c ++ data.drop (r.file.pos + 240 * hdrBlocks r.bh + n)) := by
    rw [← hc]
    conv_lhs => rw [← List.take_append_drop r.file.pos data]
    congr 1
    conv_lhs => rw [← List.take_append_drop (r.file.pos + 240 * hdrBlocks r.bh + n - r.file.pos)
      (data.drop r.file.pos), List.drop_drop]
    congr 2
    omega
  have hplen : (data.take r.file.pos).length = r.file.pos := by simp; omega
  rw [hi.data] at h3
  have k1 : readTrcHeader { r with file := ⟨c, 0⟩ } = .ok (h0, ⟨c, 0 + 240 * hdrBlocks r.bh⟩) := by
    unfold readTrcHeader at h1 ⊢
    split at h1
    · cases h1
    · rename_i hm
      simp only
      rw [if_neg hm]
      have hf : r.file = ⟨data.take r.file.pos ++ (c ++ data.drop (r.file.pos + 240 * hdrBlocks r.bh + n)),
          (data.take r.file.pos).length + 0⟩ := by
        rw [← hsplit, hplen, ← hi.data, Nat.add_zero]
      rw [hf] at h1
      exact readBlocks_unframe h1 (by unfold hdrBlocks at hcl; omega)
  have k3 : File.read ⟨c, 0 + 240 * hdrBlocks r.bh⟩ n = .ok (buf, ⟨c, 0 + 240 * hdrBlocks r.bh + n⟩) := by
    refine read_unframe (pre := data.take r.file.pos)
      (rest := data.drop (r.file.pos + 240 * hdrBlocks r.bh + n))
      (f' := ⟨data, r.file.pos + 240 * hdrBlocks r.bh + n⟩) ?_ (by omega)
    rw [← hsplit, hplen, Nat.zero_add]
    exact h3
  refine ⟨?_, _, readTrace_of (r := { r with file := ⟨c, 0⟩ }) k1 h2 k3 h4 h5, by simp only; omega⟩
  intro hz
  rw [hz] at hcl
  simp at hcl
  omega

theorem isTrace_all {r s : Reader} (h : Alike r s) {cs : List Bytes} {ts : List Trace}
    (ht : List.Forall₂ (IsTrace r) cs ts) : List.Forall₂ (IsTrace s) cs ts :=
  List.Forall₂.imp (fun _ _ => isTrace_alike h) ht

/-- What a loop over `has_trace` has read are pieces, up to the end of the data. -/
theorem visits_pieces {data : Bytes} {m : HdrMap} {r : Reader} {ts : List Trace} (hi : Inv data m r)
    (hmax : 0 ≤ r.bh.maxNumAddTrHeaders) (hc : r.curr = r.file.pos) (he : r.endData ≤ data.length)
    (hv : Visits r ts) :
    r.curr ≤ r.endData ∧ ∃ cs, List.Forall₂ (IsTrace r) cs ts ∧
      (data.drop r.curr).take (r.endData - r.curr) = cs.flatten := by
  induction ts generalizing r with
  | nil =>
    unfold Visits hasTrace at hv
    simp only [ne_eq, decide_not, Bool.not_eq_eq_eq_not, Bool.not_false, decide_eq_true_eq] at hv
    exact ⟨by omega, [], .nil, by rw [hv, Nat.sub_self]; rfl⟩
  | cons t ts ih =>
    obtain ⟨-, ⟨r1, h1, h2⟩, -⟩ := hv
    have hi1 := inv_trace hi h1
    obtain ⟨h0, n, buf, rd, rest, g1, g2, g3, g4, g5, e⟩ := readTrace_ok h1
    have e1 : r1.bh = r.bh := by rw [e]
    have e2 : r1.endData = r.endData := by rw [e]
    have e3 : r1.curr = r1.file.pos := by rw [e]
    obtain ⟨k1, cs, k2, k3⟩ := ih hi1 (by rw [e1]; exact hmax) e3 (by rw [e2]; exact he) h2
    have hfix : fixedLength r.bh = true → r1.bufLen = r.bufLen := by
      intro hf
      have h6 := (sampleBytes_ok hi.buf g2).2
      rw [if_pos hf] at h6
      rw [e]
      exact h6.1
    have al : Alike r r1 := ⟨e1, by rw [e], by rw [e], by rw [e], hi1.buf, hi.buf, hfix⟩
    rw [e2] at k1 k3
    obtain ⟨p1, p2⟩ := trace_piece hi hmax h1 (by omega)
    refine ⟨by omega, _ :: cs, .cons p2 (isTrace_all al.symm k2), ?_⟩
    rw [List.flatten_cons, ← k3, hc, e3]
    rw [show r.endData - r.file.pos = (r1.file.pos - r.file.pos) + (r.endData - r1.file.pos) by omega,
      List.take_add, List.drop_drop]
    congr 3
    omega

/-- Opened readers of the same header and byte order see the same in every piece. -/
theorem opened_alike {a b : Bytes} {ub ub' : Option BinHeader} {m : HdrMap} {r s : Reader}
    (h1 : openReader a ub m = .ok r) (h2 : openReader b ub' m = .ok s) (hb : s.bh = r.bh) (ho : s.bo = r.bo) :
    Alike r s := by
  have i1 := inv_opened h1
  have i2 := inv_opened h2
  obtain ⟨_, _, _, z1, -, -, -, -, b1, -, -, -, -, s1, -, -, m1, x1, -, y1⟩ := openReader_ok h1
  obtain ⟨_, _, _, z2, -, -, -, -, b2, -, -, -, -, s2, -, -, m2, x2, -, y2⟩ := openReader_ok h2
  rw [hb] at b2 s2
  have eb : s.bps = r.bps := Option.some.inj (b2.symm.trans b1)
  have es : s.spt = r.spt := s2.trans s1.symm
  rw [es, eb] at x2
  have ez : z2 = z1 := Except.ok.inj (x2.symm.trans x1)
  exact ⟨hb, ho, m2.trans m1.symm, eb, i2.buf, i1.buf, fun _ => by rw [y1, y2, ez]⟩

theorem endData_of {data : Bytes} {ub : Option BinHeader} {m : HdrMap} {r : Reader}
    (ho : openReader data ub m = .ok r) (ht : r.bh.numOfTrailerStanza = 0) : r.endData = data.length := by
  obtain ⟨_, _, _, _, _, _, _, _, _, _, _, _, h13, _, _, hd, _⟩ := openReader_ok ho
  rw [readTrailers_none ht, hd] at h13
  exact ((Prod.mk.inj (Except.ok.inj h13)).2).symm

/-- Headers of one file and pieces, one behind the other, are a file of the traces. -/
theorem put_together {data : Bytes} {ub : Option BinHeader} {m : HdrMap} {r : Reader}
    (ho : openReader data ub m = .ok r) (ht : r.bh.numOfTrailerStanza = 0) (hh : headersEnd r ≤ r.curr)
    (hl : r.curr ≤ data.length) {cs : List Bytes} {ts : List Trace} (hc : List.Forall₂ (IsTrace r) cs ts) :
    ∃ s, openReader (data.take r.curr ++ cs.flatten) ub m = .ok s ∧ Visits s ts ∧ s.texts = r.texts ∧
      s.bh = r.bh ∧ s.bo = r.bo ∧ s.curr = r.curr := by
  have hlen : (data.take r.curr).length = r.curr := by rw [List.length_take]; omega
  have hs : SameStart r.curr data (data.take r.curr ++ cs.flatten) := by
    refine ⟨hl, by rw [List.length_append, hlen]; omega, ?_⟩
    rw [List.take_append_of_le_length (by omega), List.take_take, Nat.min_self]
  have h1 := open_same hs ho ht hh
  have hi := inv_opened h1
  obtain ⟨_, _, _, _, _, _, _, _, _, _, _, _, _, _, hcp, hd, _⟩ := openReader_ok ho
  have h0 := inv_opened ho
  refine ⟨_, h1, ?_, rfl, rfl, rfl, rfl⟩
  have hts : List.Forall₂ (IsTrace _) cs ts := isTrace_all (r := r)
    (s := Reader.mk r.bh r.bo r.map ⟨data.take r.curr ++ cs.flatten, r.file.pos⟩ r.curr
      (data.take r.curr ++ cs.flatten).length r.spt r.bps r.bufLen r.texts r.trailers)
    ⟨rfl, rfl, rfl, rfl, h0.buf, h0.buf, fun _ => rfl⟩ hc
  exact visits_opened hi hts (data.take r.curr) [] (by rw [List.append_nil])
    (by rw [hlen]; exact hcp.symm) hcp (by simp only [List.length_append])

end Sedaman
