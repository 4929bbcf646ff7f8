import Verif.Lemmas.Open

/-!
# Iterating over the traces of a file
-/

namespace Sedaman

open Spec

theorem readTrace_congr {data : Bytes} {m : HdrMap} {r r' : Reader} {t : Trace} (hi : Inv data m r)
    {b : Nat} (hb : b < 2 ^ 63) (hbf : fixedLength r.bh = true → b = r.bufLen) (c : Nat)
    (h : readTrace r = .ok (t, r')) : readTrace { r with bufLen := b, curr := c } = .ok (t, r') := by
  obtain ⟨h0, n, buf, rd, rest, h1, h2, h3, h4, h5, rfl⟩ := readTrace_ok h
  have := sampleBytes_congr hi.buf hb hbf r.file c h2
  exact readTrace_of (r := { r with bufLen := b, curr := c }) h1 this h3 h4 h5

theorem inv_with {data : Bytes} {m : HdrMap} {r : Reader} (hi : Inv data m r) (f : File) (c b : Nat)
    (hb : b < 2 ^ 63) (hbf : fixedLength r.bh = true → b = r.bufLen) :
    Inv f.data m { r with file := f, curr := c, bufLen := b } :=
  ⟨rfl, hi.map, hb, hi.spt, fun h => by simp only at h ⊢; rw [hbf h]; exact hi.fix h, hi.fmt, hi.bps⟩

theorem visits_of_chunks {data : Bytes} {m : HdrMap} {r0 : Reader} (hi : Inv data m r0)
    {chunks : List Bytes} {ts : List Trace} (ht : List.Forall₂ (IsTrace r0) chunks ts)
    (pre rest : Bytes) (he : r0.endData = pre.length + chunks.flatten.length) (b : Nat)
    (hb : b < 2 ^ 63) (hbf : fixedLength r0.bh = true → b = r0.bufLen) :
    Visits { r0 with
      file := ⟨pre ++ (chunks.flatten ++ rest), pre.length⟩
      curr := pre.length, bufLen := b } ts := by
  induction ht generalizing pre b with
  | nil =>
    unfold Visits hasTrace
    simp only [List.flatten_nil, List.length_nil, Nat.add_zero] at he
    simp only [he, ne_eq, not_true_eq_false, decide_false]
  | @cons c t cs ts hc hcs ih =>
    obtain ⟨hne, r', hr, hp⟩ := hc
    have hlen : 0 < c.length := List.length_pos_iff.2 hne
    obtain ⟨hr', hf⟩ := readTrace_frame rfl hr pre (cs.flatten ++ rest)
    have e : pre ++ ((c :: cs).flatten ++ rest) = pre ++ (c ++ (cs.flatten ++ rest)) := by
      rw [List.flatten_cons, List.append_assoc c]
    have e2 : pre ++ (c ++ (cs.flatten ++ rest)) = (pre ++ c) ++ (cs.flatten ++ rest) := by
      rw [List.append_assoc]
    rw [List.flatten_cons, List.length_append] at he
    simp only [Nat.add_zero, hp] at hf
    -- the buffer left behind
    have hi0 : Inv c m { r0 with file := ⟨c, 0⟩ } := inv_with hi ⟨c, 0⟩ r0.curr r0.bufLen hi.buf fun _ => rfl
    have hb' : r'.bufLen < 2 ^ 63 := (inv_trace hi0 hr).buf
    have hbf' : fixedLength r0.bh = true → r'.bufLen = r0.bufLen := by
      intro hfx
      obtain ⟨h0, n, buf, rd, rs, -, h2, -, -, -, e'⟩ := readTrace_ok hr
      have h3 := (sampleBytes_ok hi.buf h2).2
      rw [if_pos hfx] at h3
      rw [e']
      exact h3.1
    have hi1 : Inv (pre ++ (c ++ (cs.flatten ++ rest))) m
        { r0 with file := ⟨pre ++ (c ++ (cs.flatten ++ rest)), pre.length⟩ } :=
      inv_with hi ⟨pre ++ (c ++ (cs.flatten ++ rest)), pre.length⟩ r0.curr r0.bufLen hi.buf fun _ => rfl
    have hT := readTrace_congr hi1 hb hbf pre.length hf
    have hi2 : Inv (pre ++ (c ++ (cs.flatten ++ rest))) m
        { r0 with file := ⟨pre ++ (c ++ (cs.flatten ++ rest)), pre.length⟩, bufLen := b, curr := pre.length } :=
      inv_with hi ⟨pre ++ (c ++ (cs.flatten ++ rest)), pre.length⟩ _ b hb hbf
    have hH := header_of_trace hi2 hT
    have hend : r0.endData = (pre ++ c).length + cs.flatten.length := by
      rw [he, List.length_append]; omega
    refine ⟨?_, ⟨_, by rw [e]; exact hT, ?_⟩, _, by rw [e]; exact hH, ?_⟩
    · unfold hasTrace
      simp only [decide_eq_true_eq, he]
      omega
    · have := ih (pre ++ c) hend r'.bufLen hb' hbf'
      rw [← e2, List.length_append] at this
      exact this
    · have := ih (pre ++ c) hend b hb hbf
      rw [← e2, List.length_append] at this
      exact this

/-- The same from the opened reader itself. -/
theorem visits_opened {data : Bytes} {m : HdrMap} {r : Reader} (hi : Inv data m r)
    {chunks : List Bytes} {ts : List Trace} (ht : List.Forall₂ (IsTrace r) chunks ts)
    (head rest : Bytes) (hd : data = head ++ (chunks.flatten ++ rest)) (hp : r.file.pos = head.length)
    (hc : r.curr = r.file.pos) (he : r.endData = head.length + chunks.flatten.length) :
    Visits r ts := by
  have := visits_of_chunks hi ht head rest he r.bufLen hi.buf fun _ => rfl
  rw [← hd, ← hp, ← hi.data] at this
  rw [← hc] at this
  simp only [hc] at this
  have e : { r with curr := r.file.pos } = r := by rw [← hc]
  rw [e] at this
  exact this

/-- Fixed length: bytes of the right number are a trace. -/
theorem isTrace_fixed {data : Bytes} {m : HdrMap} {r : Reader} (hi : Inv data m r)
    (hfix : fixedLength r.bh = true) (hm : MapInBounds m)
    (hmax : 0 ≤ r.bh.maxNumAddTrHeaders ∧ r.bh.maxNumAddTrHeaders < 2 ^ 31 - 1) {c : Bytes}
    (hc : c.length = 240 * hdrBlocks r.bh + r.bufLen) : ∃ t, IsTrace r c t := by
  have hi0 : Inv c m { r with file := ⟨c, 0⟩ } := inv_with hi ⟨c, 0⟩ r.curr r.bufLen hi.buf fun _ => rfl
  obtain ⟨h0, h1⟩ := readTrcHeader_total (r := { r with file := ⟨c, 0⟩ }) (by simp only [hi.map]; exact hm)
    (by simp only; exact hmax.2) (by simp only; omega)
  obtain ⟨xs, -, hx⟩ := readTrace_total hi0 h1 (n := r.bufLen) (hdr := h0)
    (by unfold sampleBytes; simp only; rw [if_pos hfix]) (.inr (by simp only; omega))
  refine ⟨_, ?_, _, hx, ?_⟩
  · have := hdrBlocks_pos hmax.1
    intro h; rw [h] at hc; simp at hc; omega
  · simp only; omega

/-- Variable length: the announced number of samples must fit. -/
theorem isTrace_var {data : Bytes} {m : HdrMap} {r : Reader} (hi : Inv data m r)
    (hvar : fixedLength r.bh = false)
    (hmax : 0 ≤ r.bh.maxNumAddTrHeaders) {c : Bytes} {h0 : Header} {n : Nat} {f : File}
    (h1 : readTrcHeader { r with file := ⟨c, 0⟩ } = .ok (h0, f))
    (h2 : h0.get "SAMP_NUM" = some (.int n)) (hn : n * r.bps < 2 ^ 63)
    (hc : c.length = 240 * hdrBlocks r.bh + n * r.bps) :
    ∃ t, IsTrace r c t ∧ t.header = h0 ∧ t.samples.length = n := by
  have hi0 : Inv c m { r with file := ⟨c, 0⟩ } := inv_with hi ⟨c, 0⟩ r.curr r.bufLen hi.buf fun _ => rfl
  have h1' := h1
  obtain rfl := readTrcHeader_file h1
  have hu : toU 8 ((n : Int) * (r.bps : Int)) = n * r.bps := by
    rw [← Int.natCast_mul, toU_of_nat_lt (by omega)]
  have hs : sampNum h0 = .ok ((n : Int), h0) := by
    unfold sampNum Header.at
    rw [h2]
  have hb : sampleBytes { r with file := ⟨c, 0⟩ } h0 = .ok (n * r.bps, h0) := by
    unfold sampleBytes
    simp only [hvar, Bool.false_eq_true, if_false]
    rw [hs, ok_bind]
    simp only [hu]
    rw [if_neg (by omega)]
    rfl
  obtain ⟨xs, hxl, hx⟩ := readTrace_total hi0 h1' hb (.inr (by simp only; omega))
  obtain ⟨k, rd, hk, hk0, -⟩ := decodeSamples_total hi.fmt r.bo
  rw [hi.bps] at hk
  have hk := Option.some.inj hk
  subst hk
  refine ⟨⟨h0, xs⟩, ⟨?_, _, hx, ?_⟩, rfl, ?_⟩
  · have := hdrBlocks_pos hmax
    intro h; rw [h] at hc; simp at hc; omega
  · simp only; omega
  · simp only at hxl ⊢
    rw [hxl, Nat.mul_div_cancel _ hk0]

end Sedaman
