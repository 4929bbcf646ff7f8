import Verif.Spec.SegyCut
import Verif.Lemmas.OpenOf

/-!
# Lemmas about files that are cut short or still grow
-/

namespace Sedaman

open Spec

set_option maxRecDepth 20000

theorem slice_same {k p n : Nat} {a b : Bytes} (h : SameStart k a b) (hp : p + n ≤ k) :
    (a.drop p).take n = (b.drop p).take n := by
  have e (x : Bytes) : (x.drop p).take n = ((x.take k).drop p).take n := by
    rw [List.drop_take, List.take_take, Nat.min_eq_left (by omega)]
  rw [e a, e b, h.2.2]

theorem read_same {k p n : Nat} {a b x : Bytes} {f : File} (h : SameStart k a b) (hp : p + n ≤ k)
    (hr : File.read ⟨a, p⟩ n = .ok (x, f)) : File.read ⟨b, p⟩ n = .ok (x, ⟨b, p + n⟩) := by
  obtain ⟨hx, hl, _⟩ := read_ok hr
  simp only at hx
  rw [slice_same h hp] at hx
  rw [read_eq (by rw [← hx]; exact hl), ← hx]

theorem readRecords_same {k n : Nat} {a b : Bytes} (h : SameStart k a b) {p : Nat} {recs : List Bytes} {f : File}
    (hr : readRecords n ⟨a, p⟩ = .ok (recs, f)) (hp : p + 3200 * n ≤ k) :
    readRecords n ⟨b, p⟩ = .ok (recs, ⟨b, p + 3200 * n⟩) := by
  induction n generalizing p recs f with
  | zero =>
    simp only [readRecords, Except.ok.injEq, Prod.mk.injEq] at hr
    obtain ⟨rfl, rfl⟩ := hr
    rfl
  | succ n ih =>
    unfold readRecords at hr ⊢
    obtain ⟨⟨t, f1⟩, h1, hr⟩ := bind_ok hr
    obtain ⟨⟨more, f2⟩, h2, hr⟩ := bind_ok hr
    simp only [pure_eq_ok, Except.ok.injEq, Prod.mk.injEq] at hr
    obtain ⟨rfl, rfl⟩ := hr
    have hle : p + 3200 ≤ k := by clear * - hp; omega
    have hs := read_same (p := p) (n := 3200) h hle h1
    obtain ⟨_, _, rfl⟩ := read_ok h1
    rw [show File.read ⟨b, p⟩ textHeaderSize = _ from hs, ok_bind]
    simp only
    rw [ih (p := p + 3200) h2 (by omega), ok_bind]
    simp only [pure_eq_ok, textHeaderSize, Nat.mul_succ, Except.ok.injEq, Prod.mk.injEq, File.mk.injEq, true_and]
    omega

theorem readUntilEnd_same {k n n' : Nat} {a b : Bytes} (h : SameStart k a b) {p : Nat} {recs : List Bytes} {f : File}
    (hr : readUntilEnd n ⟨a, p⟩ = .ok (recs, f)) (hp : p + 3200 * recs.length ≤ k) (hn : recs.length ≤ n') :
    readUntilEnd n' ⟨b, p⟩ = .ok (recs, ⟨b, p + 3200 * recs.length⟩) := by
  induction n generalizing p recs f n' with
  | zero => simp only [readUntilEnd] at hr; cases hr
  | succ n ih =>
    unfold readUntilEnd at hr
    obtain ⟨⟨t, f1⟩, h1, hr⟩ := bind_ok hr
    simp only at hr
    split at hr
    · rename_i he
      simp only [pure_eq_ok, Except.ok.injEq, Prod.mk.injEq] at hr
      obtain ⟨rfl, rfl⟩ := hr
      obtain ⟨n', rfl⟩ : ∃ j, n' = j + 1 := ⟨n' - 1, by simp at hn; omega⟩
      unfold readUntilEnd
      rw [show File.read ⟨b, p⟩ textHeaderSize = _ from read_same (p := p) (n := 3200) h (by simpa using hp) h1, ok_bind]
      simp only [he, if_true, pure_eq_ok, List.length_singleton, textHeaderSize, Nat.mul_one]
    · rename_i he
      obtain ⟨⟨more, f2⟩, h2, hr⟩ := bind_ok hr
      simp only [pure_eq_ok, Except.ok.injEq, Prod.mk.injEq] at hr
      obtain ⟨rfl, rfl⟩ := hr
      rw [List.length_cons] at hn hp
      obtain ⟨n', rfl⟩ : ∃ j, n' = j + 1 := ⟨n' - 1, by omega⟩
      have hs := read_same (p := p) (n := 3200) h (by omega) h1
      obtain ⟨_, _, rfl⟩ := read_ok h1
      unfold readUntilEnd
      rw [show File.read ⟨b, p⟩ textHeaderSize = _ from hs, ok_bind]
      simp only
      rw [if_neg he, ih (p := p + 3200) h2 (by omega) (by omega), ok_bind]
      simp only [pure_eq_ok, textHeaderSize, List.length_cons, Except.ok.injEq, Prod.mk.injEq, File.mk.injEq, true_and]
      omega

/-- The loop over a negative count runs out of the file. -/
theorem readRecords_all (n : Nat) (f : File) (h : f.records ≤ n) {p : List Bytes × File} : readRecords n f ≠ .ok p := by
  intro hr
  obtain ⟨recs, f'⟩ := p
  obtain ⟨_, hl, ha, hc⟩ := readRecords_ok hr
  have e := flatten_length_const 3200 ha
  rw [hc, hl] at e
  simp only [List.length_take, List.length_drop] at e
  unfold File.records textHeaderSize at h
  omega

theorem readExtText_same {k : Nat} {n : Int} {a b : Bytes} (h : SameStart k a b) {recs : List Bytes} {f : File}
    (hr : readExtText n ⟨a, 3600⟩ = .ok (recs, f)) (hp : 3600 + 3200 * recs.length ≤ k) :
    readExtText n ⟨b, 3600⟩ = .ok (recs, ⟨b, 3600 + 3200 * recs.length⟩) := by
  unfold readExtText at hr ⊢
  split at hr
  · rename_i h0
    simp only [Except.ok.injEq, Prod.mk.injEq] at hr
    obtain ⟨rfl, rfl⟩ := hr
    rw [if_pos h0]
    rfl
  · rename_i h0
    rw [if_neg h0]
    split at hr
    · rename_i h1
      rw [if_pos h1]
      refine readUntilEnd_same h hr hp ?_
      have := h.2.1
      unfold File.records textHeaderSize
      simp only
      omega
    · rename_i h1
      rw [if_neg h1]
      by_cases hneg : n < 0
      · exfalso
        refine readRecords_all _ _ ?_ hr
        unfold loopCount
        rw [if_pos hneg]
      · unfold loopCount at hr ⊢
        rw [if_neg hneg] at hr ⊢
        have hl := (readRecords_ok hr).2.1
        rw [hl] at hp ⊢
        exact readRecords_same h hr hp

/-- Opening a file without trailer stanzas depends on its headers only. -/
theorem open_same {k : Nat} {a b : Bytes} {ub : Option BinHeader} {m : HdrMap} {r : Reader} (h : SameStart k a b)
    (ho : openReader a ub m = .ok r) (ht : r.bh.numOfTrailerStanza = 0) (hk : headersEnd r ≤ k) :
    openReader b ub m = .ok { r with file := ⟨b, r.file.pos⟩, endData := b.length } := by
  obtain ⟨exts, f2, rd, size, h0, h1, h3, h4, h5, h6, h7, h8, h9, h10, h11, h12, h13, h14, h15, h16⟩ := openReader_ok ho
  unfold headersEnd at hk
  rw [h7, List.length_cons] at hk
  have hf2 := readExtText_file h6
  have hx := readExtText_same h h6 (by omega)
  have e0 : b.take 3200 = a.take 3200 := by
    have := slice_same (p := 0) (n := 3200) h (by omega)
    simpa using this.symm
  have e1 : (b.drop 3200).take 400 = (a.drop 3200).take 400 := (slice_same (p := 3200) (n := 400) h (by omega)).symm
  have hb := h.2.1
  have r1 : File.read ⟨b, 0⟩ textHeaderSize = .ok (a.take 3200, ⟨b, 3200⟩) := by
    have hl : ((b.drop 0).take 3200).length = 3200 := by
      rw [List.drop_zero, List.length_take]
      omega
    have := read_eq (f := ⟨b, 0⟩) (n := 3200) hl
    rw [List.drop_zero, e0] at this
    exact this
  have r2 : File.read ⟨b, 3200⟩ binHeaderSize = .ok ((a.drop 3200).take 400, ⟨b, 3600⟩) := by
    have hl : ((b.drop 3200).take 400).length = 400 := by
      rw [List.length_take, List.length_drop]
      omega
    have := read_eq (f := ⟨b, 3200⟩) (n := 400) hl
    rw [e1] at this
    exact this
  have hsf : seekFirst r.bh ⟨b, 3600 + 3200 * exts.length⟩ = .ok ⟨b, r.file.pos⟩ := by
    unfold seekFirst
    split at h8
    · rename_i hz
      rw [if_pos hz, ← h8, seek_nat]
    · rename_i hz
      rw [if_neg hz, h8, hf2]
  unfold openReader
  rw [h0, ok_bind]
  simp only
  rw [r1, ok_bind]; simp only
  rw [r2, ok_bind]; simp only
  rw [h3, ok_bind]; simp only
  rw [h4, ok_bind, h5]; simp only
  rw [hx, ok_bind]; simp only
  rw [hsf, ok_bind]; simp only
  rw [readTrailers_none ht, ok_bind]; simp only
  rw [seek_nat, ok_bind, ← h10, h14, ok_bind, resizeVec_of_lt h15, ok_bind]
  have h9' : r.trailers = [] := by
    rw [readTrailers_none ht] at h9
    exact ((Prod.mk.inj (Except.ok.inj h9)).1).symm
  simp only [pure_eq_ok, List.take_nil, List.nil_append, List.length_replicate, List.length_nil, Nat.sub_zero]
  rw [← h16, ← h7, ← h9', ← h13, ← h11]

/-! ## Traces -/

theorem readBlocks_same {k : Nat} {a b : Bytes} (h : SameStart k a b) {bo : ByteOrder} {m : HdrMap} {n i p : Nat}
    {acc hd : Header} {f : File} (hr : readBlocks bo m n i ⟨a, p⟩ acc = .ok (hd, f)) (hp : p + 240 * n ≤ k) :
    readBlocks bo m n i ⟨b, p⟩ acc = .ok (hd, ⟨b, p + 240 * n⟩) := by
  induction n generalizing i p acc with
  | zero =>
    simp only [readBlocks, Except.ok.injEq, Prod.mk.injEq] at hr ⊢
    exact ⟨hr.1, rfl⟩
  | succ n ih =>
    unfold readBlocks at hr ⊢
    cases hm : m[i]? with
    | some blk =>
      rw [hm] at hr
      simp only at hr ⊢
      obtain ⟨⟨buf, f1⟩, h1, hr⟩ := bind_ok hr
      obtain ⟨acc', h2, hr⟩ := bind_ok hr
      have hs := read_same (p := p) (n := 240) h (by omega) h1
      obtain ⟨_, _, rfl⟩ := read_ok h1
      rw [show File.read ⟨b, p⟩ trHeaderSize = _ from hs, ok_bind]
      simp only
      rw [h2, ok_bind, ih (p := p + 240) hr (by omega)]
      congr 3
      omega
    | none =>
      rw [hm] at hr
      simp only at hr ⊢
      have e (f : File) : f.seekCur (trHeaderSize : Nat) = .ok ⟨f.data, f.pos + 240⟩ := seekCur_nat f 240
      rw [e, ok_bind] at hr
      rw [e, ok_bind]
      rw [ih (p := p + 240) hr (by omega)]
      congr 3
      omega

theorem readTrace_same {k : Nat} {a b : Bytes} (h : SameStart k a b) {r r1 : Reader} {t : Trace} {ed : Nat}
    (hd : r.file.data = a) (hr : readTrace r = .ok (t, r1)) (hp : r1.file.pos ≤ k) :
    readTrace { r with file := ⟨b, r.file.pos⟩, endData := ed } =
      .ok (t, { r1 with file := ⟨b, r1.file.pos⟩, endData := ed }) := by
  obtain ⟨h0, n, buf, rd, rest, h1, h2, h3, h4, h5, rfl⟩ := readTrace_ok hr
  simp only at hp
  have h1' : readTrcHeader { r with file := ⟨b, r.file.pos⟩, endData := ed } =
      .ok (h0, ⟨b, r.file.pos + 240 * hdrBlocks r.bh⟩) := by
    unfold readTrcHeader at h1 ⊢
    split at h1
    · cases h1
    · rename_i hx
      rw [if_neg hx]
      refine readBlocks_same (a := a) h (f := ⟨r.file.data, r.file.pos + 240 * hdrBlocks r.bh⟩) ?_ (by show r.file.pos + 240 * hdrBlocks r.bh ≤ k; omega)
      rw [← hd]
      exact h1
  rw [hd] at h3
  have h3' := read_same h hp h3
  exact readTrace_of h1' (show sampleBytes _ h0 = _ from h2) h3' h4 h5

theorem readTrace_pos {r r1 : Reader} {t : Trace} (hr : readTrace r = .ok (t, r1)) :
    r.file.pos ≤ r1.file.pos ∧ r1.file.data = r.file.data ∧ r1.bh = r.bh ∧ r1.curr = r1.file.pos ∧
      r1.map = r.map ∧ r1.endData = r.endData := by
  obtain ⟨_, _, _, _, _, _, _, _, _, _, rfl⟩ := readTrace_ok hr
  exact ⟨by simp only; omega, rfl, rfl, rfl, rfl, rfl⟩

theorem readsTraces_pos {r r1 : Reader} {ts : List Trace} (hr : ReadsTraces r ts r1) (hc : r.curr = r.file.pos) :
    r.file.pos ≤ r1.file.pos ∧ r1.file.data = r.file.data ∧ r1.bh = r.bh ∧ r1.curr = r1.file.pos ∧
      r1.map = r.map ∧ r1.endData = r.endData := by
  induction ts generalizing r with
  | nil =>
    have e : r1 = r := hr
    subst e
    exact ⟨Nat.le_refl _, rfl, rfl, hc, rfl, rfl⟩
  | cons t ts ih =>
    obtain ⟨r2, h1, h2⟩ := hr
    obtain ⟨a1, a2, a3, a4, a5, a6⟩ := readTrace_pos h1
    obtain ⟨b1, b2, b3, b4, b5, b6⟩ := ih h2 a4
    exact ⟨by omega, b2.trans a2, b3.trans a3, b4, b5.trans a5, b6.trans a6⟩

theorem readsTraces_same {k : Nat} {a b : Bytes} (h : SameStart k a b) {r r1 : Reader} {ts : List Trace} {ed : Nat}
    (hd : r.file.data = a) (hc : r.curr = r.file.pos) (hr : ReadsTraces r ts r1) (hp : r1.file.pos ≤ k) :
    ReadsTraces { r with file := ⟨b, r.file.pos⟩, endData := ed } ts { r1 with file := ⟨b, r1.file.pos⟩, endData := ed } := by
  induction ts generalizing r with
  | nil =>
    have e : r1 = r := hr
    subst e
    rfl
  | cons t ts ih =>
    obtain ⟨r2, h1, h2⟩ := hr
    obtain ⟨a1, a2, a3, a4, _, _⟩ := readTrace_pos h1
    have hb := readsTraces_pos h2 a4
    exact ⟨_, readTrace_same h hd h1 (by omega), ih (a2.trans hd) a4 h2⟩

/-! ## An incomplete trace -/

theorem read_cut {a x : Bytes} {k p n : Nat} {f : File} (hr : File.read ⟨a, p⟩ n = .ok (x, f)) :
    (n ≠ 0 ∧ k < p + n ∧ File.read ⟨a.take k, p⟩ n = throwExn .iosFailure) ∨
    (n = 0 ∨ p + n ≤ k) ∧ File.read ⟨a.take k, p⟩ n = .ok (x, ⟨a.take k, p + n⟩) := by
  obtain ⟨hx, hl, _⟩ := read_ok hr
  by_cases h0 : n = 0
  · right
    subst h0
    refine ⟨.inl rfl, ?_⟩
    rw [List.eq_nil_of_length_eq_zero hl, read_eq (by simp)]
    simp
  · by_cases hk : p + n ≤ k
    · right
      have e : ((a.take k).drop p).take n = x := by
        rw [hx, List.drop_take, List.take_take, Nat.min_eq_left (by omega)]
      exact ⟨.inr hk, by rw [read_eq (by simp only [e, hl])]; simp only [e]⟩
    · left
      exact ⟨h0, by omega, read_fail h0 (by simp; omega)⟩

theorem readBlocks_cut {a : Bytes} {k : Nat} {bo : ByteOrder} {m : HdrMap} {n i p : Nat} {acc hd : Header} {f : File}
    (hr : readBlocks bo m n i ⟨a, p⟩ acc = .ok (hd, f)) :
    readBlocks bo m n i ⟨a.take k, p⟩ acc = throwExn .iosFailure ∨
    (k < p + 240 * n → m.length < i + n ∨ k < p) ∧
      readBlocks bo m n i ⟨a.take k, p⟩ acc = .ok (hd, ⟨a.take k, p + 240 * n⟩) := by
  induction n generalizing i p acc with
  | zero =>
    right
    simp only [readBlocks, Except.ok.injEq, Prod.mk.injEq] at hr ⊢
    exact ⟨fun h => .inr (by omega), hr.1, rfl⟩
  | succ n ih =>
    unfold readBlocks at hr ⊢
    cases hm : m[i]? with
    | some blk =>
      rw [hm] at hr
      simp only at hr ⊢
      obtain ⟨⟨buf, f1⟩, h1, hr⟩ := bind_ok hr
      obtain ⟨acc', h2, hr⟩ := bind_ok hr
      rcases read_cut (k := k) h1 with ⟨_, _, hc⟩ | ⟨hin, hc⟩
      · left
        rw [hc]
        rfl
      · obtain ⟨_, _, rfl⟩ := read_ok h1
        rw [hc, ok_bind]
        simp only
        rw [h2, ok_bind]
        rcases ih (p := p + 240) hr with hx | ⟨hx, hy⟩
        · exact .inl hx
        · right
          change trHeaderSize = 0 ∨ p + 240 ≤ k at hin
          have hin' : p + 240 ≤ k := hin.resolve_left (by decide)
          refine ⟨fun h => ?_, ?_⟩
          · rcases hx (by omega) with h' | h'
            · exact .inl (by omega)
            · exact .inr (by omega)
          · refine hy.trans ?_
            congr 3
            omega
    | none =>
      rw [hm] at hr
      simp only at hr ⊢
      have e (f : File) : f.seekCur (trHeaderSize : Nat) = .ok ⟨f.data, f.pos + 240⟩ := seekCur_nat f 240
      rw [e, ok_bind] at hr
      rw [e, ok_bind]
      have hml : m.length ≤ i := List.getElem?_eq_none_iff.1 hm
      rcases ih (p := p + 240) hr with hx | ⟨_, hy⟩
      · exact .inl hx
      · right
        refine ⟨fun _ => .inl (by omega), ?_⟩
        refine hy.trans ?_
        congr 3
        omega

/-- Reading a trace that is cut. -/
theorem readTrace_cut {a : Bytes} {k ed : Nat} {r r1 : Reader} {t : Trace} (hd : r.file.data = a)
    (hr : readTrace r = .ok (t, r1)) (hk : k < r1.file.pos) (hp : r.file.pos ≤ k) :
    readTrace { r with file := ⟨a.take k, r.file.pos⟩, endData := ed } = throwExn .iosFailure ∨
    r.map.length < headerBlocks r.bh ∧ t.samples = [] ∧
      ∃ r2, readTrace { r with file := ⟨a.take k, r.file.pos⟩, endData := ed } = .ok (t, r2) := by
  obtain ⟨h0, n, buf, rd, rest, h1, h2, h3, h4, h5, rfl⟩ := readTrace_ok hr
  simp only at hk
  unfold readTrcHeader at h1
  split at h1
  · cases h1
  rename_i hx
  have eB : readTrcHeader { r with file := ⟨a.take k, r.file.pos⟩, endData := ed } =
      readBlocks r.bo r.map (r.bh.maxNumAddTrHeaders + 1).toNat 0 ⟨a.take k, r.file.pos⟩ [] := by
    unfold readTrcHeader
    rw [if_neg hx]
  have h1' : readBlocks r.bo r.map (r.bh.maxNumAddTrHeaders + 1).toNat 0 ⟨a, r.file.pos⟩ [] =
      .ok (h0, ⟨r.file.data, r.file.pos + 240 * hdrBlocks r.bh⟩) := by
    rw [← hd]
    exact h1
  rcases readBlocks_cut (k := k) h1' with hb | ⟨hb1, hb2⟩
  · left
    rw [readTrace_eq, eB, hb]
    rfl
  · rw [hd] at h3
    have hn : (r.bh.maxNumAddTrHeaders + 1).toNat = hdrBlocks r.bh := rfl
    rw [hn] at hb1 hb2 eB
    rw [hb2] at eB
    rcases read_cut (k := k) h3 with ⟨_, _, hc⟩ | ⟨hin, hc⟩
    · left
      rw [readTrace_eq, eB, ok_bind]
      simp only
      rw [show sampleBytes { r with file := ⟨a.take k, r.file.pos⟩, endData := ed } h0 = .ok (n, t.header) from h2, ok_bind]
      simp only
      unfold readSamplesFix
      rw [hc]
      rfl
    · right
      have hn0 : n = 0 := by omega
      subst hn0
      refine ⟨?_, ?_, _, readTrace_of eB (show sampleBytes _ h0 = _ from h2) hc h4 h5⟩
      · rcases hb1 (by omega) with h' | h'
        · rw [Nat.zero_add] at h'
          exact h'
        · omega
      · rw [Nat.zero_div] at h5
        exact List.eq_nil_of_length_eq_zero (decodeSamples_length h5)

end Sedaman
