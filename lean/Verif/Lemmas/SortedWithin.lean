import Verif.Lemmas.Sorted1DFail

/-!
# The traces of a file that a sorted reader could open lie in the file
-/

namespace Sedaman

open Spec

theorem seekCur_data {f f' : File} {p : Int} (h : f.seekCur p = .ok f') : f'.data = f.data := seek_data h

theorem skipVarTrace_data {bo : ByteOrder} {ma : Int} {bps : Nat} {f f' : File}
    (h : skipVarTrace bo ma bps f = .ok f') : f'.data = f.data := by
  unfold skipVarTrace at h
  obtain ⟨⟨b1, f1⟩, h1, h⟩ := bind_ok h
  have e1 := read_data h1
  obtain ⟨n, -, h⟩ := bind_ok h
  split at h
  · obtain ⟨⟨b2, f2⟩, h2, h⟩ := bind_ok h
    have e2 := read_data h2
    obtain ⟨n32, -, h⟩ := bind_ok h
    obtain ⟨k, -, h⟩ := bind_ok h
    obtain ⟨f3, h3, h⟩ := bind_ok h
    exact (seekCur_data h).trans ((seekCur_data h3).trans (e2.trans e1))
  · exact (seekCur_data h).trans e1

theorem skipVarTraces_data {bo : ByteOrder} {ma : Int} {bps n : Nat} {f f' : File}
    (h : skipVarTraces bo ma bps n f = .ok f') : f'.data = f.data := by
  induction n generalizing f with
  | zero => cases h; rfl
  | succ n ih =>
    unfold skipVarTraces at h
    obtain ⟨f1, h1, h⟩ := bind_ok h
    exact (ih h).trans (skipVarTrace_data h1)

theorem readUntilEnd_within {n : Nat} {f : File} {x : List Bytes × File} (h : readUntilEnd n f = .ok x) :
    f.pos ≤ f.data.length := by
  cases n with
  | zero => cases h
  | succ n =>
    unfold readUntilEnd at h
    obtain ⟨⟨b1, f1⟩, h1, -⟩ := bind_ok h
    rcases (read_iff f textHeaderSize).1 ⟨_, h1⟩ with h2 | h2
    · cases h2
    · omega

/-- The data end in the file. -/
theorem endData_le {data : Bytes} {ub : Option BinHeader} {m : HdrMap} {r : Reader}
    (ho : openReader data ub m = .ok r) : r.endData ≤ data.length := by
  obtain ⟨-, -, -, -, -, -, -, -, -, -, -, -, ht, -, -, hdata, -⟩ := openReader_ok ho
  rw [← hdata]
  unfold readTrailers at ht
  split at ht
  · split at ht
    · cases ht
    · split at ht
      · obtain ⟨p, -, ht⟩ := bind_ok ht
        obtain ⟨f, h1, ht⟩ := bind_ok ht
        obtain ⟨⟨recs, f2⟩, h2, ht⟩ := bind_ok ht
        rw [← (Prod.mk.inj (Except.ok.inj ht)).2, ← seekCur_data h1]
        exact readUntilEnd_within h2
      · obtain ⟨f, h1, ht⟩ := bind_ok ht
        obtain ⟨⟨recs, f2⟩, h2, ht⟩ := bind_ok ht
        rw [← (Prod.mk.inj (Except.ok.inj ht)).2, ← skipVarTraces_data h1]
        exact readUntilEnd_within h2
  · obtain ⟨off, h0, ht⟩ := bind_ok ht
    obtain ⟨f, h1, ht⟩ := bind_ok ht
    obtain ⟨⟨recs, f2⟩, h2, ht⟩ := bind_ok ht
    rw [← (Prod.mk.inj (Except.ok.inj ht)).2]
    obtain ⟨rfl, -, -⟩ := mulInt32_ok h0
    have e := seek_data h1
    obtain ⟨g1, g2⟩ := seek_ok h1
    rw [← e]
    by_cases hn : r.bh.numOfTrailerStanza ≤ 0
    · have : f.pos = (r.file.data.length + r.bh.numOfTrailerStanza * textHeaderSize : Int).toNat := by rw [g2]
      rw [e, this]
      have : r.bh.numOfTrailerStanza * (textHeaderSize : Int) ≤ 0 :=
        Int.mul_nonpos_of_nonpos_of_nonneg hn (by simp)
      omega
    · cases hk : loopCount r.bh.numOfTrailerStanza f with
      | zero =>
        unfold loopCount at hk
        rw [if_neg (by omega)] at hk
        omega
      | succ k =>
        rw [hk] at h2
        unfold readRecords at h2
        obtain ⟨⟨b1, f1⟩, h3, -⟩ := bind_ok h2
        rcases (read_iff f textHeaderSize).1 ⟨_, h3⟩ with h4 | h4
        · cases h4
        · omega

/-- Behind the end of the file no block can be read. -/
theorem blocks_beyond {bo : ByteOrder} {m : HdrMap} {n i : Nat} {f f' : File} {acc h : Header}
    (hr : readBlocks bo m n i f acc = .ok (h, f')) (hp : f.data.length < f.pos) : h = acc := by
  induction n generalizing i f acc with
  | zero => cases hr; rfl
  | succ n ih =>
    unfold readBlocks at hr
    split at hr
    · obtain ⟨⟨b, f1⟩, h1, -⟩ := bind_ok hr
      rcases (read_iff f trHeaderSize).1 ⟨_, h1⟩ with h2 | h2
      · cases h2
      · omega
    · obtain ⟨f1, h1, hr⟩ := bind_ok hr
      have e : f1 = ⟨f.data, f.pos + trHeaderSize⟩ := by
        have := seekCur_nat f trHeaderSize
        rw [h1] at this
        exact Except.ok.inj this
      exact ih hr (by rw [e]; dsimp only; omega)

theorem beyond_stays {data : Bytes} {m : HdrMap} {r r' : Reader} (hi : Inv data m r) {h : Header}
    (hr : readHeader r = .ok (h, r')) (hp : r.file.data.length < r.file.pos) : r.file.pos ≤ r'.file.pos := by
  obtain ⟨h0, off, h1, h2, h3, rfl⟩ := readHeader_ok hr
  have hoff : 0 ≤ off := by
    by_cases hf : fixedLength r.bh = true
    · rw [if_pos hf] at h2
      have := hi.spt.2
      rw [h2.1] at this
      rw [Except.ok.inj this]
      exact hi.spt.1
    · rw [if_neg hf] at h2
      obtain ⟨n, h4, rfl⟩ := h2
      unfold readTrcHeader at h1
      split at h1
      · cases h1
      · have := blocks_beyond h1 hp
        subst this
        cases h4
        rw [Int.zero_mul]
        decide
  dsimp only
  omega

/-- The scan of the constructor never goes behind the end of the file. -/
theorem scans_within {data : Bytes} {m : HdrMap} {r0 r : Reader} (hi : Inv data m r0) (hs : Same r0 r)
    (hc : r.curr = r.file.pos) (he : r0.endData ≤ r0.file.data.length) {l : List (Nat × Header)}
    (h : Scans r l) :
    r.file.pos ≤ r0.file.data.length ∧
    ∀ e ∈ l, ∃ r', readHeader (r0.goto e.1) = .ok (e.2, r') ∧ r'.file.pos ≤ r0.file.data.length := by
  have hend : r.endData = r0.endData := by rw [hs.eq]
  induction l generalizing r with
  | nil =>
    have h : hasTrace r = false := h
    unfold hasTrace at h
    simp only [ne_eq, decide_not, Bool.not_eq_eq_eq_not, Bool.not_false, decide_eq_true_eq] at h
    refine ⟨by omega, by simp⟩
  | cons e l ih =>
    obtain ⟨h1, h2, r', h3, h4⟩ := h
    have e0 : r.goto e.1 = r := by rw [← h2]; rfl
    have h3' := h3
    rw [← e0] at h3
    obtain ⟨h5, r1, h6⟩ := header_same' hs h3
    obtain ⟨r2, h7, -, h8, h9⟩ := header_same hs h6
    rw [h3] at h7
    have h7 := (Prod.mk.inj (Except.ok.inj h7)).2
    subst h7
    have hc' : r'.curr = r'.file.pos := by
      obtain ⟨-, -, -, -, -, rfl⟩ := readHeader_ok h3'
      rfl
    obtain ⟨i1, i2⟩ := ih h5 hc' h4 (by rw [h5.eq])
    have hir : Inv r0.file.data m r := by
      rw [← e0]
      exact inv_goto hi hs e.1 r.curr
    refine ⟨?_, ?_⟩
    · rcases Nat.lt_or_ge r0.file.data.length r.file.pos with hlt | hge
      · have := beyond_stays hir h3' (by rw [hs.data]; exact hlt)
        omega
      · exact hge
    · intro e' he'
      rcases List.mem_cons.1 he' with rfl | he'
      · exact ⟨r1, h6, by rw [← h8]; exact i1⟩
      · exact i2 e' he'

/-- If the header at a position can be read and the trace ends in the file, the trace can be read, or its
count of samples is negative. -/
theorem trace_within {data : Bytes} {m : HdrMap} {r r' : Reader} (hi : Inv data m r) {h : Header}
    (hr : readHeader r = .ok (h, r')) (hw : r'.file.pos ≤ r.file.data.length) :
    (∃ t r'', readTrace r = .ok (t, r'')) ∨
    (readTrace r = .error (.exn .lengthError) ∧ fixedLength r.bh = false ∧
      ∃ n, h.get "SAMP_NUM" = some (.int n) ∧ 2 ^ 63 ≤ toU 8 (n * r.bps)) := by
  obtain ⟨h0, off, h1, h2, h3, rfl⟩ := readHeader_ok hr
  dsimp only at hw
  obtain ⟨nb, rd, g1, g2, g3, g4⟩ := decodeSamples_total hi.fmt r.bo
  have hnb : nb = r.bps := by
    have := hi.bps
    rw [g1] at this
    exact Option.some.inj this
  subst hnb
  have fin : ∀ n : Nat, (n : Int) = off → ∀ hd, sampleBytes r h0 = .ok (n, hd) →
      ∃ t r'', readTrace r = .ok (t, r'') := by
    intro n hn hd hsb
    obtain ⟨⟨buf, f'⟩, hbuf⟩ := (read_iff ⟨r.file.data, r.file.pos + 240 * hdrBlocks r.bh⟩ n).2
      (.inr (by dsimp only; omega))
    have hl : buf.length = n := (read_ok hbuf).2.1
    obtain ⟨xs, hx⟩ := g4 (n / r.bps) buf (by rw [hl]; exact Nat.div_mul_le_self _ _)
    exact ⟨_, _, readTrace_of h1 hsb hbuf g3 hx⟩
  by_cases hf : fixedLength r.bh = true
  · rw [if_pos hf] at h2
    left
    have e := hi.spt.2
    rw [h2.1] at e
    refine fin r.bufLen (by rw [Except.ok.inj e]; exact hi.fix hf) h0 ?_
    unfold sampleBytes
    rw [if_pos hf]
  · rw [if_neg hf] at h2
    obtain ⟨n, h4, rfl⟩ := h2
    by_cases hk : 2 ^ 63 ≤ toU 8 (n * r.bps)
    · right
      have hb := hi.buf
      refine ⟨?_, by simpa using hf, n, ?_, hk⟩
      · rw [readTrace_eq, h1, ok_bind]
        dsimp only
        unfold sampleBytes
        rw [if_neg hf, h4, ok_bind]
        dsimp only
        rw [if_pos ⟨hk, by omega⟩]
        rfl
      · unfold sampNum at h4
        split at h4
        · rename_i n' hd hat
          cases h4
          unfold Header.at at hat
          split at hat
          · rename_i v hv
            cases hat
            exact hv
          · cases hat
            rw [Int.zero_mul] at hk
            exact absurd hk (by decide)
        · cases h4
    · left
      refine fin _ (toS_small (by omega)).symm h ?_
      unfold sampleBytes
      rw [if_neg hf, h4, ok_bind]
      dsimp only
      rw [if_neg (fun hc => hk hc.1)]
      rfl

theorem mapFind_mem {α : Type} {m : VecMap α} {v : Value} {ps : List α} (h : mapFind m v = some ps) :
    ∃ g ∈ m, g.2 = ps := by
  induction m with
  | nil => cases h
  | cons g t ih =>
    obtain ⟨k, qs⟩ := g
    unfold mapFind at h
    split at h
    · obtain ⟨g, h1, h2⟩ := ih h
      exact ⟨g, List.mem_cons_of_mem _ h1, h2⟩
    · split at h
      · cases h
      · cases h
        exact ⟨_, List.mem_cons_self, rfl⟩

/-- What can be said of every position of the index. -/
def GoodPos (r0 : Reader) (p : Nat) : Prop :=
  ∃ h, HeaderAt r0 p h ∧ ((∃ t, TraceAt r0 p t) ∨ (readTrace (r0.goto p) = .error (.exn .lengthError) ∧
    fixedLength r0.bh = false ∧ ∃ n, h.get "SAMP_NUM" = some (.int n) ∧ 2 ^ 63 ≤ toU 8 (n * r0.bps)))

theorem tracesFrom_err {data : Bytes} {m : HdrMap} {r0 r : Reader} (hi : Inv data m r0) (hs : Same r0 r)
    {ps : List Nat} (hg : ∀ p ∈ ps, GoodPos r0 p) {max : Nat} {e : Err} (h : tracesFrom r ps max = .error e) :
    e = .exn .lengthError := by
  induction ps generalizing r max with
  | nil => cases h
  | cons p ps ih =>
    cases max with
    | zero => cases h
    | succ max =>
      unfold tracesFrom at h
      rw [traceFrom_eq] at h
      obtain ⟨_, _, ⟨t, r', h1⟩ | ⟨h1, -⟩⟩ := hg p List.mem_cons_self
      · obtain ⟨r1, h2, h3⟩ := trace_same hi hs h1
        rw [h2, ok_bind] at h
        dsimp only at h
        cases hx : tracesFrom r1 ps max with
        | error e' =>
          rw [hx] at h
          cases h
          exact ih h3 (fun q hq => hg q (List.mem_cons_of_mem _ hq)) hx
        | ok y => rw [hx] at h; cases h
      · have := traceFrom_same hi hs p r.curr
        rw [goto_self] at this
        rw [this, h1] at h
        cases h
        rfl

theorem exists_headers {r0 : Reader} {ps : List Nat} (hg : ∀ p ∈ ps, GoodPos r0 p) :
    ∃ hds, List.Forall₂ (HeaderAt r0) ps hds := by
  induction ps with
  | nil => exact ⟨[], .nil⟩
  | cons p ps ih =>
    obtain ⟨h, h1, -⟩ := hg p List.mem_cons_self
    obtain ⟨hds, h2⟩ := ih fun q hq => hg q (List.mem_cons_of_mem _ hq)
    exact ⟨h :: hds, .cons h1 h2⟩

theorem curPos_cases (s : Sorted1D) :
    s.curPos = .error (.ub .endIterator) ∨ ∃ p, s.curPos = .ok p ∧ ∃ g ∈ s.index, p ∈ g.2 := by
  unfold Sorted1D.curPos
  split
  · exact .inl rfl
  · rename_i g hg
    split
    · exact .inl rfl
    · rename_i p hp
      exact .inr ⟨p, rfl, g, List.mem_of_getElem? hg, List.mem_of_getElem? hp⟩

theorem ask_errors {data : Bytes} {m : HdrMap} {r0 : Reader} (hi : Inv data m r0) {s : Sorted1D}
    (hs : Same r0 s.rd) (hg : ∀ g ∈ s.index, ∀ p ∈ g.2, GoodPos r0 p) {c : SCall} {x : Exn}
    (h : sAsk s c = .error (.exn x)) :
    x = .lengthError ∧ (c = .readTrace ∨ ∃ v max, c = .getTraces v max) := by
  cases c with
  | getKeys => cases h
  | getHeaders v max =>
    exfalso
    unfold sAsk Sorted1D.getHeaders at h
    dsimp only at h
    split at h
    · cases h
    · split at h
      · cases h
      · rename_i ps hf
        obtain ⟨g, g1, rfl⟩ := mapFind_mem hf
        obtain ⟨hds, h1⟩ := exists_headers (hg g g1)
        obtain ⟨r', h2, -⟩ := headersFrom_of hs h1 max
        rw [h2] at h
        cases h
  | getTraces v max =>
    refine ⟨?_, .inr ⟨v, max, rfl⟩⟩
    unfold sAsk Sorted1D.getTraces at h
    dsimp only at h
    split at h
    · cases h
    · split at h
      · cases h
      · rename_i ps hf
        obtain ⟨g, g1, rfl⟩ := mapFind_mem hf
        cases hx : tracesFrom s.rd g.2 max with
        | error e =>
          rw [hx] at h
          have := tracesFrom_err hi hs (hg g g1) hx
          rw [this] at h
          cases h
          rfl
        | ok y => rw [hx] at h; cases h
  | readHeader =>
    exfalso
    unfold sAsk Sorted1D.readHeader at h
    dsimp only at h
    rcases curPos_cases s with h1 | ⟨p, h1, g, g1, g2⟩
    · rw [h1] at h; cases h
    · rw [h1, ok_bind, headerFrom_eq] at h
      obtain ⟨hd, ⟨r', h2⟩, -⟩ := hg g g1 p g2
      obtain ⟨r'', h3, -⟩ := header_same hs h2
      rw [h3] at h
      cases h
  | readTrace =>
    refine ⟨?_, .inl rfl⟩
    unfold sAsk Sorted1D.readTrace at h
    dsimp only at h
    rcases curPos_cases s with h1 | ⟨p, h1, g, g1, g2⟩
    · rw [h1] at h; cases h
    · rw [h1, ok_bind, traceFrom_eq] at h
      obtain ⟨_, _, ⟨t, r', h2⟩ | ⟨h2, -⟩⟩ := hg g g1 p g2
      · obtain ⟨r'', h3, -⟩ := trace_same hi hs h2
        rw [h3] at h
        cases h
      · have := traceFrom_same hi hs p s.rd.curr
        rw [goto_self] at this
        rw [this, h2] at h
        cases h
        rfl

theorem fresh_good {data : Bytes} {ub : Option BinHeader} {m : HdrMap} {name : String} {r : Reader}
    {l : List (Nat × Header)} {s : Sorted1D} (ho : openReader data ub m = .ok r) (hf : Fresh name r l s) :
    ∀ g ∈ s.index, ∀ p ∈ g.2, GoodPos r p := by
  have hi := inv_opened ho
  have he : r.endData ≤ r.file.data.length := by rw [hi.data]; exact endData_le ho
  have hc : r.curr = r.file.pos := by
    obtain ⟨-, -, -, -, -, -, -, -, -, -, -, -, -, -, hcurr, -⟩ := openReader_ok ho
    exact hcurr
  have hw := (scans_within hi (Same.refl hi) hc he hf.scans).2
  intro g hg p hp
  rw [hf.index] at hg
  obtain ⟨g', hg', rfl⟩ := List.mem_map.1 hg
  obtain ⟨e, he', rfl⟩ := List.mem_map.1 hp
  have hmem : e ∈ l := (flat_perm (grouped_index hf.keyed)).mem_iff.1
    (by unfold flat; exact List.mem_flatMap.2 ⟨g', hg', he'⟩)
  obtain ⟨r', h1, h2⟩ := hw e hmem
  refine ⟨e.2, ⟨r', h1⟩, ?_⟩
  have hi' : Inv r.file.data m (r.goto e.1) := inv_goto hi (Same.refl hi) e.1 r.curr
  rcases trace_within hi' h1 h2 with ⟨t, r'', h3⟩ | h3
  · exact .inl ⟨t, r'', h3⟩
  · exact .inr h3

end Sedaman
