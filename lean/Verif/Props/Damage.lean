import Verif.Lemmas.Damage
import Verif.Props.ISEGY

/-!
# C107: a damaged byte of a SEG-Y file damages only what is stored in it
-/

namespace Sedaman.Props

open Spec

/-- **C107 (part).** A file `a` without trailer stanzas and with a counted number of texts is opened. Some
bytes of it are damaged, which gives the file `b`, but not those of the binary header and not those with the
lengths of traces. Then `b` can be opened too, with the same binary header, byte order and number of texts,
and the texts whose bytes are not damaged are the same. -/
theorem C107_headers_partial (a b : Bytes) (ub : Option BinHeader) (m : HdrMap) (r : Reader)
    (ho : openReader a ub m = .ok r) (ht : r.bh.numOfTrailerStanza = 0) (hx : r.bh.extTextHeadersNum ≠ -1)
    (hl : b.length = a.length) (hb : Agree a b 3200 400) :
    ∃ s, openReader b ub m = .ok s ∧ s.bh = r.bh ∧ s.bo = r.bo ∧ s.trailers = r.trailers ∧
      s.texts.length = r.texts.length ∧ ∀ k : Nat, Agree a b (textPlace k) 3200 → s.texts[k]? = r.texts[k]? := by
  obtain ⟨tx, h1, h2, h3⟩ := open_damaged hl ho ht hx hb
  exact ⟨_, h1, rfl, rfl, rfl, h2, fun k hk => (h3 k hk).symm⟩

/-- **C107 (part).** The traces of such a damaged file. Whatever number of traces was read from the sound
file, as many can be read from the damaged one. The next one is at the same place, and there is one in
both or in none of them. It has the same values and samples, but for those of which bytes are damaged. -/
theorem C107_traces_partial (a b : Bytes) (ub : Option BinHeader) (m : HdrMap) (r r1 r2 : Reader) (us : List Trace)
    (t : Trace) (ho : openReader a ub m = .ok r) (ht : r.bh.numOfTrailerStanza = 0)
    (hx : r.bh.extTextHeadersNum ≠ -1) (hl : b.length = a.length) (hb : Agree a b 3200 400) (hk : LengthsKept r b)
    (hr : ReadsTraces r us r1) (hn : readTrace r1 = .ok (t, r2)) :
    ∃ s s1 s2 us' t', openReader b ub m = .ok s ∧ us'.length = us.length ∧ ReadsTraces s us' s1 ∧
      hasTrace s1 = hasTrace r1 ∧ s1.file = ⟨b, r1.file.pos⟩ ∧
      readTrace s1 = .ok (t', s2) ∧ hasTrace s2 = hasTrace r2 ∧ s2.file = ⟨b, r2.file.pos⟩ ∧
      SameBut r a b r1.file.pos t t' := by
  obtain ⟨_, _, _, _, _, _, _, _, hbps, _, _, _, htr, _, hc, hd, _⟩ := openReader_ok ho
  subst hd
  obtain ⟨tx, h1, -, -⟩ := open_damaged hl ho ht hx hb
  obtain ⟨⟨us', i1, i2⟩, i3, i4, i5, i6, i7⟩ := readsTraces_damaged (ed := b.length) (tx := tx) hl hbps hr hk
  have hend : r.endData = r.file.data.length := by
    rw [readTrailers_none ht] at htr
    exact ((Prod.mk.inj (Except.ok.inj htr)).2).symm
  have e1 := (readsTraces_pos hr hc).2.2.2.2.2
  obtain ⟨t', g1, g2⟩ := readTrace_damaged (b := b) (ed := b.length) (tx := tx) (by rw [i6]; exact hl)
    (by rw [i3, i4]; exact hbps) hn (by
      unfold LengthsKept at i7
      exact i7.imp_right fun h => h [] r1 t r2 rfl hn)
  have e2 : r2.endData = r1.endData := by
    obtain ⟨_, _, _, _, _, _, _, _, _, _, rfl⟩ := readTrace_ok hn
    rfl
  refine ⟨_, _, _, us', t', h1, i1, i2, ?_, rfl, g1, ?_, rfl, ?_⟩
  · unfold hasTrace
    simp only
    rw [e1, hend, hl]
  · unfold hasTrace
    simp only
    rw [e2, e1, hend, hl]
  · rw [i6] at g2
    exact ⟨fun k hk => g2.value k (by rw [i5, i3]; exact hk), g2.count, fun k hk => g2.sample k (by rw [i3, i4]; exact hk)⟩

/-- Two traces with two samples each. -/
def soundFile : Bytes := exFile exRev0 (exBlock 7 2 ++ [0, 1, 0, 2] ++ (exBlock 8 2 ++ [0, 3, 0, 4]))

/-- The first byte of the text, the record number of the first trace and its second sample are damaged. -/
def damagedFile : Bytes :=
  0x41 :: (exFile exRev0 (exBlock 9 2 ++ [0, 1, 1, 2] ++ (exBlock 8 2 ++ [0, 3, 0, 4]))).tail

/-- The first trace of the sound file, where the other one is damaged. -/
example : ∃ r r1 r2 t, openReader soundFile none exMap = .ok r ∧ r.bh.numOfTrailerStanza = 0 ∧
    r.bh.extTextHeadersNum ≠ -1 ∧ damagedFile.length = soundFile.length ∧ Agree soundFile damagedFile 3200 400 ∧
    LengthsKept r damagedFile ∧ ReadsTraces r [] r1 ∧ t.samples = [dblOfInt 1, dblOfInt 2] ∧
    readTrace r1 = .ok (t, r2) ∧ ¬ Agree soundFile damagedFile 3600 244 := by
  have h : (do
      let r ← openReader soundFile none exMap
      let (t, _) ← readTrace r
      pure (decide (r.bh.numOfTrailerStanza = 0 ∧ r.bh.extTextHeadersNum ≠ -1 ∧
        damagedFile.length = soundFile.length ∧
        (soundFile.drop 3200).take 400 = (damagedFile.drop 3200).take 400 ∧ fixedLength r.bh = true ∧
        t.samples = [dblOfInt 1, dblOfInt 2] ∧ soundFile[3611]? ≠ damagedFile[3611]?))) = .ok true := by
    decide +kernel
  obtain ⟨r, h1, h⟩ := bind_ok h
  obtain ⟨⟨t, r1⟩, h2, h⟩ := bind_ok h
  obtain ⟨c1, c2, c3, c4, c5, c6, c7⟩ := of_decide_eq_true (Except.ok.inj h)
  exact ⟨r, r, r1, t, h1, c1, c2, c3, agree_of_slice c4, .inl c5, rfl, c6, h2,
    fun c => c7 (c 3611 (by omega) (by omega))⟩

/-- **C107 fails where the length of a trace is damaged.** Traces have a variable length. One byte of the
number of samples of the first trace is damaged, and the undamaged second trace is lost: a trace with
another record number and without samples is read in its place, and then `read_trace` throws. -/
theorem C107_length_damaged :
    (do let r ← openReader (exFile exRev1 (exBlock 7 2 ++ [0, 1, 0, 2] ++ (exBlock 8 2 ++ [0, 3, 0, 4]))) none exMap
        let (_, r) ← readTrace r
        let (t, _) ← readTrace r
        pure (decide (t.header.get "FFID" = some (Value.int 8) ∧ t.samples = [dblOfInt 3, dblOfInt 4]))) = .ok true ∧
    (do let r ← openReader (exFile exRev1 (exBlock 7 3 ++ [0, 1, 0, 2] ++ (exBlock 8 2 ++ [0, 3, 0, 4]))) none exMap
        let (_, r) ← readTrace r
        let (t, r) ← readTrace r
        pure (decide (t.header.get "FFID" = some (Value.int 524288) ∧ t.samples = [] ∧
          readTrace r = throwExn .iosFailure))) = .ok true := by
  decide +kernel

/-- A text of the file of `C107_end_damaged` that says that it is the last one. -/
def lastText : Bytes := endText ++ List.replicate 3184 0x20

/-- **C107 fails where texts are not counted.** The last text is marked as such. If a byte of the mark is
damaged, the file cannot be opened. -/
theorem C107_end_damaged :
    (do let r ← openReader (exFile { exRev1 with extTextHeadersNum := -1, fixedTrLength := 1 }
          (lastText ++ (exBlock 7 2 ++ [0, 1, 0, 2]))) none exMap
        let (t, _) ← readTrace r
        pure (decide (t.samples = [dblOfInt 1, dblOfInt 2]))) = .ok true ∧
    (openReader (exFile { exRev1 with extTextHeadersNum := -1, fixedTrLength := 1 }
      (0x20 :: lastText.tail ++ (exBlock 7 2 ++ [0, 1, 0, 2]))) none exMap).map Reader.spt = throwExn .iosFailure := by
  decide +kernel

/-- **C107 fails in the binary header.** A damaged format code changes all samples. -/
theorem C107_format_damaged :
    (do let r ← openReader soundFile none exMap
        let (t, _) ← readTrace r
        let s ← openReader (exFile { exRev0 with formatCode := 8 }
          (exBlock 7 2 ++ [0, 1, 0, 2] ++ (exBlock 8 2 ++ [0, 3, 0, 4]))) none exMap
        let (u, _) ← readTrace s
        pure (decide (t.samples = [dblOfInt 1, dblOfInt 2] ∧ u.samples = [dblOfInt 0, dblOfInt 1]))) = .ok true := by
  decide +kernel

end Sedaman.Props
