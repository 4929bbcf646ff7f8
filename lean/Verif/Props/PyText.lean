import Verif.Lemmas.PyText
import Verif.Props.E2E

/-!
# C94: texts and header values in Python
-/

namespace Sedaman.Props

open Spec

/-! ## Conversions -/

private theorem nats_back (b : Bytes) : (b.map BitVec.toNat).map (BitVec.ofNat 8) = b := by
  rw [List.map_map]
  exact (List.map_congr_left fun x _ => by simp).trans (List.map_id b)

/-- **C94.** A text that Python gets as `str` is the same text when it is given back. -/
theorem C94_str_back (b : Bytes) (t : PyText) (h : PyText.ofCpp b = some t) : t.toCpp = some b := by
  obtain ⟨cs, h1, rfl⟩ := Option.map_eq_some_iff.1 h
  show Option.map _ (utf8Encode cs) = _
  rw [utf8_encode_decode h1]
  exact congrArg some (nats_back b)

/-- **C94.** A text can be given to Python as `str` just when it is the UTF-8 encoding of characters, and these are the
characters of the `str`. -/
theorem C94_str_when (b : Bytes) (cs : List Nat) :
    PyText.ofCpp b = some (.str cs) ↔ utf8Encode cs = some (b.map BitVec.toNat) := by
  constructor
  · intro h
    obtain ⟨cs', h1, h2⟩ := Option.map_eq_some_iff.1 h
    cases h2
    exact utf8_encode_decode h1
  · intro h
    show Option.map _ _ = _
    rw [utf8_decode_encode h]
    rfl

/-! ## Text headers -/

private theorem pyTexts_bytes (bs : List Bytes) : pyTexts (bs.map .bytes) = .ok bs := by
  induction bs with
  | nil => rfl
  | cons b bs ih =>
    simp only [List.map_cons, pyTexts, PyText.toCpp, ih]

/-- **C94.** The text headers of every file can be read in Python and given to a writer, which gets the same bytes. -/
theorem C94_text_headers (r : Reader) (bh : BinHeader) (m : HdrMap) :
    pyTexts (pyTextHeaders r) = .ok r.texts ∧
    pyRev1 (pyTextHeaders r) bh m = pyCall (openRev1 r.texts bh m) ∧
    pyRev2 (pyTextHeaders r) bh [] m = pyCall (openRev2 r.texts bh [] m) ∧
    ∀ t, pyTextHeaders r = [t] → ∃ b, r.texts = [b] ∧ pyRev0 t bh m = pyCall (openRev0 b bh m) := by
  have h : pyTexts (pyTextHeaders r) = .ok r.texts := pyTexts_bytes _
  refine ⟨h, by unfold pyRev1; rw [h]; rfl, by unfold pyRev2; rw [h]; rfl, fun t ht => ?_⟩
  obtain ⟨b, hb, rfl⟩ := List.map_eq_singleton_iff.1 ht
  exact ⟨b, hb, rfl⟩

/-- **C94 (part).** A text of 3200 characters that is given as `str` is accepted only if all its characters are ASCII; their
codes are then the bytes in the file. Missing: other characters; the text gets longer and is refused. -/
theorem C94_str_header_partial (cs : List Nat) (bh : BinHeader) (m : HdrMap) (w : Writer) (hl : cs.length = 3200)
    (hm : checkMap bh m = .ok ()) (h : pyRev1 [.str cs] bh m = .ok w) :
    (∀ c ∈ cs, c < 0x80) ∧ openRev1 [cs.map (BitVec.ofNat 8)] bh m = .ok w := by
  unfold pyRev1 at h
  cases he : utf8Encode cs with
  | none =>
    have : pyTexts [.str cs] = .error .typeError := by
      simp only [pyTexts, PyText.toCpp, he]
      rfl
    rw [this] at h
    cases h
  | some bs =>
    have ht : pyTexts [.str cs] = .ok [bs.map (BitVec.ofNat 8)] := by
      simp only [pyTexts, PyText.toCpp, he]
      rfl
    rw [ht] at h
    have h' : pyCall (openRev1 [bs.map (BitVec.ofNat 8)] bh m) = .ok w := h
    have ho : openRev1 [bs.map (BitVec.ofNat 8)] bh m = .ok w := by
      cases hc : openRev1 [bs.map (BitVec.ofNat 8)] bh m with
      | error e => rw [hc] at h'; cases h'
      | ok w' => rw [hc] at h'; exact congrArg _ (Except.ok.inj h')
    have hlen : bs.length = 3200 := by
      by_contra hne
      rw [C25_rev1_refuses _ bh m hm _ (.head _) (by rw [List.length_map]; exact hne)] at ho
      cases ho
    obtain ⟨h1, h2⟩ := (utf8_length he).2 (by omega)
    rw [h1] at ho
    exact ⟨h2, ho⟩

/-- **C94 fails, other characters.** No `str` of 3200 characters with one that is not ASCII is accepted. -/
theorem C94_str_refused (cs : List Nat) (bh : BinHeader) (m : HdrMap) (w : Writer) (hl : cs.length = 3200)
    (hm : checkMap bh m = .ok ()) (c : Nat) (hc : c ∈ cs) (h80 : 0x80 ≤ c) : pyRev1 [.str cs] bh m ≠ .ok w := by
  intro h
  have := (C94_str_header_partial cs bh m w hl hm h).1 c hc
  omega

/-! ## Trailer stanzas -/

private theorem mapM_back : ∀ {bs : List Bytes} {ts : List PyText}, bs.mapM PyText.ofCpp = some ts → pyTexts ts = .ok bs
  | [], ts, h => by
    have e : ts = [] := by simpa using h.symm
    subst e
    rfl
  | b :: bs, ts, h => by
    rw [List.mapM_cons] at h
    cases h1 : PyText.ofCpp b with
    | none => rw [h1] at h; cases h
    | some t =>
      cases h2 : bs.mapM PyText.ofCpp with
      | none => rw [h1, h2] at h; cases h
      | some ts' =>
        rw [h1, h2] at h
        have e := Option.some.inj h
        subst e
        simp only [pyTexts, C94_str_back b t h1, mapM_back h2]

private theorem mapM_some (bs : List Bytes) :
    (∃ ts, bs.mapM PyText.ofCpp = some ts) ↔ ∀ b ∈ bs, ∃ t, PyText.ofCpp b = some t := by
  induction bs with
  | nil => simp
  | cons b bs ih =>
    rw [List.mapM_cons, List.forall_mem_cons, ← ih]
    cases h1 : PyText.ofCpp b with
    | none => simp
    | some t =>
      cases h2 : bs.mapM PyText.ofCpp with
      | none => simp
      | some ts => simp

/-- **C94 (part).** If the trailer stanzas of a file can be read in Python, they can be given to a writer, which gets the same
bytes. Missing: that they can be read; see `C94_stanzas_when`. -/
theorem C94_stanzas_partial (r : Reader) (ts : List PyText) (h : pyTrailerStanzas r = .ok ts) (bh : BinHeader) (m : HdrMap) :
    pyRev2 (pyTextHeaders r) bh ts m = pyCall (openRev2 r.texts bh r.trailers m) := by
  unfold pyTrailerStanzas at h
  cases hm : r.trailers.mapM PyText.ofCpp with
  | none => rw [hm] at h; cases h
  | some ts' =>
    rw [hm] at h
    have e := Except.ok.inj h
    subst e
    unfold pyRev2
    rw [(C94_text_headers r bh m).1, mapM_back hm]
    rfl

/-- **C94.** The trailer stanzas can be read in Python just when each of them is UTF-8; otherwise `UnicodeDecodeError` is
raised. -/
theorem C94_stanzas_when (r : Reader) :
    ((∃ ts, pyTrailerStanzas r = .ok ts) ↔ ∀ b ∈ r.trailers, ∃ cs, utf8Encode cs = some (b.map BitVec.toNat)) ∧
    ((∃ ts, pyTrailerStanzas r = .ok ts) ∨ pyTrailerStanzas r = .error .unicodeError) := by
  have h1 : (∃ ts, pyTrailerStanzas r = .ok ts) ↔ ∃ ts, r.trailers.mapM PyText.ofCpp = some ts := by
    unfold pyTrailerStanzas
    cases r.trailers.mapM PyText.ofCpp with
    | none => simp
    | some ts => simp
  refine ⟨?_, ?_⟩
  · rw [h1, mapM_some]
    refine forall₂_congr fun b _ => ⟨fun ⟨t, ht⟩ => ?_, fun ⟨cs, hc⟩ => ⟨.str cs, (C94_str_when b cs).2 hc⟩⟩
    obtain ⟨cs, -, e⟩ := Option.map_eq_some_iff.1 ht
    subst e
    exact ⟨cs, (C94_str_when b cs).1 ht⟩
  · unfold pyTrailerStanzas
    cases r.trailers.mapM PyText.ofCpp with
    | none => exact .inr rfl
    | some ts => exact .inl ⟨ts, rfl⟩

/-- **C94 fails, stanzas in EBCDIC.** If some stanza has a byte from 0xC0 on (the capital letters and digits of EBCDIC among
them) that is not followed by a byte from 0x80 to 0xBF, none of the stanzas can be read in Python. -/
theorem C94_ebcdic_stanzas (r : Reader) (x y : Bytes) (a b : Byte) (h : x ++ a :: b :: y ∈ r.trailers)
    (ha : 0xC0 ≤ a.toNat) (hb : b.toNat < 0x80 ∨ 0xC0 ≤ b.toNat) : pyTrailerStanzas r = .error .unicodeError := by
  obtain ⟨h1, h2⟩ := C94_stanzas_when r
  refine h2.resolve_left fun h3 => ?_
  obtain ⟨cs, hc⟩ := h1.1 h3 _ h
  have := utf8_lead hc (by rw [List.map_append]; rfl) ha
  simp [utf8Cont] at this
  omega

/-! ## Header values -/

/-- **C94 (part).** A `float`, and an `int` that fits 64 bits, comes back from a header as it was set; other keys keep their
values. Missing: larger `int`s; see `C94_large_int`. -/
theorem C94_values_partial (h h' : Header) (k k' : String) (v : PyNum)
    (hv : ∀ i, v = .int i → -2 ^ 63 ≤ i ∧ i < 2 ^ 63) (hs : pyHeaderSet h k v = some h') :
    pyHeaderGet h' k' = if k = k' then some v else pyHeaderGet h k' := by
  obtain ⟨x, h1, rfl⟩ := Option.map_eq_some_iff.1 hs
  unfold pyHeaderGet
  rw [get_set]
  by_cases hk : k = k'
  · rw [if_pos hk, if_pos hk]
    cases v with
    | int i =>
      have e : PyNum.toCpp (.int i) = some (.int i) := if_pos (hv i rfl)
      rw [e] at h1
      cases h1
      rfl
    | float d => cases h1; rfl
  · rw [if_neg hk, if_neg hk]

/-- The values of the previous theorem are accepted. -/
theorem C94_values_accepted (h : Header) (k : String) (v : PyNum) (hv : ∀ i, v = .int i → -2 ^ 63 ≤ i ∧ i < 2 ^ 63) :
    ∃ h', pyHeaderSet h k v = some h' := by
  cases v with
  | int i =>
    have e : PyNum.toCpp (.int i) = some (.int i) := if_pos (hv i rfl)
    exact ⟨h.set k (.int i), by unfold pyHeaderSet; rw [e]; rfl⟩
  | float d => exact ⟨h.set k (.dbl d), rfl⟩

/-- **C94 fails, large integers.** `2^63 + 1`, which a field of type `uint64_t` could hold, is turned into the `float`
`2^63`. -/
theorem C94_large_int (h h' : Header) (k : String) (hs : pyHeaderSet h k (.int (2 ^ 63 + 1)) = some h') :
    pyHeaderGet h' k = some (.float 0x43E0000000000000#64) := by
  obtain ⟨x, h1, rfl⟩ := Option.map_eq_some_iff.1 hs
  have e : PyNum.toCpp (.int (2 ^ 63 + 1)) = some (.dbl 0x43E0000000000000#64) := by decide +kernel
  rw [e] at h1
  cases h1
  unfold pyHeaderGet
  rw [get_set, if_pos rfl]
  rfl

/-! ## Examples -/

example : pyHeaderSet [("FFID", .int 3)] "FFID" (.int (-7)) = some [("FFID", .int (-7))] := by decide +kernel

/-- A `str` of 3200 capital As is accepted. -/
example : (pyRev1 [.str (List.replicate 3200 0x41)] { formatCode := 3, revMajor := 1 } exWMap).isOk = true := by
  decide +kernel

/-- `'Ω€😀'` -/
example : PyText.ofCpp [0xCE#8, 0xA9#8, 0xE2#8, 0x82#8, 0xAC#8, 0xF0#8, 0x9F#8, 0x98#8, 0x80#8] =
    some (.str [0x3A9, 0x20AC, 0x1F600]) := by decide

/-- Not UTF-8: too long, a surrogate, too large, cut. -/
example : [[0xC0#8, 0x80#8], [0xED#8, 0xA0#8, 0x80#8], [0xF4#8, 0x90#8, 0x80#8, 0x80#8], [0xE2#8, 0x82#8]].map PyText.ofCpp =
    [none, none, none, none] := by decide

/-- A file with a stanza in EBCDIC, written by the library: the traces can be read, the stanzas cannot. -/
example : ∃ w0 w data r, openRev2 [exText] { formatCode := 3, revMajor := 2, numOfTrailerStanza := -1, numOfTrInFile := 2 }
      ([List.replicate 3200 0xC1#8] ++ [exEnd]) exWMap = .ok w0 ∧
    writeAll (writeTraceRev2 (.strict fun _ => 0)) w0 [exT1, exT2] = .ok w ∧ closeRev2 w = .ok data ∧
    openReader data none exWMap = .ok r ∧ r.trailers.length = 2 ∧ pyTrailerStanzas r = .error .unicodeError := by
  obtain ⟨w0, w, data, r, backs, h1, h2, h3, h4, -, -, h5, -⟩ :=
    C23_delimited_partial (.strict fun _ => 0) exText [] [List.replicate 3200 0xC1#8] exEnd
    { formatCode := 3, revMajor := 2, numOfTrailerStanza := -1, numOfTrInFile := 2 }
    exWMap exB [exT1, exT2] (by decide +kernel) (by decide) (by decide +kernel) (by decide +kernel) (by decide +kernel)
    ⟨by decide, .inl rfl, by decide⟩ (exMapOk _ rfl)
    (by decide) (.inl rfl) (by unfold ExtendedOk; decide) rfl rfl rfl rfl (by simp) (.inl rfl) (by decide)
    (fun t ht => by
      simp only [List.mem_cons, List.not_mem_nil, or_false] at ht
      rcases ht with rfl | rfl
      · exact ⟨(exStorable _).1, rfl, by decide⟩
      · exact ⟨(exStorable _).2, rfl, by decide⟩)
  refine ⟨w0, w, data, r, h1, h2, h3, h4, by rw [h5]; rfl, ?_⟩
  refine C94_ebcdic_stanzas r [] (List.replicate 3198 0xC1#8) 0xC1#8 0xC1#8 ?_ (by decide) (by decide)
  rw [h5]
  exact .head _

end Sedaman.Props
