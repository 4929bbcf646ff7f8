import Verif.Spec.Transfer
import Verif.Props.MapView
import Verif.Props.SegdE2E

/-!
# C98: from SEG-Y to SEG-D
-/

namespace Sedaman.Props

open Spec

private theorem not_placed {m : HdrMap} {k : String} (h : NotNamed m k) (n : Nat) : lastNamed k (placed m n) = none := by
  unfold lastNamed
  rw [List.find?_eq_none]
  intro p hp
  unfold placed at hp
  rw [List.mem_reverse, List.mem_flatMap] at hp
  obtain ⟨i, -, hp⟩ := hp
  cases hb : m[i]? with
  | none => rw [hb] at hp; cases hp
  | some b =>
    rw [hb] at hp
    obtain ⟨f, hf, rfl⟩ := List.mem_map.1 hp
    simpa using h b (List.mem_of_getElem? hb) f hf

private theorem segy_none {r r' : Reader} {t : Trace} (hr : readTrace r = .ok (t, r')) {k : String}
    (hk : NotNamed r.map k) (hs : k ≠ "SAMP_NUM") : t.header.get k = none := by
  have h := C80_trace_header_values r r' t hr k
  rw [not_placed hk] at h
  rw [h]
  split
  · rfl
  · simp [hs.symm]

private theorem hdr_needs_set {h : Header} (hn : h.get "CH_SET_NUM" = none) (b : Bytes) :
    writeTraceHdrD h ≠ .ok b := by
  intro hb
  unfold writeTraceHdrD wrBlock at hb
  obtain ⟨⟨u, c⟩, hb, -⟩ := bind_ok hb
  unfold wrTraceHdr at hb
  rw [wr_bind] at hb
  obtain ⟨p1, -, hb⟩ := bind_ok hb
  rw [wr_bind] at hb
  obtain ⟨p2, -, hb⟩ := bind_ok hb
  rw [wr_bind] at hb
  obtain ⟨p3, -, hb⟩ := bind_ok hb
  rw [wr_bind] at hb
  obtain ⟨p4, -, hb⟩ := bind_ok hb
  rw [wr_bind] at hb
  obtain ⟨p5, h5, hb⟩ := bind_ok hb
  have e : intOfSet h "CH_SET_NUM" = isUb .emptyOptional := by
    unfold intOfSet
    rw [hn]
  rw [e] at h5
  cases h5

/-- **C98.** A trace from a SEG-Y file as it is, read with any map that has no field for the channel set number,
is accepted by no SEG-D writer. -/
theorem C98_no_channel_set (r r' : Reader) (t : Trace) (hr : readTrace r = .ok (t, r'))
    (hm : NotNamed r.map "CH_SET_NUM") (H : Host) (w : OSegd) : (writeTraceD H t w).1 ≠ .ok () := by
  have hn := segy_none hr hm (by decide)
  unfold writeTraceD
  split
  · nofun
  · split
    · nofun
    · rename_i b hb
      exact absurd hb (hdr_needs_set hn b)

/-- **C98 (part).** Traces from SEG-Y files become a SEG-D file of revision 2 when the channel set, one extension
block and the number of samples are added to their headers: the file has the same samples, file numbers and channel
numbers. It has nothing else of the headers. The samples have to be finite and fit the format.
Missing: file numbers below zero or above 2^24 - 1, channel numbers below zero or above 9999 (`C98_channel_10000`),
descale factors other than one (see C96), and what C59 does not cover. -/
theorem C98_standard_partial (H : Host) (a : OSegdArgs) (ns : List GenHdrN) (ts : List Trace)
    (scan chSet : Trace → Nat) (hsrc : ∀ t ∈ ts, FromSegy t) (hlg : LogOk H.lg) (hroom : 32 ≤ H.room)
    (hr : RecordFits a ns) (hmap : a.extMap = []) (hrev : a.gh2.segdRevMajor = 2)
    (hfmt : a.gh1.formatCode ∈ segdByteFormats)
    (hn : ts.length = announced a.chSets) (h64 : ts.length < 2 ^ 64)
    (hset : ∀ t ∈ ts, ∃ l c, 1 ≤ scan t ∧ scan t < 100 ∧ a.chSets[scan t - 1]? = some l ∧ 1 ≤ chSet t ∧ chSet t < 2 ^ 16 ∧
      l[chSet t - 1]? = some c ∧ H.pw c.descaleMultiplier = pow2 0)
    (hnum : ∀ t ∈ ts, ∃ ffid chan : Nat, headerInt t.header "FFID" ffid ∧ ffid < 2 ^ 24 ∧
      headerInt t.header "CHAN" chan ∧ chan < 10000)
    (hlen : ∀ t ∈ ts, t.samples.length < 2 ^ 24)
    (hx : ∀ t ∈ ts, ∀ x ∈ t.samples, (∃ v, dblRat x = some v) ∧ SampleBack H.packEst a.gh1.formatCode x x) :
    ∃ w, openSegdWriter H 0 a = .ok w ∧
      (Spec.writeAll H (ts.map fun t => forSegd (scan t) (chSet t) t) w).1 = List.replicate ts.length (.ok ()) ∧
      ∃ f, openSegd (Spec.writeAll H (ts.map fun t => forSegd (scan t) (chSet t) t) w).2.out [] = .ok f ∧
        ∃ ts' e, readManyD H.pw ts.length f = .ok (ts', e) ∧
          ts'.map (·.samples) = ts.map (·.samples) ∧
          List.Forall₂ (fun t t' => (∀ n ∈ ["FFID", "CHAN"], ∃ i, headerInt t.header n i ∧
            t'.header.get n = some (.int i)) ∧
            ∀ n, n ∉ "FFID" :: "CHAN" :: "SAMP_NUM" :: segdOnly → t'.header.get n = none) ts ts' ∧
          e.hasTrace = false ∧ e.hasRecord = false := by
  have hfits : ∀ t ∈ ts.map fun t => forSegd (scan t) (chSet t) t, TraceFits H a t 1 ∧ StdExtFits a t 0 0 0 0 := by
    intro t' ht'
    obtain ⟨t, ht, rfl⟩ := List.mem_map.1 ht'
    obtain ⟨r, r', h1, h2⟩ := hsrc t ht
    obtain ⟨l, c, s1, s2, s3, s4, s5, s6, s7⟩ := hset t ht
    obtain ⟨ffid, chan, n1, n2, n3, n4⟩ := hnum t ht
    have hl := hlen t ht
    have none_of : ∀ k ∈ segdOnly, t.header.get k = none := fun k hk => segy_none h1 (h2 k hk) (by
      rintro rfl
      exact absurd hk (by decide))
    have keep : ∀ k, k ∉ ["SCAN_TYPE_NUM", "CH_SET_NUM", "TR_HDR_EXT", "SAMP_NUM"] →
        (forSegd (scan t) (chSet t) t).header.get k = t.header.get k := by
      intro k hk
      simp only [List.mem_cons, List.not_mem_nil, or_false, not_or] at hk
      unfold forSegd
      simp only [get_set]
      rw [if_neg (Ne.symm hk.2.2.2), if_neg (Ne.symm hk.2.2.1), if_neg (Ne.symm hk.2.1), if_neg (Ne.symm hk.1)]
    have gone : ∀ k ∈ segdOnly, k ∉ ["SCAN_TYPE_NUM", "CH_SET_NUM", "TR_HDR_EXT", "SAMP_NUM"] →
        (forSegd (scan t) (chSet t) t).header.get k = none := fun k hk hk' => by rw [keep k hk', none_of k hk]
    have set4 : (forSegd (scan t) (chSet t) t).header.get "SCAN_TYPE_NUM" = some (.int (scan t)) ∧
        (forSegd (scan t) (chSet t) t).header.get "CH_SET_NUM" = some (.int (chSet t)) ∧
        (forSegd (scan t) (chSet t) t).header.get "TR_HDR_EXT" = some (.int 1) ∧
        (forSegd (scan t) (chSet t) t).header.get "SAMP_NUM" = some (.int t.samples.length) := by
      unfold forSegd
      simp [get_set]
    have hint : ∀ k v, k ∉ ["SCAN_TYPE_NUM", "CH_SET_NUM", "TR_HDR_EXT", "SAMP_NUM"] → headerInt t.header k v →
        headerInt (forSegd (scan t) (chSet t) t).header k v := by
      intro k v hk hv
      unfold headerInt
      rw [keep k hk]
      exact hv
    refine ⟨⟨⟨ffid, scan t, chSet t, chan, 0, 0, 0, 0, l, c, 0, ?_, n2, s2, s5, n4, by decide, by decide, by decide,
      by decide, s1, s3, s4, s6, s7, by decide, by decide, fun x hx' => ?_⟩, hfmt, ?_, by decide, by decide⟩,
      ⟨hmap, hrev, .inr (.inr ⟨gone _ (by decide) (by decide), rfl⟩), .inr (.inr ⟨gone _ (by decide) (by decide), rfl⟩),
        .inr ⟨gone _ (by decide) (by decide), rfl⟩, .inr ⟨gone _ (by decide) (by decide), rfl⟩, .inl set4.2.2.2,
        by decide, by decide, by decide, hl, by decide⟩⟩
    · exact ⟨hint _ _ (by decide) n1, .inl set4.1, set4.2.1, hint _ _ (by decide) n3,
        .inr ⟨gone _ (by decide) (by decide), rfl⟩, .inl set4.2.2.1, .inr ⟨gone _ (by decide) (by decide), rfl⟩,
        .inr ⟨gone _ (by decide) (by decide), rfl⟩, .inr ⟨gone _ (by decide) (by decide), rfl⟩⟩
    · obtain ⟨⟨v, e1⟩, e2⟩ := hx t ht x hx'
      exact ⟨x, ⟨v, e1, by rw [e1]; simp, Iff.rfl⟩, e2⟩
    · have hb : segdBits a.gh1.formatCode ≤ 64 := by
        have : ∀ f ∈ segdByteFormats, segdBits f ≤ 64 := by decide
        exact this _ hfmt
      show t.samples.length * _ < _
      have := Nat.mul_le_mul_left t.samples.length hb
      omega
  obtain ⟨w, h1, h2, f, h3, -, -, ts', e, h4, h5, h6, h7⟩ := C59_standard_partial H a ns
    (ts.map fun t => forSegd (scan t) (chSet t) t) (fun _ => 1) (fun _ => 0) (fun _ => 0) (fun _ => 0) (fun _ => 0)
    hlg hroom hr (by rw [List.length_map]; exact hn) (by rw [List.length_map]; exact h64)
    (fun t ht => (hfits t ht).1) (fun t ht => (hfits t ht).2)
  rw [List.length_map] at h2 h4
  rw [hmap] at h3
  rw [List.forall₂_map_left_iff] at h5
  refine ⟨w, h1, h2, f, h3, ts', e, h4, ?_, ?_, h6, h7⟩
  · clear h4 h2 h1 hn h64 hset hnum hlen hx hsrc hfits h3
    induction h5 with
    | nil => rfl
    | cons a _ ih =>
      rw [List.map_cons, List.map_cons, ih, a.samples]
      rfl
  · clear h4 h2 h1 hn h64 hset hlen hx hsrc hfits h3
    induction h5 with
    | nil => exact .nil
    | @cons t t' _ _ hb _ ih =>
      refine .cons ⟨fun n hn => ?_, fun n hn => ?_⟩ (ih fun u hu => hnum u (List.mem_cons_of_mem _ hu))
      · have keep : (forSegd (scan t) (chSet t) t).header.get n = t.header.get n := by
          simp only [List.mem_cons, List.not_mem_nil, or_false] at hn
          unfold forSegd
          rcases hn with rfl | rfl <;> simp [get_set]
        have hs : (n, Value.int 0) ∈ stdTraceNames := by
          simp only [List.mem_cons, List.not_mem_nil, or_false] at hn
          rcases hn with rfl | rfl <;> decide
        obtain ⟨v, e1, e2⟩ := hb.header _ hs
        simp only at e1 e2
        rw [keep] at e2
        obtain ⟨ffid, chan, n1, -, n3, -⟩ := hnum t List.mem_cons_self
        have hi : ∃ i, headerInt t.header n i := by
          simp only [List.mem_cons, List.not_mem_nil, or_false] at hn
          rcases hn with rfl | rfl
          · exact ⟨_, n1⟩
          · exact ⟨_, n3⟩
        obtain ⟨i, hi⟩ := hi
        refine ⟨i, hi, ?_⟩
        rw [e1]
        rcases hi with hi | ⟨hi, rfl⟩
        · rcases e2 with e2 | ⟨e2, -⟩
          · rw [← e2, hi]
          · rw [hi] at e2; cases e2
        · rcases e2 with e2 | ⟨-, e2⟩
          · rw [hi] at e2; cases e2
          · rw [e2]
      · simp only [segdOnly, List.mem_cons, List.not_mem_nil, or_false, not_or] at hn
        refine hb.others n ?_ ?_ <;> simp [stdTraceNames, hn]

/-! ## Examples -/

/-- The default map has no field for values of SEG-D only. -/
theorem C98_default_map : ∀ n ∈ segdOnly, NotNamed defaultMap n := by decide +kernel

/-- A SEG-Y file of one trace: file number 7, the samples 5 and -2 as 16 bit integers. -/
def segyOne : Bytes := exFile exRev0 (exBlock 7 2 ++ [0, 5, 0xff, 0xfe])

/-- What is read from it with the default map. -/
theorem segy_one_read : ∃ t r r', openReader segyOne none defaultMap = .ok r ∧ readTrace r = .ok (t, r') ∧
    r.map = defaultMap ∧ t.samples = [dblOfInt 5, dblOfInt (-2)] ∧ t.header.get "FFID" = some (.int 7) ∧
    t.header.get "CHAN" = some (.int 0) := by
  have h : (do
      let r ← openReader segyOne none defaultMap
      let (t, _) ← readTrace r
      pure (decide (r.map = defaultMap), t.samples, t.header.get "FFID", t.header.get "CHAN")) =
      .ok (true, [dblOfInt 5, dblOfInt (-2)], some (.int 7), some (.int 0)) := by decide +kernel
  obtain ⟨r, h1, h⟩ := bind_ok h
  obtain ⟨⟨t, r'⟩, h2, h⟩ := bind_ok h
  have h := Except.ok.inj h
  simp only [Prod.mk.injEq, decide_eq_true_eq] at h
  exact ⟨t, r, r', h1, h2, h.1, h.2.1, h.2.2.1, h.2.2.2⟩

/-- It becomes a SEG-D file of two equal traces; without the additions it is refused. -/
example : ∃ t, FromSegy t ∧ t.samples = [dblOfInt 5, dblOfInt (-2)] ∧
    (∀ w, (writeTraceD hostExample t w).1 ≠ .ok ()) ∧
    ∃ w f ts' e, openSegdWriter hostExample 0 segdArgsExample = .ok w ∧
      openSegd (Spec.writeAll hostExample [forSegd 1 1 t, forSegd 1 1 t] w).2.out [] = .ok f ∧
      readManyD hostExample.pw 2 f = .ok (ts', e) ∧ ts'.map (·.samples) = [t.samples, t.samples] := by
  obtain ⟨t, r, r', -, h2, h3, h4, h5, h6⟩ := segy_one_read
  have hs : FromSegy t := ⟨r, r', h2, by rw [h3]; exact C98_default_map⟩
  refine ⟨t, hs, h4, C98_no_channel_set r r' t h2 (by rw [h3]; exact C98_default_map _ (by decide)) hostExample, ?_⟩
  have only : ∀ u ∈ [t, t], u = t := by simp
  obtain ⟨w, a1, -, f, a2, ts', e, a3, a4, -⟩ := C98_standard_partial hostExample segdArgsExample [ghNExample] [t, t]
    (fun _ => 1) (fun _ => 1) (fun u hu => by rw [only u hu]; exact hs) floorLog_ok (by decide) (recordFitsExample []) rfl
    rfl (by decide) rfl (by simp)
    (fun u _ => ⟨[{ chSetExample with numberOfChannels := 2 }], { chSetExample with numberOfChannels := 2 }, by decide,
      by decide, rfl, by decide, by decide, rfl, by decide +kernel⟩)
    (fun u hu => ⟨7, 0, by rw [only u hu]; exact .inl h5, by decide, by rw [only u hu]; exact .inl h6, by decide⟩)
    (fun u hu => by rw [only u hu, h4]; decide)
    (fun u hu x hx => by
      rw [only u hu, h4] at hx
      simp only [List.mem_cons, List.not_mem_nil, or_false] at hx
      rcases hx with rfl | rfl
      · refine ⟨⟨_, dblRat_ofInt (by decide)⟩, ?_⟩
        have := C50_single_exact hostExample.packEst 8058 (.inl rfl) (dblToSgl (dblOfInt 5)) (by decide +kernel)
        rwa [show sglToDbl (dblToSgl (dblOfInt 5)) = dblOfInt 5 by decide +kernel] at this
      · refine ⟨⟨_, dblRat_ofInt (by decide)⟩, ?_⟩
        have := C50_single_exact hostExample.packEst 8058 (.inl rfl) (dblToSgl (dblOfInt (-2))) (by decide +kernel)
        rwa [show sglToDbl (dblToSgl (dblOfInt (-2))) = dblOfInt (-2) by decide +kernel] at this)
  exact ⟨w, f, ts', e, a1, a2, a3, a4⟩

/-- **C98, counterexample.** Channel number 10000 becomes 16665. -/
theorem C98_channel_10000 :
    let t := forSegd 1 1 ⟨[("FFID", .int 7), ("CHAN", .int 10000)], [dblOfInt 5, dblOfInt (-2)]⟩
    (segdRun segdArgsExample t t).map (fun (x, _) => (x.header.get "CHAN", x.header.get "FFID")) =
      .ok (some (.int 16665), some (.int 7)) := by
  decide +kernel

/-- **C98, counterexample.** File number -1 becomes 16777215. -/
theorem C98_negative_file_number :
    let t := forSegd 1 1 ⟨[("FFID", .int (-1)), ("CHAN", .int 1)], [dblOfInt 5, dblOfInt (-2)]⟩
    (segdRun segdArgsExample t t).map (fun (x, _) => (x.header.get "CHAN", x.header.get "FFID")) =
      .ok (some (.int 1), some (.int 16777215)) := by
  decide +kernel

end Sedaman.Props
