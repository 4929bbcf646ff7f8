import Verif.Lemmas.SegdTrace

/-!
# C48, C49: SEG-D trace headers
-/

namespace Sedaman.Props

open Spec

/-- A trace header whose numbers fit is returned by the reader, together with the rest of the file,
and the block has 20 bytes. Missing: sample skews of 0.5 and more, which fit the byte of the block
but whose conversion is undefined (`C48_skew_undefined`). Channel numbers above 9999 are the
subject of C49. -/
theorem C48_roundtrip_partial (hdr : Header) (ffid scan chSet chan timing ext skew edit brk : Nat)
    (hc : Carries hdr ffid scan chSet chan timing ext skew edit brk)
    (h1 : ffid < 2 ^ 24) (h2 : scan < 100) (h3 : chSet < 2 ^ 16) (h4 : chan < 10000)
    (h5 : timing < 2 ^ 24) (h6 : ext < 2 ^ 8) (h7 : skew < 128) (h8 : edit < 2 ^ 8)
    (h9 : brk < 2 ^ 24) :
    ∃ block, writeTraceHdrD hdr = .ok block ∧ block.length = 20 ∧
      ∀ rest, ∃ r, readTraceHdrD (block ++ rest) = .ok (r, rest) ∧
        Returned r ffid scan chSet chan timing ext skew edit brk := by
  refine ⟨_, writeTraceHdrD_eq hc (by omega) (by omega) (by omega) (by omega) (by omega) h7
    (by omega), traceHdrBytes_length _ _ _ _ _ _ _ _ _, fun rest => ?_⟩
  obtain ⟨r, hr, hret⟩ := readTraceHdrD_eq ffid scan chSet chan timing ext skew edit brk rest (by omega)
  refine ⟨r, hr, ?_⟩
  have e1 : (if ffid % 2 ^ 24 ≠ 0 then ffid % 2 ^ 24 else if ffid > 9999 then 16665 else ffid) = ffid := by
    split
    · omega
    · rw [if_neg (by omega)]
  have e2 : (if 100 ≤ chSet ∧ chSet % 2 ^ 16 ≠ 0 then chSet % 2 ^ 16 else if chSet > 99 then 165 else chSet)
      = chSet := by
    split
    · omega
    · rw [if_neg (by omega)]
  have e3 : (if chan > 9999 then 16665 else chan) = chan := if_neg (by omega)
  rw [e1, e2, e3, Nat.mod_eq_of_lt h2, Nat.mod_eq_of_lt h5, Nat.mod_eq_of_lt h6,
    Nat.mod_eq_of_lt (by omega : skew < 2 ^ 8), Nat.mod_eq_of_lt h8, Nat.mod_eq_of_lt h9] at hret
  exact hret

/-- Example header: timing word 123.25, skew 0.25, no time break window. -/
def segdHdrExample : Header :=
  [("FFID", .int 123456), ("SCAN_TYPE_NUM", .int 1), ("CH_SET_NUM", .int 300), ("CHAN", .int 9999),
   ("FIRST_TIMING_WORD", .dbl (dyadic 31552 8)), ("TR_HDR_EXT", .int 7),
   ("SAMPLE_SKEW", .dbl (dyadic 64 8)), ("TRACE_EDIT", .int 2), ("OTHER", .int 5)]

theorem segdHdrExample_carries : Carries segdHdrExample 123456 1 300 9999 31552 7 64 2 0 := by
  constructor <;> first | exact .inl rfl | exact .inr ⟨rfl, rfl⟩ | rfl

example : ∃ block, writeTraceHdrD segdHdrExample = .ok block ∧ block.length = 20 ∧
    ∀ rest, ∃ r, readTraceHdrD (block ++ rest) = .ok (r, rest) ∧
      Returned r 123456 1 300 9999 31552 7 64 2 0 :=
  C48_roundtrip_partial _ _ _ _ _ _ _ _ _ _ segdHdrExample_carries (by decide) (by decide)
    (by decide) (by decide) (by decide) (by decide) (by decide) (by decide) (by decide)

/-- A sample skew of 0.5 is stored as 128 in a correct file, but its conversion to a signed `char`
is undefined. -/
theorem C48_skew_undefined :
    writeTraceHdrD [("CH_SET_NUM", .int 1), ("SAMPLE_SKEW", .dbl (dyadic 128 8))]
      = .error (.ub .floatToInt) := by decide +kernel

/-- Without a channel set number an empty optional is dereferenced, whatever else the header
contains (as long as the writer gets that far). -/
theorem C48_no_channel_set (hdr : Header) (ffid scan : Nat) (hn : hdr.get "CH_SET_NUM" = none)
    (h1 : headerInt hdr "FFID" ffid) (h2 : headerInt hdr "SCAN_TYPE_NUM" scan)
    (h3 : ffid < 2 ^ 63) (h4 : scan < 2 ^ 63) :
    writeTraceHdrD hdr = .error (.ub .emptyOptional) := by
  have hch : intOfSet hdr "CH_SET_NUM" = .error (.ub .emptyOptional) := by
    unfold intOfSet; rw [hn]; rfl
  unfold writeTraceHdrD wrBlock wrTraceHdr
  rw [wr_bind, wrLift_ok (intOf_headerInt h1), ok_bind]
  rw [wr_bind, wrNum_ok (m := 2) _ h3 (by decide +kernel) rfl (by decide) (by decide), ok_bind]
  rw [wr_bind, wrLift_ok (intOf_headerInt h2), ok_bind]
  rw [wr_bind, wrBcd_even (m := 1) _ (by decide) (by omega) rfl (by decide) (by decide), ok_bind]
  rw [wr_bind]
  unfold wrLift
  rw [hch]
  rfl

example : writeTraceHdrD [("FFID", .int 5)] = .error (.ub .emptyOptional) :=
  C48_no_channel_set _ 5 0 rfl (.inl rfl) (.inr ⟨rfl, rfl⟩) (by decide) (by decide)

/-- A value of the wrong alternative makes the writer throw `bad_variant_access`. -/
theorem C48_wrong_alternative :
    writeTraceHdrD [("CH_SET_NUM", .int 1), ("FIRST_TIMING_WORD", .int 3)]
      = .error (.exn .badVariantAccess) := by decide +kernel

/-! ## C49 large numbers -/

/-- File numbers above 9999 and channel set numbers above 99 that fit the extended fields are
returned unchanged: the statement of C48 covers them. Missing: channel numbers above 9999, see
`C49_channel_lost`. -/
theorem C49_large_partial (hdr : Header) (ffid scan chSet chan timing ext skew edit brk : Nat)
    (hc : Carries hdr ffid scan chSet chan timing ext skew edit brk)
    (hf : 9999 < ffid) (hs : 99 < chSet) (h1 : ffid < 2 ^ 24) (h2 : scan < 100)
    (h3 : chSet < 2 ^ 16) (h4 : chan < 2 ^ 63) (h5 : timing < 2 ^ 24) (h6 : skew < 128)
    (h7 : brk < 2 ^ 24) :
    ∃ block, writeTraceHdrD hdr = .ok block ∧ block.take 2 = [0xff, 0xff] ∧
      block[3]? = some 0xff ∧
      ∀ rest, ∃ r, readTraceHdrD (block ++ rest) = .ok (r, rest) ∧
        r.get "FFID" = some (.int ffid) ∧ r.get "CH_SET_NUM" = some (.int chSet) := by
  refine ⟨_, writeTraceHdrD_eq hc (by omega) (by omega) (by omega) h4 (by omega) h6 (by omega),
    ?_, ?_, fun rest => ?_⟩
  · unfold traceHdrBytes escBytes
    rw [if_pos (by omega)]
    rfl
  · unfold traceHdrBytes
    rw [List.getElem?_append_right (by simp), List.getElem?_append_right (by simp)]
    simp only [escBytes_length, bcdBytes_length]
    unfold escBytes
    rw [if_pos (by omega : (chSet : Int) > 99)]
    rfl
  · obtain ⟨r, hr, hret⟩ := readTraceHdrD_eq ffid scan chSet chan timing ext skew edit brk rest
      (by omega)
    refine ⟨r, hr, ?_, ?_⟩
    · have := hret.ffid
      rwa [if_pos (by omega), Nat.mod_eq_of_lt h1] at this
    · have := hret.chSet
      rwa [if_pos (by omega), Nat.mod_eq_of_lt h3] at this

example : ∃ block, writeTraceHdrD segdHdrExample = .ok block ∧ block.take 2 = [0xff, 0xff] ∧
    block[3]? = some 0xff ∧ ∀ rest, ∃ r, readTraceHdrD (block ++ rest) = .ok (r, rest) ∧
      Header.get r "FFID" = some (.int (123456 : Nat)) ∧
      Header.get r "CH_SET_NUM" = some (.int (300 : Nat)) :=
  C49_large_partial _ _ _ _ _ _ _ _ _ _ segdHdrExample_carries (by decide) (by decide) (by decide)
    (by decide) (by decide) (by decide) (by decide) (by decide) (by decide)

/-- Every channel number above 9999 is lost: the reader returns 16665 for all of them. -/
theorem C49_channel_lost (hdr : Header) (ffid scan chSet chan timing ext skew edit brk : Nat)
    (hc : Carries hdr ffid scan chSet chan timing ext skew edit brk)
    (hch : 9999 < chan) (h1 : ffid < 2 ^ 63) (h2 : scan < 2 ^ 63)
    (h3 : chSet < 2 ^ 63) (h4 : chan < 2 ^ 63) (h5 : timing < 2 ^ 32) (h6 : skew < 128)
    (h7 : brk < 2 ^ 32) :
    ∃ block, writeTraceHdrD hdr = .ok block ∧
      ∀ rest, ∃ r, readTraceHdrD (block ++ rest) = .ok (r, rest) ∧
        r.get "CHAN" = some (.int 16665) := by
  refine ⟨_, writeTraceHdrD_eq hc h1 h2 h3 h4 h5 h6 h7, fun rest => ?_⟩
  obtain ⟨r, hr, hret⟩ := readTraceHdrD_eq ffid scan chSet chan timing ext skew edit brk rest h1
  refine ⟨r, hr, ?_⟩
  have := hret.chan
  rwa [if_pos (by omega)] at this

example : Carries [("CH_SET_NUM", .int 1), ("CHAN", .int 12000)] 0 0 1 12000 0 0 0 0 0 := by
  constructor <;> first | exact .inl rfl | exact .inr ⟨rfl, rfl⟩ | rfl

/-- File numbers from `2^24` up lose their high bits. -/
theorem C49_file_number_wraps :
    (writeTraceHdrD [("CH_SET_NUM", .int 1), ("FFID", .int (2 ^ 24 + 5))] >>= fun b =>
      (readTraceHdrD b).map fun p => p.1.get "FFID") = .ok (some (.int 5)) := by decide +kernel

end Sedaman.Props
