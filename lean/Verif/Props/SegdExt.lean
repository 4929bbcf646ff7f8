import Verif.Lemmas.SegdExt
import Verif.Props.SegdGen
import Verif.Props.Samples

/-!
# C53: SEG-D trace header extensions
-/

namespace Sedaman.Props

open Spec

/-- The extension blocks are put together in a buffer of 20 bytes: whenever the trace announces at
least one block, clearing its 32 bytes already leaves the buffer. -/
theorem C53_buffer_overflow (est : LogEst) (rev : Int) (m : ExtMap) (hdr : Header) (n : Int)
    (hn : headerInt hdr "TR_HDR_EXT" n) (h0 : n % 256 ≠ 0) :
    writeExt est 20 rev m hdr = .error (.ub .outOfBounds) := by
  unfold writeExt
  rw [intOf_headerInt hn, ok_bind]
  obtain ⟨k, hk⟩ : ∃ k, toU 1 n = k + 1 := ⟨toU 1 n - 1, by unfold toU; omega⟩
  rw [hk]
  rfl

example (est : LogEst) : writeExt est 20 2 [] [("TR_HDR_EXT", .int 1)] = .error (.ub .outOfBounds) :=
  C53_buffer_overflow est 2 [] _ 1 (.inl rfl) (by decide)

/-- Provided the compiler lays out the next member (32 bytes) right behind the 20 byte buffer, so
that at least 32 bytes may be used: with a map for each of the `n` announced blocks, fields inside
the blocks, without overlaps, with different names and no unsigned 64-bit field, every field is
returned, the rest of the header is as before, and the rest of the file is left to be read.
Missing: unsigned 64-bit fields (`C53_u64_misread`), the layout of the buffer
(`C53_buffer_overflow`). -/
theorem C53_roundtrip_partial (est : LogEst) (room : Nat) (hroom : 32 ≤ room) (rev : Int) (m : ExtMap)
    (hdr : Header) (n : Nat) (hext : headerInt hdr "TR_HDR_EXT" n) (h8 : n < 256)
    (hlen : n ≤ m.length) (h0 : 0 < n)
    (hs : ∀ fs ∈ m.take n, SafeExt fs) (hu : ∀ fs ∈ m.take n, ∀ f ∈ fs, f.ty ≠ .u64)
    (hnames : ((m.take n).flatten.map (·.name)).Nodup)
    (hf : ∀ fs ∈ m.take n, ∀ f ∈ fs, ExtFits est hdr f) :
    ∃ out, writeExt est room rev m hdr = .ok out ∧ out.length = 32 * n ∧
      ∀ acc rest, acc.get "TR_HDR_EXT" = some (.int n) →
        ∃ h, readExt rev m acc (out ++ rest) = .ok (h, rest) ∧
          (∀ f ∈ (m.take n).flatten,
            ∃ v w, hdr.get f.name = some v ∧ h.get f.name = some w ∧ ExtBack f.ty v w) ∧
          ∀ k, k ∉ (m.take n).flatten.map (·.name) → h.get k = acc.get k := by
  have hd : (m.drop 0).take n = m.take n := rfl
  obtain ⟨out, o1, o2, o3⟩ := ext_loop_rt (est := est) hroom rev (m := m) (hdr := hdr) n 0 (by omega)
    (by rwa [hd]) (by rwa [hd]) (by rwa [hd]) (by rwa [hd])
  refine ⟨out, ?_, o2, fun acc rest ha => ?_⟩
  · unfold writeExt
    rw [intOf_headerInt hext, ok_bind, toU_of_nat_lt (n := 1) (by omega), o1]
  · obtain ⟨h, e⟩ := o3 acc rest
    refine ⟨h, ?_, e.2⟩
    unfold readExt
    rw [intOf_headerInt (.inl ha), ok_bind, Int.toNat_natCast]
    exact e.1

/-- Example maps: two blocks with integer, double and single precision fields. -/
def extExampleMap : ExtMap :=
  [[⟨0, "LINE", .u24⟩, ⟨3, "DEPTH", .i16⟩, ⟨8, "X", .ieeeDouble⟩], [⟨28, "GAIN", .ieeeSingle⟩]]

/-- Example header for it. -/
def extExampleHdr : Header :=
  [("TR_HDR_EXT", .int 2), ("LINE", .int 70000), ("DEPTH", .int (-12)),
   ("X", .dbl (dyadic 1234567 4)), ("GAIN", .dbl (sglToDbl 0x3f800000))]

example (est : LogEst) : ∃ out, writeExt est 52 2 extExampleMap extExampleHdr = .ok out ∧ out.length = 64 ∧
    ∀ acc rest, acc.get "TR_HDR_EXT" = some (.int (2 : Nat)) →
      ∃ h, readExt 2 extExampleMap acc (out ++ rest) = .ok (h, rest) ∧
        (∀ f ∈ (extExampleMap.take 2).flatten, ∃ v w, extExampleHdr.get f.name = some v ∧
          h.get f.name = some w ∧ ExtBack f.ty v w) ∧
        ∀ k, k ∉ (extExampleMap.take 2).flatten.map (·.name) → h.get k = acc.get k := by
  refine C53_roundtrip_partial est 52 (by decide) 2 extExampleMap extExampleHdr 2 (.inl rfl)
    (by decide) (by decide) (by decide) (by decide) (by decide) (by decide) ?_
  intro fs hfs f hf
  simp only [extExampleMap, List.take, List.mem_cons, List.not_mem_nil, or_false] at hfs
  rcases hfs with rfl | rfl
  · simp only [List.mem_cons, List.not_mem_nil, or_false] at hf
    rcases hf with rfl | rfl | rfl
    · exact ⟨70000, rfl⟩
    · exact ⟨-12, rfl⟩
    · exact ⟨_, rfl, trivial⟩
  · simp only [List.mem_cons, List.not_mem_nil, or_false] at hf
    subst hf
    obtain ⟨w, r, bs, h⟩ := C11_single_exact est .be 0x3f800000 (by decide)
    exact ⟨_, rfl, w, r, bs, h⟩

/-- Without a map the first block is the standard one of revision 2 and the others are zero: line
and point numbers (24 bits and 16 bits of fraction), point index, number of samples and sensor type
are returned. Same proviso about the buffer. -/
theorem C53_standard_partial (est : LogEst) (room : Nat) (hroom : 32 ≤ room) (hdr : Header)
    (n line point idx samp sensor : Nat) (hext : headerInt hdr "TR_HDR_EXT" n) (h8 : n < 256)
    (h0 : 0 < n)
    (h1 : headerFix16 hdr "R_LINE" line) (h2 : headerFix16 hdr "R_POINT" point)
    (h3 : headerInt hdr "R_POINT_IDX" idx) (h4 : headerInt hdr "SAMP_NUM" samp)
    (h5 : headerInt hdr "SENSOR_TYPE" sensor) (l1 : line < 2 ^ 40) (l2 : point < 2 ^ 40)
    (l3 : idx < 2 ^ 8) (l4 : samp < 2 ^ 24) (l5 : sensor < 2 ^ 8) :
    ∃ out, writeExt est room 2 [] hdr = .ok out ∧ out.length = 32 * n ∧
      ∀ acc rest, acc.get "TR_HDR_EXT" = some (.int n) →
        ∃ h, readExt 2 [] acc (out ++ rest) = .ok (h, rest) ∧
          h.get "R_LINE" = some (fix16Back line) ∧ h.get "R_POINT" = some (fix16Back point) ∧
          h.get "R_POINT_IDX" = some (.int idx) ∧ h.get "SAMP_NUM" = some (.int samp) ∧
          h.get "SENSOR_TYPE" = some (.int sensor) ∧
          ∀ k, k ∉ ["R_LINE", "R_POINT", "R_POINT_IDX", "SAMP_NUM", "SENSOR_TYPE"] →
            h.get k = acc.get k := by
  obtain ⟨n, rfl⟩ : ∃ k, n = k + 1 := ⟨n - 1, by omega⟩
  obtain ⟨z1, z2⟩ := ext_zero_loop est hroom 2 hdr n 1 (by decide)
  have hw := wrExtStd_eq h1 h2 h3 h4 h5 (by omega) (by omega)
  have hl := extStdBytes_length line point idx samp sensor
  refine ⟨extStdBytes line point idx samp sensor ++ List.replicate (32 * n) 0, ?_, ?_,
    fun acc rest ha => ?_⟩
  · unfold writeExt
    rw [intOf_headerInt hext, ok_bind, toU_of_nat_lt (n := 1) (by omega)]
    unfold writeExtLoop writeExtBlock
    rw [if_pos hroom, List.isEmpty_nil, if_pos rfl, if_pos rfl, hw, ok_bind, z1, ok_bind]
    rfl
  · rw [List.length_append, hl, List.length_replicate]; omega
  · obtain ⟨h, r, e1, e2⟩ := rdExtStd_eq acc line point idx samp sensor l1 l2
    rw [Nat.mod_eq_of_lt l3, Nat.mod_eq_of_lt l4, Nat.mod_eq_of_lt l5] at e2
    refine ⟨h, ?_, e2⟩
    unfold readExt
    rw [intOf_headerInt (.inl ha), ok_bind, Int.toNat_natCast]
    unfold readExtLoop
    rw [List.append_assoc, rdFile_append hl, ok_bind]
    simp only [readExtBlock, List.isEmpty_nil, if_true, e1, ok_bind, pure_eq_ok]
    exact z2 h rest

example (est : LogEst) : ∃ out, writeExt est 52 2 [] [("TR_HDR_EXT", .int 1), ("SAMP_NUM", .int 4001),
      ("R_LINE", .dbl (dyadic 131073 16)), ("R_POINT", .int 17)] = .ok out ∧ out.length = 32 * 1 ∧
      ∀ acc rest, acc.get "TR_HDR_EXT" = some (.int (1 : Nat)) →
        ∃ h, readExt 2 [] acc (out ++ rest) = .ok (h, rest) ∧
          h.get "R_LINE" = some (fix16Back 131073) ∧ h.get "R_POINT" = some (fix16Back (17 * 2 ^ 16)) ∧
          h.get "R_POINT_IDX" = some (.int (0 : Nat)) ∧ h.get "SAMP_NUM" = some (.int (4001 : Nat)) ∧
          h.get "SENSOR_TYPE" = some (.int (0 : Nat)) ∧
          ∀ k, k ∉ ["R_LINE", "R_POINT", "R_POINT_IDX", "SAMP_NUM", "SENSOR_TYPE"] →
            h.get k = acc.get k :=
  C53_standard_partial est 52 (by decide) _ 1 131073 (17 * 2 ^ 16) 0 4001 0 (.inl rfl) (by decide)
    (by decide) (.inl rfl) (.inr (.inl ⟨17, rfl, rfl⟩)) (.inr ⟨rfl, rfl⟩) (.inl rfl) (.inr ⟨rfl, rfl⟩)
    (by decide) (by decide) (by decide) (by decide) (by decide)

/-- A map field the trace header does not contain makes the writer throw. -/
theorem C53_missing_key (est : LogEst) (room : Nat) (hroom : 32 ≤ room) (rev : Int)
    (f : HField) (fs : List HField) (m : ExtMap) (hdr : Header) (n : Int)
    (hext : headerInt hdr "TR_HDR_EXT" n) (h0 : n % 256 ≠ 0) (hg : hdr.get f.name = none) :
    writeExt est room rev ((f :: fs) :: m) hdr = .error (.exn .missingExtKey) := by
  unfold writeExt
  rw [intOf_headerInt hext, ok_bind]
  obtain ⟨k, hk⟩ : ∃ k, toU 1 n = k + 1 := ⟨toU 1 n - 1, by unfold toU; omega⟩
  rw [hk]
  unfold writeExtLoop writeExtBlock
  rw [if_pos hroom]
  simp only [List.isEmpty_cons, Bool.false_eq_true, if_false, List.getElem?_cons_zero, writeExtFields, hg]
  rfl

example (est : LogEst) : writeExt est 52 2 extExampleMap [("TR_HDR_EXT", .int 2)]
    = .error (.exn .missingExtKey) :=
  C53_missing_key est 52 (by decide) 2 ⟨0, "LINE", .u24⟩ _ _ _ 2 (.inl rfl) (by decide) rfl

/-- More announced blocks than maps: the vector of maps is indexed out of bounds, when writing and
when reading. -/
theorem C53_more_blocks_than_maps (est : LogEst) :
    writeExt est 52 2 [[⟨0, "LINE", .u24⟩]] [("TR_HDR_EXT", .int 2), ("LINE", .int 1)]
      = .error (.ub .outOfBounds) ∧
    readExt 2 [[⟨0, "LINE", .u24⟩]] [("TR_HDR_EXT", .int 2)] (List.replicate 64 0)
      = .error (.ub .outOfBounds) := ⟨by rfl, by decide +kernel⟩

/-- An unsigned 64-bit field is not read from its place but from the beginning of the block. -/
theorem C53_u64_misread :
    (writeExt (.strict fun _ => 0) 52 2 [[⟨0, "A", .u8⟩, ⟨8, "B", .u64⟩]]
        [("TR_HDR_EXT", .int 1), ("A", .int 1), ("B", .int 77)] >>= fun b =>
      (readExt 2 [[⟨0, "A", .u8⟩, ⟨8, "B", .u64⟩]] [("TR_HDR_EXT", .int 1)] b).map
        fun p => (p.1.get "A", p.1.get "B"))
      = .ok (some (.int 1), some (.int (2 ^ 56))) := by decide +kernel

/-- In a revision 3 file without a map a trace number up to 9999 is left out instead of being
skipped, so that everything behind it is read from the wrong place: 4001 samples are read back as
2701393925. -/
theorem C53_rev3_shifted :
    (writeExt (.strict fun _ => 0) 52 3 [] [("TR_HDR_EXT", .int 1), ("SAMP_NUM", .int 4001), ("TRACE_NUMBER", .int 12),
        ("SENSOR_MOVING", .int 4), ("PHYSICAL_UNIT", .int 5)] >>= fun b =>
      (readExt 3 [] [("TR_HDR_EXT", .int 1)] b).map fun p => p.1.get "SAMP_NUM")
      = .ok (some (.int 2701393925)) := by decide +kernel

/-- In a revision 1 file the three index bytes the writer stores are read as number of samples. -/
theorem C53_rev1_indices_misread :
    (writeExt (.strict fun _ => 0) 52 1 [] [("TR_HDR_EXT", .int 1), ("RESHOOT_IDX", .int 1), ("GROUP_IDX", .int 2),
        ("DEPTH_IDX", .int 3)] >>= fun b =>
      (readExt 1 [] [("TR_HDR_EXT", .int 1)] b).map fun p =>
        (p.1.get "SAMP_NUM", p.1.get "RESHOOT_IDX"))
      = .ok (some (.int 66051), none) := by decide +kernel

end Sedaman.Props
