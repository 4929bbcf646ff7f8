import Verif.Lemmas.SegdDisk
import Verif.Props.SegdE2E
import Verif.Spec.SegdFail

/-!
# C87: SEG-D programs that are stopped while they write
-/

namespace Sedaman.Props

open Spec

/-- From round trips of the single traces to a file that was cut. -/
theorem segd_file_cut {H : Host} {a : OSegdArgs} {ns : List GenHdrN} {ts : List Trace}
    {R : Trace → Trace → Prop} (hlg : LogOk H.lg) (hr : RecordFits a ns)
    (hn : ts.length ≤ announced a.chSets) (h64 : announced a.chSets < 2 ^ 64)
    (hts : ∀ t ∈ ts, ∃ bytes, Writable H a t bytes ∧ ∀ (s : ISegd) (rest : Bytes),
      InRecord a s → Ahead s (bytes ++ rest) →
      ∃ t' p, R t t' ∧ readTraceBody H.pw s = .ok (t', s.at p) ∧ Ahead (s.at p) rest) :
    ∃ w, openSegdWriter H 0 a = .ok w ∧
      (Spec.writeAll H ts w).1 = List.replicate ts.length (.ok ()) ∧ ∀ k,
      (w.out.length ≤ k → RescuedD H a ns w ((Spec.writeAll H ts w).2.out.take k) R ts k) ∧
      (k < w.out.length →
        openSegd ((Spec.writeAll H ts w).2.out.take k) a.extMap = throwExn .iosFailure ∨
        0 < a.gh1.skewBlocks ∧ a.extended = [] ∧ a.external = [] ∧
          OnlyHeadersD H a ns ((Spec.writeAll H ts w).2.out.take k)) := by
  obtain ⟨w, hw, hf⟩ := headers_rt hlg hr
  obtain ⟨bytes, hbw, hbr⟩ := traces_cut ts hts
  have sizes : ∀ n, n ≤ ts.length →
      (Spec.writeAll H (ts.take n) w).1 = List.replicate (ts.take n).length (.ok ()) ∧
      (Spec.writeAll H (ts.take n) w).2.out = w.out ++ (bytes.take n).flatten := fun n hn' =>
    C51_all_accepted_partial H a w (ts.take n) (bytes.take n) hw h64
      (by rw [List.length_take]; omega) (List.forall₂_take n hbw)
  obtain ⟨e1, e2⟩ := C51_all_accepted_partial H a w ts bytes hw h64 hn hbw
  refine ⟨w, hw, e1, fun k => ⟨fun hk => ?_, fun hk => ?_⟩⟩
  · rw [e2, List.take_append, List.take_of_length_le hk]
    obtain ⟨f, g1, g2, g3, g4, g5, g6, g7⟩ := hf a.extMap (bytes.flatten.take (k - w.out.length))
    have hmin : bytes.flatten.take (k - w.out.length)
        = bytes.flatten.take (min (k - w.out.length) bytes.flatten.length) := by
      rw [← List.take_take, List.take_length]
    have g7' := g7
    rw [hmin] at g7'
    obtain ⟨n, back, e, k1, k2, k3, k4, k5, k6, k7, k8⟩ := hbr f _ ⟨g2.gh1, g4, g3, g2.chSets⟩ g7'
      (Nat.min_le_right _ _) (by rw [g6, g5]; omega)
    refine ⟨ts.take n, ts.drop n, (List.take_append_drop n ts).symm, ?_, fun t rest ht => ?_,
      f, back, e, g1, g2, k5, k4, ?_, k7, k8⟩
    · unfold handedOverD
      rw [(sizes n k1).2, List.length_append]
      omega
    · have hlt : n < ts.length := by
        have := congrArg List.length ht
        rw [List.length_drop, List.length_cons] at this
        omega
      have hnext : ts.take n ++ [t] = ts.take (n + 1) := by
        rw [List.take_succ_eq_append_getElem hlt]
        have := List.drop_eq_getElem_cons hlt
        rw [ht] at this
        rw [(List.cons.inj this).1]
      have hj := k3 hlt
      have hle : (bytes.take (n + 1)).flatten.length ≤ bytes.flatten.length := by
        conv => rhs; rw [← List.take_append_drop (n + 1) bytes]
        rw [List.flatten_append, List.length_append]
        omega
      unfold handedOverD
      rw [hnext, (sizes (n + 1) hlt).2, List.length_append]
      omega
    · rw [k6, g6, g5, List.length_take, Nat.zero_add, Nat.min_eq_left k1]
  · rw [e2, List.take_append_of_le_length (by omega)]
    obtain ⟨f, g1, g2, g3, g4, g5, g6, pre, g7⟩ := hf a.extMap []
    rw [List.append_nil] at g1
    have hdata : f.file.data = w.out := (readHeaders_ok g1).1
    have hp : f.file.pos = w.out.length := by
      rw [← hdata, g7]
      simp
    have hg2 : f.gh2 = shownGh2 a.gh2 := by
      have := g2.gh2
      unfold ISegd.generalHeader2 at this
      split at this
      · exact Option.some.inj this
      · cases this
    have ht := hr.typed
    have hskew : a.gh1.skewBlocks % 100 = a.gh1.skewBlocks := congrArg GenHdr1.skewBlocks hr.stored
    have hk0 : f.skewBlks = a.gh1.skewBlocks.toNat := by
      unfold ISegd.skewBlks
      have := ht.skewBlocks
      rw [g2.gh1, if_neg (by omega)]
      unfold toU
      omega
    have hk1 : f.extendedBlks = a.extended.length := by
      have h1 := hr.extended
      have h2 := ht.extendedHdrBlocks
      unfold ISegd.extendedBlks
      rw [g2.gh1, hg2]
      by_cases hc : a.gh1.extendedHdrBlocks = 165
      · rw [if_pos hc] at h1 ⊢
        change a.gh2.extendedHdrBlocks = _
        omega
      · rw [if_neg hc] at h1 ⊢; unfold toU; omega
    have hk2 : f.externalBlks = a.external.length := by
      have h1 := hr.external
      have h2 := ht.externalHdrBlocks
      unfold ISegd.externalBlks
      rw [g2.gh1, hg2]
      by_cases hc : a.gh1.externalHdrBlocks = 165
      · rw [if_pos hc] at h1 ⊢
        change a.gh2.externalHdrBlocks = _
        omega
      · rw [if_neg hc] at h1 ⊢; unfold toU; omega
    obtain ⟨c1, c2⟩ := headers_cut k g1
    have c1 : openSegd (w.out.take k) a.extMap = .ok (f.on (w.out.take k)) ∨
      openSegd (w.out.take k) a.extMap = throwExn .iosFailure := c1
    have c2 : k < f.file.pos → f.skewBlks = 0 ∨ f.extendedBlks ≠ 0 ∨ f.externalBlks ≠ 0 →
      openSegd (w.out.take k) a.extMap = throwExn .iosFailure := c2
    rcases c1 with c1 | c1
    · refine .inr ?_
      by_cases hc : f.skewBlks = 0 ∨ f.extendedBlks ≠ 0 ∨ f.externalBlks ≠ 0
      · rw [c2 (by omega) hc] at c1
        cases c1
      · rw [hk0, hk1, hk2] at hc
        refine ⟨by omega, List.length_eq_zero_iff.1 (by omega), List.length_eq_zero_iff.1 (by omega),
          f.on (w.out.take k), c1, ⟨g2.gh1, g2.gh2, g2.blocks, g2.chSets, g2.extended, g2.external⟩, ?_, fun _ => ?_⟩
        · change decide (f.chansIn ≠ f.chansRead) = _
          rw [g5, g6]
          exact decide_eq_decide.2 ⟨fun h => by omega, fun h => by omega⟩
        · refine body_end ?_
          change (w.out.take k).length < f.file.pos + 20
          rw [List.length_take]
          omega
    · exact .inl c1

/-- **C87, with extension maps.** A program opens a writer and gives it traces, not more than the channel sets
announce; it is stopped when the operating system has got `k` bytes, whatever `k` is. If the headers are
complete, the file opens, shows the headers and gives exactly the traces whose bytes are complete; after
them `has_trace()` is true just when fewer than announced came, and `read_trace()` throws. If a part of the
headers is missing, the file does not open, or the missing part consists of skew blocks that nothing but
traces would follow: then the file opens, shows the headers, and `read_trace()` throws.
Missing: what `C59_maps_partial` leaves out, and calls of `write_trace` that throw. -/
theorem C87_maps_partial (H : Host) (a : OSegdArgs) (ns : List GenHdrN) (ts : List Trace) (n : Trace → Nat)
    (hlg : LogOk H.lg) (hroom : 32 ≤ H.room) (hr : RecordFits a ns)
    (hn : ts.length ≤ announced a.chSets) (h64 : announced a.chSets < 2 ^ 64)
    (ht : ∀ t ∈ ts, TraceFits H a t (n t)) (hm : ∀ t ∈ ts, MapFits H a t (n t)) :
    ∃ w, openSegdWriter H 0 a = .ok w ∧
      (Spec.writeAll H ts w).1 = List.replicate ts.length (.ok ()) ∧ ∀ k,
      (w.out.length ≤ k → RescuedD H a ns w ((Spec.writeAll H ts w).2.out.take k)
        (fun t t' => MapBack a (n t) t t') ts k) ∧
      (k < w.out.length →
        openSegd ((Spec.writeAll H ts w).2.out.take k) a.extMap = throwExn .iosFailure ∨
        0 < a.gh1.skewBlocks ∧ a.extended = [] ∧ a.external = [] ∧
          OnlyHeadersD H a ns ((Spec.writeAll H ts w).2.out.take k)) :=
  segd_file_cut hlg hr hn h64 fun t hmem => map_trace_rt hroom (ht t hmem) (hm t hmem)

/-- **C87, with the standard extension block.** The same for files of revision 2 whose traces have the
extension block of the standard.
Missing: as for `C87_maps_partial`, and files of revision 1. -/
theorem C87_standard_partial (H : Host) (a : OSegdArgs) (ns : List GenHdrN) (ts : List Trace)
    (n line point idx sensor : Trace → Nat)
    (hlg : LogOk H.lg) (hroom : 32 ≤ H.room) (hr : RecordFits a ns)
    (hn : ts.length ≤ announced a.chSets) (h64 : announced a.chSets < 2 ^ 64)
    (ht : ∀ t ∈ ts, TraceFits H a t (n t))
    (hm : ∀ t ∈ ts, StdExtFits a t (line t) (point t) (idx t) (sensor t)) :
    ∃ w, openSegdWriter H 0 a = .ok w ∧
      (Spec.writeAll H ts w).1 = List.replicate ts.length (.ok ()) ∧ ∀ k,
      (w.out.length ≤ k → RescuedD H a ns w ((Spec.writeAll H ts w).2.out.take k)
        (fun t t' => StdBack t t' (line t) (point t) (idx t) (sensor t)) ts k) ∧
      (k < w.out.length →
        openSegd ((Spec.writeAll H ts w).2.out.take k) a.extMap = throwExn .iosFailure ∨
        0 < a.gh1.skewBlocks ∧ a.extended = [] ∧ a.external = [] ∧
          OnlyHeadersD H a ns ((Spec.writeAll H ts w).2.out.take k)) :=
  segd_file_cut hlg hr hn h64 fun t hmem => std_trace_rt hroom (ht t hmem) (hm t hmem)

/-- Two traces are announced. The program is stopped in the middle of the second, after the first, or in the
headers. -/
example : ∃ w, openSegdWriter hostExample 0 segdArgsExample = .ok w ∧
    (Spec.writeAll hostExample [segdTraceExample, segdTraceExample] w).1 = [.ok (), .ok ()] ∧ ∀ k,
    (w.out.length ≤ k → RescuedD hostExample segdArgsExample [ghNExample] w
      ((Spec.writeAll hostExample [segdTraceExample, segdTraceExample] w).2.out.take k)
      (fun t t' => StdBack t t' 0 0 0 0) [segdTraceExample, segdTraceExample] k) ∧
    (k < w.out.length →
      openSegd ((Spec.writeAll hostExample [segdTraceExample, segdTraceExample] w).2.out.take k) []
        = throwExn .iosFailure) := by
  obtain ⟨w, h1, h2, h3⟩ := C87_standard_partial hostExample segdArgsExample [ghNExample]
    [segdTraceExample, segdTraceExample]
    (fun _ => 1) (fun _ => 0) (fun _ => 0) (fun _ => 0) (fun _ => 0) floorLog_ok (by decide)
    (recordFitsExample []) (by decide) (by decide)
    (by
      intro t ht
      have : t = segdTraceExample := by simpa using ht
      subst this
      exact traceFitsExample [] _
        (by constructor <;> first | exact .inl rfl | exact .inr ⟨rfl, rfl⟩ | rfl))
    (by
      intro t ht
      have : t = segdTraceExample := by simpa using ht
      subst this
      exact ⟨rfl, rfl, .inr (.inr ⟨rfl, rfl⟩), .inr (.inr ⟨rfl, rfl⟩), .inr ⟨rfl, rfl⟩, .inr ⟨rfl, rfl⟩,
        .inl rfl, by decide, by decide, by decide, by decide, by decide⟩)
  exact ⟨w, h1, h2, fun k => ⟨(h3 k).1, fun hk => ((h3 k).2 hk).resolve_right fun h => absurd h.2.1 (by decide)⟩⟩

/-- The same with extension maps. -/
example : ∃ w, openSegdWriter hostExample 0 { segdArgsExample with extMap := segdMapExample } = .ok w ∧
    ∀ k, w.out.length ≤ k → RescuedD hostExample { segdArgsExample with extMap := segdMapExample } [ghNExample] w
      ((Spec.writeAll hostExample [segdMapTrace] w).2.out.take k)
      (fun t t' => MapBack { segdArgsExample with extMap := segdMapExample } 1 t t') [segdMapTrace] k := by
  obtain ⟨w, h1, -, h3⟩ := C87_maps_partial hostExample { segdArgsExample with extMap := segdMapExample }
    [ghNExample] [segdMapTrace] (fun _ => 1) floorLog_ok (by decide)
    (recordFitsExample _) (by decide) (by decide)
    (by
      intro t ht
      have : t = segdMapTrace := by simpa using ht
      subst this
      exact traceFitsExample _ _
        (by constructor <;> first | exact .inl rfl | exact .inr ⟨rfl, rfl⟩ | rfl))
    (by
      intro t ht
      have : t = segdMapTrace := by simpa using ht
      subst this
      refine ⟨by decide, by decide, by decide, by decide, by decide, ?_,
        ⟨⟨3, "SAMP_NUM", .u24⟩, by decide, .u24, rfl, rfl, by decide, rfl⟩⟩
      intro fs hfs f hf
      simp only [segdMapExample, List.take, List.mem_cons, List.not_mem_nil, or_false] at hfs
      subst hfs
      simp only [List.mem_cons, List.not_mem_nil, or_false] at hf
      rcases hf with rfl | rfl
      · exact ⟨2, rfl⟩
      · exact ⟨-1200, rfl⟩)
  exact ⟨w, h1, fun k => (h3 k).1⟩

/-- Write two traces, keep the first `k` bytes, open that file, and read: the number of samples of each trace
that comes, and how reading ends. -/
def segdStopped (a : OSegdArgs) (k : Nat) : Out (List Nat × Bool × Option Err) := do
  let w ← openSegdWriter hostExample 0 a
  let s ← openSegd ((Spec.writeAll hostExample [segdTraceExample, segdTraceExample] w).2.out.take k) a.extMap
  let (ts, e) := takesD hostExample.pw s 3
  pure (ts.map (·.samples.length), s.hasTrace, e)

/-- Stopped after the first trace, in the middle of the second, at the end. -/
example : [316, 350, 376].map (segdStopped segdArgsExample) =
    [.ok ([2], true, some (.exn .iosFailure)), .ok ([2], true, some (.exn .iosFailure)),
     .ok ([2, 2], true, none)] := by decide +kernel

/-- **C87, counterexample.** A file whose headers end with skew blocks opens although these blocks, the last 64
of 192 bytes, are missing on disk. -/
theorem C87_skew_missing :
    (do let w ← openSegdWriter hostExample 0 { segdArgsExample with
          gh1 := { segdArgsExample.gh1 with skewBlocks := 2, extendedHdrBlocks := 0, externalHdrBlocks := 0 }
          extended := [], external := [] }
        let s ← openSegd (w.out.take 128) []
        pure (w.out.length, s.hasTrace, (readTraceD hostExample.pw s).map fun _ => ()))
    = .ok (192, true, throwExn .iosFailure) := by decide +kernel

end Sedaman.Props
