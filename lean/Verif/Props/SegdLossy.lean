import Verif.Lemmas.SegdLossy
import Verif.Spec.SegdLossy
import Verif.Props.SegdE2E

/-!
# C96: what a SEG-D file keeps of samples its format cannot hold exactly
-/

namespace Sedaman.Props

open Spec

/-- The samples of one trace. -/
theorem samples_kept {H : Host} {a : OSegdArgs} {t : Trace} {n : Nat} {k : Int} (hf : TraceHeld H a t n k)
    (hk : -800 ≤ k ∧ k ≤ 800)
    (hx : ∀ x ∈ t.samples, ∃ v, dblRat x = some v ∧ InFormat a.gh1.formatCode k v) :
    ∃ xs', SamplesGive H a k t.samples xs' ∧
      List.Forall₂ (SampleLike a.gh1.formatCode k) t.samples xs' := by
  refine samples_give hf.2.1 (fun x hm => ?_) hf.2.2.1
  obtain ⟨v, h1, h2⟩ := hx x hm
  exact sample_kept hk.1 hk.2 h1 h2

/-- **C96, with extension maps.** As C59, but for all samples in the range of the format: the file opens and
every trace is returned with its header and its extension; every sample of a double precision file comes back
unchanged, every sample of a single precision file with a relative error of at most `2⁻²⁴`, and every sample of
an integer file as the part in front of the point of its quotient by the descale factor, times this factor.
Missing: negative samples in the big endian integer formats (`C50_negative_undefined`), the little endian format
with three bytes (`C50_i24_le_wrong`), packed formats (`C50_packed_reader`), samples outside the range
(`C96_overflow`, `C96_underflow`, `C96_negative_integer`), and what C59 leaves out. -/
theorem C96_maps_partial (H : Host) (a : OSegdArgs) (ns : List GenHdrN) (ts : List Trace) (n : Trace → Nat)
    (k : Trace → Int) (hlg : LogOk H.lg) (hroom : 32 ≤ H.room) (hr : RecordFits a ns)
    (hn : ts.length = announced a.chSets) (h64 : ts.length < 2 ^ 64)
    (ht : ∀ t ∈ ts, TraceHeld H a t (n t) (k t)) (hm : ∀ t ∈ ts, MapFits H a t (n t))
    (hk : ∀ t ∈ ts, -800 ≤ k t ∧ k t ≤ 800)
    (hx : ∀ t ∈ ts, ∀ x ∈ t.samples, ∃ v, dblRat x = some v ∧ InFormat a.gh1.formatCode (k t) v) :
    ∃ w, openSegdWriter H 0 a = .ok w ∧
      (Spec.writeAll H ts w).1 = List.replicate ts.length (.ok ()) ∧
      ∃ f, openSegd (Spec.writeAll H ts w).2.out a.extMap = .ok f ∧ HeadersBack a ns f ∧
        f.hasTrace = decide (ts ≠ []) ∧
        ∃ ts' e, readManyD H.pw ts.length f = .ok (ts', e) ∧
          List.Forall₂ (fun t t' =>
            List.Forall₂ (SampleLike a.gh1.formatCode (k t)) t.samples t'.samples ∧
            MapBack a (n t) { t with samples := t'.samples } t') ts ts' ∧
          e.hasTrace = false ∧ e.hasRecord = false := by
  refine segd_file_rt hlg hr hn h64 fun t hmem => ?_
  obtain ⟨xs', s1, s2⟩ := samples_kept (ht t hmem) (hk t hmem) (hx t hmem)
  obtain ⟨bytes, b1, b2⟩ := map_trace_rt_of hroom (ht t hmem) s1 (hm t hmem)
  refine ⟨bytes, b1, fun s rest hs ha => ?_⟩
  obtain ⟨t', p, c1, c2, c3⟩ := b2 s rest hs ha
  have he : t'.samples = xs' := c1.samples
  exact ⟨t', p, ⟨by rw [he]; exact s2, by rw [he]; exact c1⟩, c2, c3⟩

/-- **C96, with the standard extension block.** The same for files of revision 2 whose traces have the
extension block of the standard.
Missing: as for `C96_maps_partial`. -/
theorem C96_standard_partial (H : Host) (a : OSegdArgs) (ns : List GenHdrN) (ts : List Trace)
    (n line point idx sensor : Trace → Nat) (k : Trace → Int)
    (hlg : LogOk H.lg) (hroom : 32 ≤ H.room) (hr : RecordFits a ns)
    (hn : ts.length = announced a.chSets) (h64 : ts.length < 2 ^ 64)
    (ht : ∀ t ∈ ts, TraceHeld H a t (n t) (k t))
    (hm : ∀ t ∈ ts, StdExtFits a t (line t) (point t) (idx t) (sensor t))
    (hk : ∀ t ∈ ts, -800 ≤ k t ∧ k t ≤ 800)
    (hx : ∀ t ∈ ts, ∀ x ∈ t.samples, ∃ v, dblRat x = some v ∧ InFormat a.gh1.formatCode (k t) v) :
    ∃ w, openSegdWriter H 0 a = .ok w ∧
      (Spec.writeAll H ts w).1 = List.replicate ts.length (.ok ()) ∧
      ∃ f, openSegd (Spec.writeAll H ts w).2.out a.extMap = .ok f ∧ HeadersBack a ns f ∧
        f.hasTrace = decide (ts ≠ []) ∧
        ∃ ts' e, readManyD H.pw ts.length f = .ok (ts', e) ∧
          List.Forall₂ (fun t t' =>
            List.Forall₂ (SampleLike a.gh1.formatCode (k t)) t.samples t'.samples ∧
            StdBack { t with samples := t'.samples } t' (line t) (point t) (idx t) (sensor t)) ts ts' ∧
          e.hasTrace = false ∧ e.hasRecord = false := by
  refine segd_file_rt hlg hr hn h64 fun t hmem => ?_
  obtain ⟨xs', s1, s2⟩ := samples_kept (ht t hmem) (hk t hmem) (hx t hmem)
  obtain ⟨bytes, b1, b2⟩ := std_trace_rt_of hroom (ht t hmem) s1 s2.length_eq.symm (hm t hmem)
  refine ⟨bytes, b1, fun s rest hs ha => ?_⟩
  obtain ⟨t', p, c1, c2, c3⟩ := b2 s rest hs ha
  have he : t'.samples = xs' := c1.samples
  exact ⟨t', p, ⟨by rw [he]; exact s2, by rw [he]; exact c1⟩, c2, c3⟩

/-! ## Concrete cases -/

/-- The double nearest to one third. -/
def third : Dbl := ddiv (dblOfInt 1) (dblOfInt 3)

/-- A trace that a single precision file does not hold exactly. -/
def segdThirdTrace : Trace := { segdTraceExample with samples := [third, dblOfInt (-5)] }

theorem third_value : dblRat third = some ((6004799503160661 : ℚ) * 2 ^ (-54 : Int)) := by
  have h : Dbl.val third = FVal.fin false 6004799503160661 (-54) := by decide +kernel
  unfold dblRat
  rw [h]
  simp [ratOf]

theorem tiny_le : (2 : ℚ) ^ (-1022 : Int) ≤ 2 ^ (-2 : Int) := zpow_le_zpow_right₀ (by norm_num) (by norm_num)

/-- Two of them in a single precision file with the standard extension. -/
example : ∃ w, openSegdWriter hostExample 0 segdArgsExample = .ok w ∧
    (Spec.writeAll hostExample [segdThirdTrace, segdThirdTrace] w).1 = [.ok (), .ok ()] ∧
    ∃ f, openSegd (Spec.writeAll hostExample [segdThirdTrace, segdThirdTrace] w).2.out [] = .ok f ∧
      HeadersBack segdArgsExample [ghNExample] f ∧ f.hasTrace = true ∧
      ∃ ts' e, readManyD hostExample.pw 2 f = .ok (ts', e) ∧
        List.Forall₂ (fun t t' => List.Forall₂ (SampleLike 8058 0) t.samples t'.samples ∧
            StdBack { t with samples := t'.samples } t' 0 0 0 0) [segdThirdTrace, segdThirdTrace] ts' ∧
        e.hasTrace = false ∧ e.hasRecord = false := by
  refine C96_standard_partial hostExample segdArgsExample [ghNExample] [segdThirdTrace, segdThirdTrace]
    (fun _ => 1) (fun _ => 0) (fun _ => 0) (fun _ => 0) (fun _ => 0) (fun _ => 0) floorLog_ok (by decide)
    (recordFitsExample []) rfl (by decide) (fun t ht => ?_) (fun t ht => ?_) (fun _ _ => by decide)
    (fun t ht => ?_)
  · have : t = segdThirdTrace := by simpa using ht
    subst this
    exact ⟨⟨12, 1, 1, 1, 0, 0, 0, 0, [{ chSetExample with numberOfChannels := 2 }],
      { chSetExample with numberOfChannels := 2 },
      by constructor <;> first | exact .inl rfl | exact .inr ⟨rfl, rfl⟩ | rfl,
      by decide, by decide, by decide, by decide, by decide, by decide, by decide, by decide, by decide, rfl,
      by decide, rfl, by decide +kernel⟩, (by decide : segdArgsExample.gh1.formatCode ∈ segdByteFormats),
      (by decide : 2 * segdBits segdArgsExample.gh1.formatCode < 2 ^ 32), by decide, by decide⟩
  · have : t = segdThirdTrace := by simpa using ht
    subst this
    exact ⟨rfl, rfl, .inr (.inr ⟨rfl, rfl⟩), .inr (.inr ⟨rfl, rfl⟩), .inr ⟨rfl, rfl⟩, .inr ⟨rfl, rfl⟩,
      .inl rfl, by decide, by decide, by decide, by decide, by decide⟩
  · have : t = segdThirdTrace := by simpa using ht
    subst this
    intro x hx
    simp only [segdThirdTrace, List.mem_cons, List.not_mem_nil, or_false] at hx
    rcases hx with rfl | rfl
    · refine ⟨_, third_value, ?_⟩
      show InFormat 8058 0 _
      have := tiny_le
      unfold InFormat
      refine ⟨.inr (this.trans ?_), .inr ?_, ?_⟩ <;> norm_num [abs_of_pos]
    · refine ⟨_, dblRat_ofInt (by decide), ?_⟩
      show InFormat 8058 0 _
      have := tiny_le
      unfold InFormat
      refine ⟨.inr (this.trans ?_), .inr ?_, ?_⟩ <;> norm_num [abs_of_pos]

/-- And what is read is not what was written. -/
example : (segdRun segdArgsExample segdThirdTrace segdThirdTrace).map
    (fun (t, _) => decide (t.samples = segdThirdTrace.samples)) = .ok false := by decide +kernel

/-! ## Samples outside the range -/

/-- **C96, counterexample.** A sample above the range of single precision is written without an error and comes
back as infinity. -/
theorem C96_overflow :
    (segdRun segdArgsExample { segdTraceExample with samples := [pow2 128, dblOfInt 1] } segdTraceExample).map
      (fun (t, _) => decide (t.samples = [0x7FF0000000000000#64, dblOfInt 1])) = .ok true := by
  decide +kernel

/-- **C96, counterexample.** A sample below the range of single precision comes back as zero. -/
theorem C96_underflow :
    (segdRun segdArgsExample { segdTraceExample with samples := [pow2 (-151), dblOfInt 1] } segdTraceExample).map
      (fun (t, _) => decide (t.samples = [0#64, dblOfInt 1])) = .ok true := by
  decide +kernel

/-- The headers of the example for a file with four byte integers. -/
def segdIntArgs : OSegdArgs := { segdArgsExample with gh1 := { segdArgsExample.gh1 with formatCode := 8038 } }

/-- An integer file keeps the part in front of the point. -/
example : (segdRun segdIntArgs { segdTraceExample with samples := [third, ddiv (dblOfInt 22) (dblOfInt 7)] }
      segdTraceExample).map (fun (t, _) => decide (t.samples = [dblOfInt 0, dblOfInt 3])) = .ok true := by
  decide +kernel

/-- **C96, counterexample.** A negative sample in a big endian integer file: writing the trace is undefined. -/
theorem C96_negative_integer :
    (do let w ← openSegdWriter hostExample 0 segdIntArgs
        pure (writeTraceD hostExample segdTraceExample w).1) = .ok (isUb .floatToInt) := by
  decide +kernel

end Sedaman.Props
