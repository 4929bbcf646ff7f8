import Verif.Lemmas.SegdRewrite
import Verif.Props.SegdCopy
import Verif.Props.SegdLossy

/-!
# C112: SEG-D files in another sample format
-/

namespace Sedaman.Props
open Sedaman Sedaman.Spec

private theorem rewritten {H : Host} {a : OSegdArgs} {ns : List GenHdrN} {ts ts' : List Trace} {f : ISegd} {w : OSegd}
    {fmt : Int} (hr : RecordFits (inFormat fmt a) ns) (hw : openSegdWriter H 0 (inFormat fmt a) = .ok w)
    (hok : (Spec.writeAll H ts w).1 = List.replicate ts.length (.ok ())) (hb : HeadersBack a ns f)
    (hs : List.Forall₂ (SameWritten H a) ts ts') :
    ∃ a' w', RewriteArgs f a.extMap fmt a' ∧ openSegdWriter H 0 a' = .ok w' ∧
      (Spec.writeAll H ts' w').1 = List.replicate ts'.length (.ok ()) ∧
      (Spec.writeAll H ts' w').2.out = (Spec.writeAll H ts w).2.out := by
  have hb' : HeadersBack (inFormat fmt a) ns { f with gh1 := { f.gh1 with formatCode := fmt } } :=
    ⟨by rw [hb.gh1]; rfl, hb.gh2, hb.blocks, hb.chSets, hb.extended, hb.external⟩
  obtain ⟨a', w', c1, c2, c3, c4⟩ := copied hr hw hok hb' (hs.imp fun _ _ h => ⟨h.kept, h.scan, h.chSet, h.ext, h.samples⟩)
  exact ⟨a', w', ⟨c1.gh1, c1.gh2, c1.addHdrs, c1.chSets, c1.extended, c1.external, c1.extMap⟩, c2, c3, c4⟩

private theorem held_format {H : Host} {a : OSegdArgs} {t : Trace} {n : Nat} {k : Int} {fmt : Int} {xs : List Dbl}
    (h : TraceHeld H a t n k) (hf : fmt ∈ segdByteFormats) (hl : xs.length * segdBits fmt < 2 ^ 32) :
    TraceHeld H (inFormat fmt a) { t with samples := xs } n k :=
  ⟨h.1, hf, hl, h.2.2.2.1, h.2.2.2.2⟩

/-- **C112 (part), with extension maps.** A file the library wrote under the conditions of C96 is opened and all
its traces are read. A second writer is opened with everything the reader shows, but with another sample format,
and writes the traces that were read. If the samples that were read are in the range of the new format, then all
of this succeeds, and the new file has the same headers but for the format, the same trace headers, and keeps the
samples as well as the new format can. -/
theorem C112_maps_partial (H : Host) (a : OSegdArgs) (ns : List GenHdrN) (ts : List Trace) (n : Header → Nat)
    (k : Header → Int) (fmt : Int) (hlg : LogOk H.lg) (hroom : 32 ≤ H.room) (hr : RecordFits a ns)
    (hn : ts.length = announced a.chSets) (h64 : ts.length < 2 ^ 64)
    (ht : ∀ t ∈ ts, TraceHeld H a t (n t.header) (k t.header)) (hm : ∀ t ∈ ts, MapFits H a t (n t.header))
    (hk : ∀ t ∈ ts, -800 ≤ k t.header ∧ k t.header ≤ 800)
    (hx : ∀ t ∈ ts, ∀ x ∈ t.samples, ∃ v, dblRat x = some v ∧ InFormat a.gh1.formatCode (k t.header) v)
    (hf : fmt ∈ segdByteFormats) (hl : ∀ t ∈ ts, t.samples.length * segdBits fmt < 2 ^ 32) :
    ∃ w f ts' e, openSegdWriter H 0 a = .ok w ∧ openSegd (Spec.writeAll H ts w).2.out a.extMap = .ok f ∧
      HeadersBack a ns f ∧ readManyD H.pw ts.length f = .ok (ts', e) ∧ e.hasTrace = false ∧ e.hasRecord = false ∧
      List.Forall₂ (fun t t' => List.Forall₂ (SampleLike a.gh1.formatCode (k t.header)) t.samples t'.samples ∧
          MapBack a (n t.header) { t with samples := t'.samples } t') ts ts' ∧
      ((∀ (i : Nat) (t t' : Trace), ts[i]? = some t → ts'[i]? = some t' → ∀ x ∈ t'.samples,
          ∃ v, dblRat x = some v ∧ InFormat fmt (k t.header) v) →
        ∃ a' w' f2 ts2 e2, RewriteArgs f a.extMap fmt a' ∧ openSegdWriter H 0 a' = .ok w' ∧
          (Spec.writeAll H ts' w').1 = List.replicate ts'.length (.ok ()) ∧
          openSegd (Spec.writeAll H ts' w').2.out a.extMap = .ok f2 ∧ HeadersBack (inFormat fmt a) ns f2 ∧
          readManyD H.pw ts'.length f2 = .ok (ts2, e2) ∧ e2.hasTrace = false ∧ e2.hasRecord = false ∧
          ts2.length = ts'.length ∧
          ∀ (i : Nat) (t t' t2 : Trace), ts[i]? = some t → ts'[i]? = some t' → ts2[i]? = some t2 →
            List.Forall₂ (SampleLike fmt (k t.header)) t'.samples t2.samples ∧
            MapBack a (n t.header) { t with samples := t2.samples } t2) := by
  obtain ⟨w, w1, -, f, w3, w4, -, ts', e, w5, w6, w7, w8⟩ :=
    C96_maps_partial H a ns ts (fun t => n t.header) (fun t => k t.header) hlg hroom hr hn h64 ht hm hk hx
  refine ⟨w, f, ts', e, w1, w3, w4, w5, w7, w8, w6, fun hx2 => ?_⟩
  have hlen := withSamples_length w6
  have hlen' : ts'.length = ts.length := w6.length_eq.symm
  have hfs : fmt ∈ segdFormats := by
    have : ∀ g ∈ segdByteFormats, g ∈ segdFormats := by decide
    exact this fmt hf
  have hr2 := recordFits_format hr hfs
  have hsl : ∀ t t' : Trace, List.Forall₂ (SampleLike a.gh1.formatCode (k t.header)) t.samples t'.samples →
      t'.samples.length = t.samples.length := fun t t' h => h.length_eq.symm
  obtain ⟨v, v1, v2, f2, v3, v4, -, ts2, e2, v5, v6, v7, v8⟩ :=
    C96_maps_partial H (inFormat fmt a) ns (withSamples ts ts') (fun t => n t.header) (fun t => k t.header) hlg hroom
      hr2 (by rw [hlen]; exact hn) (by omega)
      (fun u hu => by
        obtain ⟨t, t', h1, h2, rfl⟩ := withSamples_mem w6 hu
        exact held_format (ht t h1) hf (by rw [hsl t t' h2.1]; exact hl t h1))
      (fun u hu => by
        obtain ⟨t, t', h1, h2, rfl⟩ := withSamples_mem w6 hu
        obtain ⟨m1, m2, m3, m4, m5, m6, m7⟩ := hm t h1
        refine ⟨m1, m2, m3, m4, m5, m6, ?_⟩
        simp only [hsl t t' h2.1]
        exact m7)
      (fun u hu => by
        obtain ⟨t, t', h1, h2, rfl⟩ := withSamples_mem w6 hu
        exact hk t h1)
      (fun u hu => by
        obtain ⟨i, hi⟩ := List.mem_iff_getElem?.1 hu
        have hi1 : i < (withSamples ts ts').length := (List.getElem?_eq_some_iff.1 hi).1
        have ha := List.getElem?_eq_getElem (l := ts) (i := i) (by omega)
        have hb := List.getElem?_eq_getElem (l := ts') (i := i) (by omega)
        rw [withSamples_get ha hb] at hi
        cases hi
        exact hx2 i ts[i] ts'[i] ha hb)
  have hs : List.Forall₂ (SameWritten H a) (withSamples ts ts') ts' := withSamples_forall w6 fun t t' h1 h2 => by
    have hh : TraceHeld H a { t with samples := t'.samples } (n t.header) (k t.header) :=
      ⟨(ht t h1).1, (ht t h1).2.1, by simp only [hsl t t' h2.1]; exact (ht t h1).2.2.1, (ht t h1).2.2.2⟩
    have hm' : MapFits H a { t with samples := t'.samples } (n t.header) := by
      obtain ⟨m1, m2, m3, m4, m5, m6, m7⟩ := hm t h1
      refine ⟨m1, m2, m3, m4, m5, m6, ?_⟩
      simp only [hsl t t' h2.1]
      exact m7
    exact sameWritten_maps hh hm' h2.2
  obtain ⟨a', w', c1, c2, c3, c4⟩ := rewritten hr2 v1 v2 w4 hs
  refine ⟨a', w', f2, ts2, e2, c1, c2, c3, by rw [c4]; exact v3, v4, ?_, v7, v8, ?_, ?_⟩
  · rw [hlen', ← hlen]; exact v5
  · rw [hlen', ← hlen]; exact v6.length_eq.symm
  · intro i t t' t2 g1 g2 g3
    obtain ⟨q1, q2⟩ := forall₂_at v6 (withSamples_get g1 g2) g3
    exact ⟨q1, q2.samples, q2.header, q2.fields, q2.others⟩

/-- **C112 (part), with the standard extension block.** The same for files of revision 2 whose traces have the
extension block of the standard. -/
theorem C112_standard_partial (H : Host) (a : OSegdArgs) (ns : List GenHdrN) (ts : List Trace)
    (n line point idx sensor : Header → Nat) (k : Header → Int) (fmt : Int) (hlg : LogOk H.lg) (hroom : 32 ≤ H.room)
    (hr : RecordFits a ns) (hn : ts.length = announced a.chSets) (h64 : ts.length < 2 ^ 64)
    (ht : ∀ t ∈ ts, TraceHeld H a t (n t.header) (k t.header))
    (hm : ∀ t ∈ ts, StdExtFits a t (line t.header) (point t.header) (idx t.header) (sensor t.header))
    (hk : ∀ t ∈ ts, -800 ≤ k t.header ∧ k t.header ≤ 800)
    (hx : ∀ t ∈ ts, ∀ x ∈ t.samples, ∃ v, dblRat x = some v ∧ InFormat a.gh1.formatCode (k t.header) v)
    (hf : fmt ∈ segdByteFormats) (hl : ∀ t ∈ ts, t.samples.length * segdBits fmt < 2 ^ 32) :
    ∃ w f ts' e, openSegdWriter H 0 a = .ok w ∧ openSegd (Spec.writeAll H ts w).2.out a.extMap = .ok f ∧
      HeadersBack a ns f ∧ readManyD H.pw ts.length f = .ok (ts', e) ∧ e.hasTrace = false ∧ e.hasRecord = false ∧
      List.Forall₂ (fun t t' => List.Forall₂ (SampleLike a.gh1.formatCode (k t.header)) t.samples t'.samples ∧
          StdBack { t with samples := t'.samples } t' (line t.header) (point t.header) (idx t.header)
            (sensor t.header)) ts ts' ∧
      ((∀ (i : Nat) (t t' : Trace), ts[i]? = some t → ts'[i]? = some t' → ∀ x ∈ t'.samples,
          ∃ v, dblRat x = some v ∧ InFormat fmt (k t.header) v) →
        ∃ a' w' f2 ts2 e2, RewriteArgs f a.extMap fmt a' ∧ openSegdWriter H 0 a' = .ok w' ∧
          (Spec.writeAll H ts' w').1 = List.replicate ts'.length (.ok ()) ∧
          openSegd (Spec.writeAll H ts' w').2.out a.extMap = .ok f2 ∧ HeadersBack (inFormat fmt a) ns f2 ∧
          readManyD H.pw ts'.length f2 = .ok (ts2, e2) ∧ e2.hasTrace = false ∧ e2.hasRecord = false ∧
          ts2.length = ts'.length ∧
          ∀ (i : Nat) (t t' t2 : Trace), ts[i]? = some t → ts'[i]? = some t' → ts2[i]? = some t2 →
            List.Forall₂ (SampleLike fmt (k t.header)) t'.samples t2.samples ∧
            StdBack { t with samples := t2.samples } t2 (line t.header) (point t.header) (idx t.header)
              (sensor t.header)) := by
  obtain ⟨w, w1, -, f, w3, w4, -, ts', e, w5, w6, w7, w8⟩ :=
    C96_standard_partial H a ns ts (fun t => n t.header) (fun t => line t.header) (fun t => point t.header)
      (fun t => idx t.header) (fun t => sensor t.header) (fun t => k t.header) hlg hroom hr hn h64 ht hm hk hx
  refine ⟨w, f, ts', e, w1, w3, w4, w5, w7, w8, w6, fun hx2 => ?_⟩
  have hlen := withSamples_length w6
  have hlen' : ts'.length = ts.length := w6.length_eq.symm
  have hfs : fmt ∈ segdFormats := by
    have : ∀ g ∈ segdByteFormats, g ∈ segdFormats := by decide
    exact this fmt hf
  have hr2 := recordFits_format hr hfs
  have hsl : ∀ t t' : Trace, List.Forall₂ (SampleLike a.gh1.formatCode (k t.header)) t.samples t'.samples →
      t'.samples.length = t.samples.length := fun t t' h => h.length_eq.symm
  have hstd : ∀ t t' : Trace, t ∈ ts → t'.samples.length = t.samples.length →
      StdExtFits a { t with samples := t'.samples } (line t.header) (point t.header) (idx t.header)
        (sensor t.header) := fun t t' h1 h2 => by
    have := hm t h1
    unfold StdExtFits at this ⊢
    simp only [h2]
    exact this
  obtain ⟨v, v1, v2, f2, v3, v4, -, ts2, e2, v5, v6, v7, v8⟩ :=
    C96_standard_partial H (inFormat fmt a) ns (withSamples ts ts') (fun t => n t.header) (fun t => line t.header)
      (fun t => point t.header) (fun t => idx t.header) (fun t => sensor t.header) (fun t => k t.header) hlg hroom
      hr2 (by rw [hlen]; exact hn) (by omega)
      (fun u hu => by
        obtain ⟨t, t', h1, h2, rfl⟩ := withSamples_mem w6 hu
        exact held_format (ht t h1) hf (by rw [hsl t t' h2.1]; exact hl t h1))
      (fun u hu => by
        obtain ⟨t, t', h1, h2, rfl⟩ := withSamples_mem w6 hu
        exact hstd t t' h1 (hsl t t' h2.1))
      (fun u hu => by
        obtain ⟨t, t', h1, h2, rfl⟩ := withSamples_mem w6 hu
        exact hk t h1)
      (fun u hu => by
        obtain ⟨i, hi⟩ := List.mem_iff_getElem?.1 hu
        have hi1 : i < (withSamples ts ts').length := (List.getElem?_eq_some_iff.1 hi).1
        have ha := List.getElem?_eq_getElem (l := ts) (i := i) (by omega)
        have hb := List.getElem?_eq_getElem (l := ts') (i := i) (by omega)
        rw [withSamples_get ha hb] at hi
        cases hi
        exact hx2 i ts[i] ts'[i] ha hb)
  have hs : List.Forall₂ (SameWritten H a) (withSamples ts ts') ts' := withSamples_forall w6 fun t t' h1 h2 => by
    have hh : TraceHeld H a { t with samples := t'.samples } (n t.header) (k t.header) :=
      ⟨(ht t h1).1, (ht t h1).2.1, by simp only [hsl t t' h2.1]; exact (ht t h1).2.2.1, (ht t h1).2.2.2⟩
    exact sameWritten_std hh (hstd t t' h1 (hsl t t' h2.1)) h2.2
  obtain ⟨a', w', c1, c2, c3, c4⟩ := rewritten hr2 v1 v2 w4 hs
  refine ⟨a', w', f2, ts2, e2, c1, c2, c3, by rw [c4]; exact v3, v4, ?_, v7, v8, ?_, ?_⟩
  · rw [hlen', ← hlen]; exact v5
  · rw [hlen', ← hlen]; exact v6.length_eq.symm
  · intro i t t' t2 g1 g2 g3
    exact forall₂_at v6 (withSamples_get g1 g2) g3

/-! ## A case -/

private theorem near_bounds {v v' lo hi : ℚ} (h : |v' - v| ≤ |v| / 2 ^ 24) (h1 : lo * 2 ≤ |v|) (h2 : |v| * 2 < hi) :
    lo ≤ |v'| ∧ |v'| < hi := by
  have a1 := abs_sub_abs_le_abs_sub v v'
  have a2 := abs_sub_abs_le_abs_sub v' v
  rw [abs_sub_comm] at a1
  have a3 := abs_nonneg v
  constructor <;> norm_num at h <;> linarith

/-- A single precision file with the standard extension is rewritten with four byte integers. -/
example : ∃ w f ts' e, openSegdWriter hostExample 0 segdArgsExample = .ok w ∧
    openSegd (Spec.writeAll hostExample [segdThirdTrace, segdThirdTrace] w).2.out [] = .ok f ∧
    readManyD hostExample.pw 2 f = .ok (ts', e) ∧
    ∃ a' w' f2 ts2 e2, RewriteArgs f [] 9038 a' ∧ openSegdWriter hostExample 0 a' = .ok w' ∧
      (Spec.writeAll hostExample ts' w').1 = List.replicate ts'.length (.ok ()) ∧
      openSegd (Spec.writeAll hostExample ts' w').2.out [] = .ok f2 ∧
      HeadersBack (inFormat 9038 segdArgsExample) [ghNExample] f2 ∧
      readManyD hostExample.pw ts'.length f2 = .ok (ts2, e2) ∧ ts2.length = 2 ∧
      ∀ (i : Nat) (t' t2 : Trace), ts'[i]? = some t' → ts2[i]? = some t2 →
        List.Forall₂ (SampleLike 9038 0) t'.samples t2.samples := by
  obtain ⟨w, f, ts', e, h1, h2, -, h4, -, -, h7, h8⟩ :=
    C112_standard_partial hostExample segdArgsExample [ghNExample] [segdThirdTrace, segdThirdTrace]
    (fun _ => 1) (fun _ => 0) (fun _ => 0) (fun _ => 0) (fun _ => 0) (fun _ => 0) 9038 floorLog_ok (by decide)
    (recordFitsExample []) rfl (by decide) (fun t ht => by
      have : t = segdThirdTrace := by simpa using ht
      subst this
      exact ⟨⟨12, 1, 1, 1, 0, 0, 0, 0, [{ chSetExample with numberOfChannels := 2 }],
        { chSetExample with numberOfChannels := 2 },
        by constructor <;> first | exact .inl rfl | exact .inr ⟨rfl, rfl⟩ | rfl,
        by decide, by decide, by decide, by decide, by decide, by decide, by decide, by decide, by decide, rfl,
        by decide, rfl, by decide +kernel⟩, (by decide : segdArgsExample.gh1.formatCode ∈ segdByteFormats),
        (by decide : 2 * segdBits segdArgsExample.gh1.formatCode < 2 ^ 32), by decide, by decide⟩)
    (fun t ht => by
      have : t = segdThirdTrace := by simpa using ht
      subst this
      exact ⟨rfl, rfl, .inr (.inr ⟨rfl, rfl⟩), .inr (.inr ⟨rfl, rfl⟩), .inr ⟨rfl, rfl⟩, .inr ⟨rfl, rfl⟩,
        .inl rfl, by decide, by decide, by decide, by decide, by decide⟩)
    (fun _ _ => by decide)
    (fun t ht => by
      have : t = segdThirdTrace := by simpa using ht
      subst this
      intro x hx
      simp only [segdThirdTrace, List.mem_cons, List.not_mem_nil, or_false] at hx
      rcases hx with rfl | rfl
      · refine ⟨_, third_value, ?_⟩
        show InFormat 8058 0 _
        have := tiny_le
        unfold InFormat
        refine ⟨.inr (this.trans ?_), .inr ?_, ?_⟩ <;> norm_num [abs_of_pos]
      · refine ⟨_, dblRat_ofInt (by decide), ?_⟩
        show InFormat 8058 0 _
        have := tiny_le
        unfold InFormat
        refine ⟨.inr (this.trans ?_), .inr ?_, ?_⟩ <;> norm_num [abs_of_pos])
    (by decide) (fun t ht => by
      have : t = segdThirdTrace := by simpa using ht
      subst this
      decide)
  have hin : ∀ (v : ℚ) (x' : Dbl), (2 : ℚ) ^ (-2 : Int) ≤ |v| → |v| < 8 → (∃ v', dblRat x' = some v' ∧
      |v' - v| ≤ |v| / 2 ^ 24) → ∃ v', dblRat x' = some v' ∧ InFormat 9038 0 v' := by
    rintro v x' b1 b2 ⟨v', b3, b4⟩
    obtain ⟨c1, c2⟩ := near_bounds (lo := (2 : ℚ) ^ (-3 : Int)) (hi := 16) b4 (by norm_num at b1 ⊢; linarith)
      (by linarith)
    refine ⟨v', b3, ?_⟩
    have b5 : (2 : ℚ) ^ (-1022 : Int) ≤ 2 ^ (-3 : Int) := zpow_le_zpow_right₀ (by norm_num) (by norm_num)
    unfold InFormat
    refine ⟨.inr ?_, ?_⟩
    · simpa using b5.trans c1
    · show |v' / 2 ^ (0 : Int)| < 2 ^ 31
      norm_num
      linarith
  have hsam : ∀ t t' : Trace, t ∈ [segdThirdTrace, segdThirdTrace] →
      List.Forall₂ (SampleLike 8058 0) t.samples t'.samples →
      ∀ x ∈ t'.samples, ∃ v, dblRat x = some v ∧ InFormat 9038 0 v := by
    intro t t' ht hs
    have : t = segdThirdTrace := by simpa using ht
    subst this
    generalize t'.samples = xs at hs ⊢
    cases hs with
    | cons s1 r1 =>
      cases r1 with
      | cons s2 r2 =>
        cases r2
        intro x hx
        rcases List.mem_cons.1 hx with rfl | hx
        · obtain ⟨v, v', p1, p2, p3⟩ := s1
          rw [third_value] at p1
          cases p1
          exact hin _ _ (by norm_num [abs_of_pos]) (by norm_num [abs_of_pos]) ⟨v', p2, p3⟩
        · rw [List.mem_singleton] at hx
          subst hx
          obtain ⟨v, v', p1, p2, p3⟩ := s2
          rw [dblRat_ofInt (by decide)] at p1
          cases p1
          exact hin _ _ (by norm_num [abs_of_pos]) (by norm_num [abs_of_pos]) ⟨v', p2, p3⟩
  obtain ⟨a', w', f2, ts2, e2, g1, g2, g3, g4, g5, g6, -, -, g9, g10⟩ := h8 fun i t t' q1 q2 =>
    hsam t t' (List.mem_of_getElem? q1) (forall₂_at h7 q1 q2).1
  refine ⟨w, f, ts', e, h1, h2, h4, a', w', f2, ts2, e2, g1, g2, g3, g4, g5, g6, ?_, fun i t' t2 q1 q2 => ?_⟩
  · rw [g9, ← h7.length_eq]; rfl
  · have hi : i < 2 := by
      have := (List.getElem?_eq_some_iff.1 q1).1
      rw [← h7.length_eq] at this
      exact this
    have hl := List.getElem?_eq_getElem (l := [segdThirdTrace, segdThirdTrace]) (i := i) hi
    exact (g10 i _ t' t2 hl q1 q2).1

/-- **C112, counterexample.** A negative sample that a single precision file holds: rewriting the trace with big
endian integers is undefined, although the format has negative numbers. -/
theorem C112_negative_integer :
    ((segdRun segdArgsExample segdTraceExample segdTraceExample).bind fun (t, _) =>
      (openSegdWriter hostExample 0 (inFormat 8038 segdArgsExample)).map fun w =>
        (decide (segdTraceExample.samples = t.samples), (writeTraceD hostExample t w).1)) =
      .ok (true, isUb .floatToInt) := by
  decide +kernel

end Sedaman.Props
