import Verif.Lemmas.SegdRewrite
import Verif.Spec.SegdResample
import Verif.Props.SegdCopy
import Verif.Props.SegdLossy

/-!
# C117: replacing the samples of SEG-D traces
-/

namespace Sedaman.Props
open Sedaman Sedaman.Spec

private theorem again_processed {H : Host} {a : OSegdArgs} {ns : List GenHdrN} {ts ts' : List Trace} {f : ISegd} {w : OSegd}
    {fmt : Int} (hr : RecordFits (inFormat fmt a) ns) (hw : openSegdWriter H 0 (inFormat fmt a) = .ok w)
    (hok : (Spec.writeAll H ts w).1 = List.replicate ts.length (.ok ())) (hb : HeadersBack a ns f)
    (hs : List.Forall₂ (SameWritten H a) ts ts') :
    ∃ a' w', RewriteArgs f a.extMap fmt a' ∧ openSegdWriter H 0 a' = .ok w' ∧
      (Spec.writeAll H ts' w').1 = List.replicate ts'.length (.ok ()) ∧
      (Spec.writeAll H ts' w').2.out = (Spec.writeAll H ts w).2.out := by
  have hb' : HeadersBack (inFormat fmt a) ns { f with gh1 := { f.gh1 with formatCode := fmt } } :=
    ⟨by rw [hb.gh1]; rfl, hb.gh2, hb.blocks, hb.chSets, hb.extended, hb.external⟩
  obtain ⟨a', w', c1, c2, c3, c4⟩ := copied hr hw hok hb' (hs.imp fun _ _ h => ⟨h.kept, h.scan, h.chSet, h.ext, h.samples⟩)
  exact ⟨a', w', ⟨c1.gh1, c1.gh2, c1.addHdrs, c1.chSets, c1.extended, c1.external, c1.extMap⟩, c2, c3, c4⟩

private theorem held_processed {H : Host} {a : OSegdArgs} {t : Trace} {n : Nat} {k : Int} {fmt : Int} {xs : List Dbl}
    (h : TraceHeld H a t n k) (hf : fmt ∈ segdByteFormats) (hl : xs.length * segdBits fmt < 2 ^ 32) :
    TraceHeld H (inFormat fmt a) { t with samples := xs } n k :=
  ⟨h.1, hf, hl, h.2.2.2.1, h.2.2.2.2⟩

private theorem processed_maps {a : OSegdArgs} {n : Header → Nat} {R : Trace → List Dbl → List Dbl → Prop}
    (hR : ∀ t xs ys, R t xs ys → ys.length = xs.length) {ts ts' us : List Trace}
    (h : List.Forall₂ (fun t t' => R t t.samples t'.samples ∧
      MapBack a (n t.header) { t with samples := t'.samples } t') ts ts') (hp : List.Forall₂ Processed ts' us) :
    List.Forall₂ (fun t u => u.samples.length = t.samples.length ∧
      MapBack a (n t.header) { t with samples := u.samples } u) ts us := by
  induction h generalizing us with
  | nil => cases hp; exact .nil
  | cons x _ ih =>
    cases hp with
    | cons p ps =>
      refine .cons ⟨p.2.trans (hR _ _ _ x.1), rfl, ?_, ?_, ?_⟩ (ih ps)
      · rw [p.1]; exact x.2.header
      · rw [p.1]; exact x.2.fields
      · rw [p.1]; exact x.2.others

private theorem processed_std {line point idx sensor : Header → Nat} {R : Trace → List Dbl → List Dbl → Prop}
    (hR : ∀ t xs ys, R t xs ys → ys.length = xs.length) {ts ts' us : List Trace}
    (h : List.Forall₂ (fun t t' => R t t.samples t'.samples ∧
      StdBack { t with samples := t'.samples } t' (line t.header) (point t.header) (idx t.header) (sensor t.header)) ts ts')
    (hp : List.Forall₂ Processed ts' us) :
    List.Forall₂ (fun t u => u.samples.length = t.samples.length ∧
      StdBack { t with samples := u.samples } u (line t.header) (point t.header) (idx t.header) (sensor t.header)) ts us := by
  induction h generalizing us with
  | nil => cases hp; exact .nil
  | cons x _ ih =>
    cases hp with
    | cons p ps =>
      refine .cons ⟨p.2.trans (hR _ _ _ x.1), rfl, ?_, ?_, ?_, ?_, ?_, ?_, ?_⟩ (ih ps)
      · rw [p.1]; exact x.2.header
      · rw [p.1]; exact x.2.line
      · rw [p.1]; exact x.2.point
      · rw [p.1]; exact x.2.idx
      · rw [p.1]; exact x.2.sensor
      · rw [p.1, x.2.sampNum, p.2]
      · rw [p.1]; exact x.2.others

/-- **C117 (part), with extension maps.** A file the library wrote under the conditions of C96 is opened and all
its traces are read. A second writer is opened with everything the reader shows, in the same sample format or in another
one, and writes the traces with new samples, as many as each trace had. If the new samples are in the range of the format,
then all of this succeeds, and the new file has the same headers but for the format, the same trace headers, and keeps the
new samples as well as the format can. -/
theorem C117_maps_partial (H : Host) (a : OSegdArgs) (ns : List GenHdrN) (ts : List Trace) (n : Header → Nat)
    (k : Header → Int) (fmt : Int) (hlg : LogOk H.lg) (hroom : 32 ≤ H.room) (hr : RecordFits a ns)
    (hn : ts.length = announced a.chSets) (h64 : ts.length < 2 ^ 64)
    (ht : ∀ t ∈ ts, TraceHeld H a t (n t.header) (k t.header)) (hm : ∀ t ∈ ts, MapFits H a t (n t.header))
    (hk : ∀ t ∈ ts, -800 ≤ k t.header ∧ k t.header ≤ 800)
    (hx : ∀ t ∈ ts, ∀ x ∈ t.samples, ∃ v, dblRat x = some v ∧ InFormat a.gh1.formatCode (k t.header) v)
    (hf : fmt ∈ segdByteFormats) (hl : ∀ t ∈ ts, t.samples.length * segdBits fmt < 2 ^ 32) :
    ∃ w f ts' e, openSegdWriter H 0 a = .ok w ∧ openSegd (Spec.writeAll H ts w).2.out a.extMap = .ok f ∧
      HeadersBack a ns f ∧ readManyD H.pw ts.length f = .ok (ts', e) ∧ e.hasTrace = false ∧ e.hasRecord = false ∧
      List.Forall₂ (fun t t' => List.Forall₂ (SampleLike a.gh1.formatCode (k t.header)) t.samples t'.samples ∧
          MapBack a (n t.header) { t with samples := t'.samples } t') ts ts' ∧
      ∀ us, List.Forall₂ Processed ts' us →
        (∀ (i : Nat) (t u : Trace), ts[i]? = some t → us[i]? = some u → ∀ x ∈ u.samples,
          ∃ v, dblRat x = some v ∧ InFormat fmt (k t.header) v) →
        ∃ a' w' f2 ts2 e2, RewriteArgs f a.extMap fmt a' ∧ openSegdWriter H 0 a' = .ok w' ∧
          (Spec.writeAll H us w').1 = List.replicate us.length (.ok ()) ∧
          openSegd (Spec.writeAll H us w').2.out a.extMap = .ok f2 ∧ HeadersBack (inFormat fmt a) ns f2 ∧
          readManyD H.pw us.length f2 = .ok (ts2, e2) ∧ e2.hasTrace = false ∧ e2.hasRecord = false ∧
          ts2.length = us.length ∧
          ∀ (i : Nat) (t u t2 : Trace), ts[i]? = some t → us[i]? = some u → ts2[i]? = some t2 →
            List.Forall₂ (SampleLike fmt (k t.header)) u.samples t2.samples ∧
            MapBack a (n t.header) { t with samples := t2.samples } t2 := by
  obtain ⟨w, w1, -, f, w3, w4, -, ts', e, w5, w6, w7, w8⟩ :=
    C96_maps_partial H a ns ts (fun t => n t.header) (fun t => k t.header) hlg hroom hr hn h64 ht hm hk hx
  refine ⟨w, f, ts', e, w1, w3, w4, w5, w7, w8, w6, fun us hus hx2 => ?_⟩
  have w6 := processed_maps (R := fun t xs ys => List.Forall₂ (SampleLike a.gh1.formatCode (k t.header)) xs ys)
    (fun _ _ _ h => h.length_eq.symm) w6 hus
  have hlen := withSamples_length w6
  have hlen' : us.length = ts.length := w6.length_eq.symm
  have hfs : fmt ∈ segdFormats := by
    have : ∀ g ∈ segdByteFormats, g ∈ segdFormats := by decide
    exact this fmt hf
  have hr2 := recordFits_format hr hfs
  have hsl : ∀ t t' : Trace, t'.samples.length = t.samples.length →
      t'.samples.length = t.samples.length := fun _ _ h => h
  obtain ⟨v, v1, v2, f2, v3, v4, -, ts2, e2, v5, v6, v7, v8⟩ :=
    C96_maps_partial H (inFormat fmt a) ns (withSamples ts us) (fun t => n t.header) (fun t => k t.header) hlg hroom
      hr2 (by rw [hlen]; exact hn) (by omega)
      (fun u hu => by
        obtain ⟨t, t', h1, h2, rfl⟩ := withSamples_mem w6 hu
        exact held_processed (ht t h1) hf (by rw [hsl t t' h2.1]; exact hl t h1))
      (fun u hu => by
        obtain ⟨t, t', h1, h2, rfl⟩ := withSamples_mem w6 hu
        obtain ⟨m1, m2, m3, m4, m5, m6, m7⟩ := hm t h1
        refine ⟨m1, m2, m3, m4, m5, m6, ?_⟩
        simp only [hsl t t' h2.1]
        exact m7)
      (fun u hu => by
        obtain ⟨t, t', h1, h2, rfl⟩ := withSamples_mem w6 hu
        exact hk t h1)
      (fun u hu => by
        obtain ⟨i, hi⟩ := List.mem_iff_getElem?.1 hu
        have hi1 : i < (withSamples ts us).length := (List.getElem?_eq_some_iff.1 hi).1
        have ha := List.getElem?_eq_getElem (l := ts) (i := i) (by omega)
        have hb := List.getElem?_eq_getElem (l := us) (i := i) (by omega)
        rw [withSamples_get ha hb] at hi
        cases hi
        exact hx2 i ts[i] us[i] ha hb)
  have hs : List.Forall₂ (SameWritten H a) (withSamples ts us) us := withSamples_forall w6 fun t t' h1 h2 => by
    have hh : TraceHeld H a { t with samples := t'.samples } (n t.header) (k t.header) :=
      ⟨(ht t h1).1, (ht t h1).2.1, by simp only [hsl t t' h2.1]; exact (ht t h1).2.2.1, (ht t h1).2.2.2⟩
    have hm' : MapFits H a { t with samples := t'.samples } (n t.header) := by
      obtain ⟨m1, m2, m3, m4, m5, m6, m7⟩ := hm t h1
      refine ⟨m1, m2, m3, m4, m5, m6, ?_⟩
      simp only [hsl t t' h2.1]
      exact m7
    exact sameWritten_maps hh hm' h2.2
  obtain ⟨a', w', c1, c2, c3, c4⟩ := again_processed hr2 v1 v2 w4 hs
  refine ⟨a', w', f2, ts2, e2, c1, c2, c3, by rw [c4]; exact v3, v4, ?_, v7, v8, ?_, ?_⟩
  · rw [hlen', ← hlen]; exact v5
  · rw [hlen', ← hlen]; exact v6.length_eq.symm
  · intro i t t' t2 g1 g2 g3
    obtain ⟨q1, q2⟩ := forall₂_at v6 (withSamples_get g1 g2) g3
    exact ⟨q1, q2.samples, q2.header, q2.fields, q2.others⟩

/-- **C117 (part), with the standard extension block.** The same for files of revision 2 whose traces have the
extension block of the standard. -/
theorem C117_standard_partial (H : Host) (a : OSegdArgs) (ns : List GenHdrN) (ts : List Trace)
    (n line point idx sensor : Header → Nat) (k : Header → Int) (fmt : Int) (hlg : LogOk H.lg) (hroom : 32 ≤ H.room)
    (hr : RecordFits a ns) (hn : ts.length = announced a.chSets) (h64 : ts.length < 2 ^ 64)
    (ht : ∀ t ∈ ts, TraceHeld H a t (n t.header) (k t.header))
    (hm : ∀ t ∈ ts, StdExtFits a t (line t.header) (point t.header) (idx t.header) (sensor t.header))
    (hk : ∀ t ∈ ts, -800 ≤ k t.header ∧ k t.header ≤ 800)
    (hx : ∀ t ∈ ts, ∀ x ∈ t.samples, ∃ v, dblRat x = some v ∧ InFormat a.gh1.formatCode (k t.header) v)
    (hf : fmt ∈ segdByteFormats) (hl : ∀ t ∈ ts, t.samples.length * segdBits fmt < 2 ^ 32) :
    ∃ w f ts' e, openSegdWriter H 0 a = .ok w ∧ openSegd (Spec.writeAll H ts w).2.out a.extMap = .ok f ∧
      HeadersBack a ns f ∧ readManyD H.pw ts.length f = .ok (ts', e) ∧ e.hasTrace = false ∧ e.hasRecord = false ∧
      List.Forall₂ (fun t t' => List.Forall₂ (SampleLike a.gh1.formatCode (k t.header)) t.samples t'.samples ∧
          StdBack { t with samples := t'.samples } t' (line t.header) (point t.header) (idx t.header)
            (sensor t.header)) ts ts' ∧
      ∀ us, List.Forall₂ Processed ts' us →
        (∀ (i : Nat) (t u : Trace), ts[i]? = some t → us[i]? = some u → ∀ x ∈ u.samples,
          ∃ v, dblRat x = some v ∧ InFormat fmt (k t.header) v) →
        ∃ a' w' f2 ts2 e2, RewriteArgs f a.extMap fmt a' ∧ openSegdWriter H 0 a' = .ok w' ∧
          (Spec.writeAll H us w').1 = List.replicate us.length (.ok ()) ∧
          openSegd (Spec.writeAll H us w').2.out a.extMap = .ok f2 ∧ HeadersBack (inFormat fmt a) ns f2 ∧
          readManyD H.pw us.length f2 = .ok (ts2, e2) ∧ e2.hasTrace = false ∧ e2.hasRecord = false ∧
          ts2.length = us.length ∧
          ∀ (i : Nat) (t u t2 : Trace), ts[i]? = some t → us[i]? = some u → ts2[i]? = some t2 →
            List.Forall₂ (SampleLike fmt (k t.header)) u.samples t2.samples ∧
            StdBack { t with samples := t2.samples } t2 (line t.header) (point t.header) (idx t.header)
              (sensor t.header) := by
  obtain ⟨w, w1, -, f, w3, w4, -, ts', e, w5, w6, w7, w8⟩ :=
    C96_standard_partial H a ns ts (fun t => n t.header) (fun t => line t.header) (fun t => point t.header)
      (fun t => idx t.header) (fun t => sensor t.header) (fun t => k t.header) hlg hroom hr hn h64 ht hm hk hx
  refine ⟨w, f, ts', e, w1, w3, w4, w5, w7, w8, w6, fun us hus hx2 => ?_⟩
  have w6 := processed_std (R := fun t xs ys => List.Forall₂ (SampleLike a.gh1.formatCode (k t.header)) xs ys)
    (fun _ _ _ h => h.length_eq.symm) w6 hus
  have hlen := withSamples_length w6
  have hlen' : us.length = ts.length := w6.length_eq.symm
  have hfs : fmt ∈ segdFormats := by
    have : ∀ g ∈ segdByteFormats, g ∈ segdFormats := by decide
    exact this fmt hf
  have hr2 := recordFits_format hr hfs
  have hsl : ∀ t t' : Trace, t'.samples.length = t.samples.length →
      t'.samples.length = t.samples.length := fun _ _ h => h
  have hstd : ∀ t t' : Trace, t ∈ ts → t'.samples.length = t.samples.length →
      StdExtFits a { t with samples := t'.samples } (line t.header) (point t.header) (idx t.header)
        (sensor t.header) := fun t t' h1 h2 => by
    have := hm t h1
    unfold StdExtFits at this ⊢
    simp only [h2]
    exact this
  obtain ⟨v, v1, v2, f2, v3, v4, -, ts2, e2, v5, v6, v7, v8⟩ :=
    C96_standard_partial H (inFormat fmt a) ns (withSamples ts us) (fun t => n t.header) (fun t => line t.header)
      (fun t => point t.header) (fun t => idx t.header) (fun t => sensor t.header) (fun t => k t.header) hlg hroom
      hr2 (by rw [hlen]; exact hn) (by omega)
      (fun u hu => by
        obtain ⟨t, t', h1, h2, rfl⟩ := withSamples_mem w6 hu
        exact held_processed (ht t h1) hf (by rw [hsl t t' h2.1]; exact hl t h1))
      (fun u hu => by
        obtain ⟨t, t', h1, h2, rfl⟩ := withSamples_mem w6 hu
        exact hstd t t' h1 (hsl t t' h2.1))
      (fun u hu => by
        obtain ⟨t, t', h1, h2, rfl⟩ := withSamples_mem w6 hu
        exact hk t h1)
      (fun u hu => by
        obtain ⟨i, hi⟩ := List.mem_iff_getElem?.1 hu
        have hi1 : i < (withSamples ts us).length := (List.getElem?_eq_some_iff.1 hi).1
        have ha := List.getElem?_eq_getElem (l := ts) (i := i) (by omega)
        have hb := List.getElem?_eq_getElem (l := us) (i := i) (by omega)
        rw [withSamples_get ha hb] at hi
        cases hi
        exact hx2 i ts[i] us[i] ha hb)
  have hs : List.Forall₂ (SameWritten H a) (withSamples ts us) us := withSamples_forall w6 fun t t' h1 h2 => by
    have hh : TraceHeld H a { t with samples := t'.samples } (n t.header) (k t.header) :=
      ⟨(ht t h1).1, (ht t h1).2.1, by simp only [hsl t t' h2.1]; exact (ht t h1).2.2.1, (ht t h1).2.2.2⟩
    exact sameWritten_std hh (hstd t t' h1 (hsl t t' h2.1)) h2.2
  obtain ⟨a', w', c1, c2, c3, c4⟩ := again_processed hr2 v1 v2 w4 hs
  refine ⟨a', w', f2, ts2, e2, c1, c2, c3, by rw [c4]; exact v3, v4, ?_, v7, v8, ?_, ?_⟩
  · rw [hlen', ← hlen]; exact v5
  · rw [hlen', ← hlen]; exact v6.length_eq.symm
  · intro i t t' t2 g1 g2 g3
    exact forall₂_at v6 (withSamples_get g1 g2) g3


/-- In a single precision file with the standard extension all samples are replaced by 3. -/
example : ∃ w f ts' e, openSegdWriter hostExample 0 segdArgsExample = .ok w ∧
    openSegd (Spec.writeAll hostExample [segdThirdTrace, segdThirdTrace] w).2.out [] = .ok f ∧
    readManyD hostExample.pw 2 f = .ok (ts', e) ∧
    ∃ us a' w' f2 ts2 e2, us = ts'.map (fun t => { t with samples := List.replicate 2 (dblOfInt 3) }) ∧
      RewriteArgs f [] 8058 a' ∧ openSegdWriter hostExample 0 a' = .ok w' ∧
      openSegd (Spec.writeAll hostExample us w').2.out [] = .ok f2 ∧
      readManyD hostExample.pw us.length f2 = .ok (ts2, e2) ∧ ts2.length = us.length ∧
      ∀ (i : Nat) (u t2 : Trace), us[i]? = some u → ts2[i]? = some t2 →
        List.Forall₂ (SampleLike 8058 0) u.samples t2.samples := by
  obtain ⟨w, f, ts', e, h1, h2, -, h4, -, -, h7, h8⟩ :=
    C117_standard_partial hostExample segdArgsExample [ghNExample] [segdThirdTrace, segdThirdTrace]
    (fun _ => 1) (fun _ => 0) (fun _ => 0) (fun _ => 0) (fun _ => 0) (fun _ => 0) 8058 floorLog_ok (by decide)
    (recordFitsExample []) rfl (by decide) (fun t ht => by
      have : t = segdThirdTrace := by simpa using ht
      subst this
      exact ⟨⟨12, 1, 1, 1, 0, 0, 0, 0, [{ chSetExample with numberOfChannels := 2 }],
        { chSetExample with numberOfChannels := 2 },
        by constructor <;> first | exact .inl rfl | exact .inr ⟨rfl, rfl⟩ | rfl,
        by decide, by decide, by decide, by decide, by decide, by decide, by decide, by decide, by decide, rfl,
        by decide, rfl, by decide +kernel⟩, (by decide : segdArgsExample.gh1.formatCode ∈ segdByteFormats),
        (by decide : 2 * segdBits segdArgsExample.gh1.formatCode < 2 ^ 32), by decide, by decide⟩)
    (fun t ht => by
      have : t = segdThirdTrace := by simpa using ht
      subst this
      exact ⟨rfl, rfl, .inr (.inr ⟨rfl, rfl⟩), .inr (.inr ⟨rfl, rfl⟩), .inr ⟨rfl, rfl⟩, .inr ⟨rfl, rfl⟩,
        .inl rfl, by decide, by decide, by decide, by decide, by decide⟩)
    (fun _ _ => by decide)
    (fun t ht => by
      have : t = segdThirdTrace := by simpa using ht
      subst this
      intro x hx
      simp only [segdThirdTrace, List.mem_cons, List.not_mem_nil, or_false] at hx
      rcases hx with rfl | rfl
      · refine ⟨_, third_value, ?_⟩
        show InFormat 8058 0 _
        have := tiny_le
        unfold InFormat
        refine ⟨.inr (this.trans ?_), .inr ?_, ?_⟩ <;> norm_num [abs_of_pos]
      · refine ⟨_, dblRat_ofInt (by decide), ?_⟩
        show InFormat 8058 0 _
        have := tiny_le
        unfold InFormat
        refine ⟨.inr (this.trans ?_), .inr ?_, ?_⟩ <;> norm_num [abs_of_pos])
    (by decide) (fun t ht => by
      have : t = segdThirdTrace := by simpa using ht
      subst this
      decide)
  obtain ⟨a', w', f2, ts2, e2, g1, g2, g3, g4, g5, g6, -, -, g9, g10⟩ :=
    h8 (ts'.map fun t => { t with samples := List.replicate 2 (dblOfInt 3) })
      (by
        rw [List.forall₂_map_right_iff]
        have hl : ∀ t' ∈ ts', t'.samples.length = 2 := fun t' ht' => by
          obtain ⟨i, hi⟩ := List.mem_iff_getElem?.1 ht'
          have hi1 : i < 2 := by
            have := (List.getElem?_eq_some_iff.1 hi).1
            rw [← h7.length_eq] at this
            exact this
          have hl := List.getElem?_eq_getElem (l := [segdThirdTrace, segdThirdTrace]) (i := i) hi1
          have he : [segdThirdTrace, segdThirdTrace][i] = segdThirdTrace :=
            (List.mem_replicate (n := 2)).1 (List.getElem_mem hi1) |>.2
          rw [he] at hl
          exact (forall₂_at h7 hl hi).1.length_eq.symm
        exact List.forall₂_same.2 fun t' ht' => ⟨rfl, by rw [hl t' ht']; rfl⟩)
      (fun i t u q1 q2 x hx => by
        rw [List.getElem?_map, Option.map_eq_some_iff] at q2
        obtain ⟨t', -, rfl⟩ := q2
        have : x = dblOfInt 3 := (List.mem_replicate.1 hx).2
        subst this
        refine ⟨_, dblRat_ofInt (by decide), ?_⟩
        show InFormat 8058 0 _
        have := tiny_le
        unfold InFormat
        refine ⟨.inr (this.trans ?_), .inr ?_, ?_⟩ <;> norm_num [abs_of_pos])
  refine ⟨w, f, ts', e, h1, h2, h4, _, a', w', f2, ts2, e2, rfl, g1, g2, g4, g6, g9, fun i u t2 q1 q2 => ?_⟩
  have hi : i < 2 := by
    have := (List.getElem?_eq_some_iff.1 q1).1
    rw [List.length_map, ← h7.length_eq] at this
    exact this
  have hl := List.getElem?_eq_getElem (l := [segdThirdTrace, segdThirdTrace]) (i := i) hi
  exact (g10 i _ u t2 hl q1 q2).1

/-- **C117 fails for fewer samples than the trace had.** The traces of a file, read and written with one sample instead of
two: all calls return, but the first trace comes back with a second sample made of the header of the next trace, and
reading the next trace is undefined. -/
theorem C117_fewer_samples :
    ((segdRun segdArgsExample segdTraceExample segdTraceExample).bind fun (t, _) =>
      (segdRun segdArgsExample { t with samples := [dblOfInt 3] } { t with samples := [dblOfInt 3] }).map fun (u, r) =>
        (u.samples, r.map fun (v, _) => v.samples)) =
      .ok ([dblOfInt 3, 0x37E2010100000000], isUb .outOfBounds) := by
  decide +kernel

/-- **C117 fails for more samples than the trace had.** Of three samples instead of two the first two come back, and
reading the next trace is undefined. -/
theorem C117_more_samples :
    ((segdRun segdArgsExample segdTraceExample segdTraceExample).bind fun (t, _) =>
      (segdRun segdArgsExample { t with samples := [dblOfInt 3, dblOfInt 4, dblOfInt 6] }
        { t with samples := [dblOfInt 3, dblOfInt 4, dblOfInt 6] }).map fun (u, r) =>
          (u.samples, r.map fun (v, _) => v.samples)) =
      .ok ([dblOfInt 3, dblOfInt 4], isUb .outOfBounds) := by
  decide +kernel

end Sedaman.Props
