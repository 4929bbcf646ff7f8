import Verif.Spec.SegdRewrite
import Verif.Lemmas.SegdCopy

/-!
# Lemmas about SEG-D files in another sample format
-/

namespace Sedaman
open Spec

theorem recordFits_format {a : OSegdArgs} {ns : List GenHdrN} (h : RecordFits a ns) {fmt : Int}
    (hf : fmt ∈ segdFormats) : RecordFits (inFormat fmt a) ns := by
  have hr : ∀ g ∈ segdFormats, 0 ≤ g ∧ g < 2 ^ 31 ∧ g % 10 ^ 4 = g := by decide
  obtain ⟨r1, r2, r3⟩ := hr fmt hf
  obtain ⟨h1, h2, h3, h4, -, h6, h7, h8, h9, h10, h11, h12, h13, h14, h15, h16, h17, h18⟩ := h
  refine ⟨?_, h2, h3, ?_, hf, h6, h7, h8, h9, h10, h11, h12, h13, h14, h15, h16, h17, h18⟩
  · exact ⟨h1.1, ⟨r1, r2⟩, h1.3, h1.4, h1.5, h1.6, h1.7, h1.8, h1.9, h1.10, h1.11, h1.12, h1.13, h1.14, h1.15, h1.16,
      h1.17, h1.18, h1.19, h1.20⟩
  · have e : genHdr1Stored (inFormat fmt a).gh1 (inFormat fmt a).gh2.extRecordLen =
        { genHdr1Stored a.gh1 a.gh2.extRecordLen with formatCode := fmt % 10 ^ 4 } := rfl
    rw [e, h4, r3]
    rfl

theorem numbers_held {H : Host} {a : OSegdArgs} {t : Trace} {n : Nat} {k : Int} (h : TraceHeld H a t n k) :
    (∃ v, t.header.get "SCAN_TYPE_NUM" = some v) ∧ (∃ v, t.header.get "CH_SET_NUM" = some v) ∧
      ∀ k, intOf t.header "TR_HDR_EXT" = .ok k → toU 1 k = n := by
  obtain ⟨⟨_, scan, _, _, _, _, _, _, _, _, hc, _, _, _, _, _, _, _, _, h1, _⟩, _, _, _, h8⟩ := h
  refine ⟨?_, ⟨_, hc.chSet⟩, fun k hk => ?_⟩
  · rcases hc.scan with h | ⟨-, h⟩
    · exact ⟨_, h⟩
    · omega
  · rw [intOf_headerInt hc.ext] at hk
    rw [← Except.ok.inj hk, toU_of_nat_lt (n := 1) (by omega)]

theorem sameWritten_maps {H : Host} {a : OSegdArgs} {t t' : Trace} {n : Nat} {k : Int} (h : TraceHeld H a t n k)
    (hm : MapFits H a t n) (hx : MapBack a n t t') : SameWritten H a t t' := by
  obtain ⟨q1, q2, q3⟩ := numbers_held h
  refine ⟨hx.header, q1, q2, fun k hk j hj => ?_, hx.samples⟩
  rw [q3 k hk] at hj
  have hlen := hm.enough
  have hget : a.extMap[j]? = some a.extMap[j] := List.getElem?_eq_getElem (by omega)
  unfold writeExtBlock
  rw [hget]
  simp only
  have hfs : ∀ g ∈ a.extMap[j], ∃ v w, t.header.get g.name = some v ∧ t'.header.get g.name = some w ∧
      ExtBack g.ty v w := fun g hg =>
    hx.fields g (List.mem_flatten.2 ⟨a.extMap[j], List.mem_take_iff_getElem.2 ⟨j, by omega, rfl⟩, hg⟩)
  have hne : a.extMap.isEmpty = false := by
    cases h : a.extMap with
    | nil => simp [h] at hget
    | cons _ _ => rfl
  simp only [hne, Bool.false_eq_true, if_false, extFields_back _ hfs]

theorem sameWritten_std {H : Host} {a : OSegdArgs} {t t' : Trace} {n : Nat} {k : Int} (h : TraceHeld H a t n k)
    {line point idx sensor : Nat} (hm : StdExtFits a t line point idx sensor)
    (hx : StdBack t t' line point idx sensor) : SameWritten H a t t' := by
  obtain ⟨q1, q2, -⟩ := numbers_held h
  obtain ⟨m1, m2, m3, m4, m5, m6, m7, m8, m9, -⟩ := hm
  refine ⟨hx.header, q1, q2, fun k hk j hj => ?_, hx.samples⟩
  rw [m1, m2]
  exact extBlock_std j m3 m4 m5 m7 m6 m8 m9 hx.line hx.point hx.idx hx.sampNum hx.sensor

/-- The traces with the samples of others. -/
def withSamples (ts ts' : List Trace) : List Trace :=
  List.zipWith (fun t t' => { t with samples := t'.samples }) ts ts'

theorem withSamples_forall {R S : Trace → Trace → Prop} {ts ts' : List Trace} (h : List.Forall₂ R ts ts')
    (hs : ∀ t t', t ∈ ts → R t t' → S { t with samples := t'.samples } t') :
    List.Forall₂ S (withSamples ts ts') ts' := by
  induction h with
  | nil => exact .nil
  | cons a _ ih => exact .cons (hs _ _ (by simp) a) (ih fun t t' ht => hs t t' (by simp [ht]))

theorem withSamples_mem {R : Trace → Trace → Prop} {ts ts' : List Trace} (h : List.Forall₂ R ts ts') {u : Trace}
    (hu : u ∈ withSamples ts ts') : ∃ t t', t ∈ ts ∧ R t t' ∧ u = { t with samples := t'.samples } := by
  induction h with
  | nil => cases hu
  | cons a _ ih =>
    rcases List.mem_cons.1 hu with rfl | hu
    · exact ⟨_, _, by simp, a, rfl⟩
    · obtain ⟨t, t', h1, h2, h3⟩ := ih hu
      exact ⟨t, t', by simp [h1], h2, h3⟩

theorem withSamples_length {R : Trace → Trace → Prop} {ts ts' : List Trace} (h : List.Forall₂ R ts ts') :
    (withSamples ts ts').length = ts.length := by
  unfold withSamples
  rw [List.length_zipWith, h.length_eq, Nat.min_self]

theorem withSamples_get {ts ts' : List Trace} {i : Nat} {t t' : Trace} (h1 : ts[i]? = some t) (h2 : ts'[i]? = some t') :
    (withSamples ts ts')[i]? = some { t with samples := t'.samples } := by
  unfold withSamples
  rw [List.getElem?_zipWith, h1, h2]

theorem forall₂_at {α β : Type} {R : α → β → Prop} {xs : List α} {ys : List β} (h : List.Forall₂ R xs ys) {i : Nat}
    {x : α} {y : β} (h1 : xs[i]? = some x) (h2 : ys[i]? = some y) : R x y := by
  induction h generalizing i with
  | nil => simp at h1
  | cons a _ ih =>
    cases i with
    | zero => simp at h1 h2; subst h1; subst h2; exact a
    | succ i => simp at h1 h2; exact ih h1 h2

end Sedaman
