import Verif.Spec.Rewrite
import Verif.Props.Convert
import Verif.Props.MapView
import Verif.Props.ISEGY
import Verif.Lemmas.Transfer

/-!
# Traces of any file, written again
-/

namespace Sedaman

open Spec

theorem placed_one (b : HBlock) (n : Nat) : placed [b] (n + 1) = b.fields.map fun f => (f.off, f) := by
  unfold placed
  rw [List.range_succ_eq_map, List.flatMap_cons]
  refine (congrArg (_ ++ ·) ?_).trans ((List.append_nil _).trans ?_)
  · rw [List.flatMap_eq_nil_iff]
    intro i hi
    simp only [List.mem_map] at hi
    obtain ⟨j, -, rfl⟩ := hi
    simp
  · simp

theorem placed_first {m : HdrMap} {b : HBlock} {bh : BinHeader} (hh : m.head? = some b)
    (ho : m.length = 1 ∧ 0 ≤ bh.maxNumAddTrHeaders ∨ bh.maxNumAddTrHeaders = 0) :
    placed m (headerBlocks bh) = b.fields.map fun f => (f.off, f) := by
  cases m with
  | nil => cases hh
  | cons x m =>
    cases hh
    have e : headerBlocks bh = bh.maxNumAddTrHeaders.toNat + 1 := by unfold headerBlocks; omega
    rcases ho with ⟨h1, h2⟩ | h
    · have : m = [] := by simpa using h1
      subst this
      rw [e, placed_one]
    · rw [e, h]
      simp [placed]

theorem kind_range {k : IntKind} {bo : ByteOrder} {bs : Bytes} (hl : bs.length = k.size) :
    Shown k (if k.signed ∨ k = .u64 then decInt bo bs else decNat bo bs) := by
  unfold Shown
  by_cases h : k = .u64
  · subst h
    rw [if_pos rfl, if_pos (.inr rfl)]
    exact decInt_range .i64 rfl bo bs hl
  · rw [if_neg h]
    by_cases hs : k.signed = true
    · rw [if_pos (.inl hs)]
      exact decInt_range k hs bo bs hl
    · rw [if_neg (by simp [h, hs])]
      exact decNat_range k (by simpa using hs) bo bs hl

theorem reduced_same {k : IntKind} {v r : Int} (h : Reduced k v r) (hv : Shown k v) :
    r = v := by
  obtain ⟨h1, h2⟩ := h
  cases k <;> simp only [Shown, IntKind.InRange, IntKind.signed, IntKind.size, reduceCtorEq, if_true, if_false, Bool.false_eq_true] at h1 h2 hv <;> omega

/-- The value of a field of integer type in a header that was read. -/
structure ReadHeader (fields : List HField) (h : Header) : Prop where
  mapped : ∀ f ∈ fields, ∀ k, intKind f.ty = some k → ∃ v, h.get f.name = some (.int v) ∧
    Shown k v
  other : ∀ n, n ∉ fields.map (·.name) → h.get n = none

theorem kind_size {ty : VType} {k : IntKind} (h : intKind ty = some k) : k.size = ty.size := by
  cases ty <;> simp only [intKind, Option.some.injEq, reduceCtorEq] at h <;> subst h <;> rfl

theorem lastNamed_mem {k : String} {fields : List HField} {p : Nat × HField}
    (h : lastNamed k (fields.map fun f => (f.off, f)) = some p) : p.2 ∈ fields ∧ p.2.name = k := by
  unfold lastNamed at h
  have h1 := List.mem_of_find?_eq_some h
  have h2 := List.find?_some h
  rw [List.mem_reverse, List.mem_map] at h1
  obtain ⟨f, hf, rfl⟩ := h1
  exact ⟨hf, by simpa using h2⟩

theorem last_field {fields : List HField} (hn : (fields.map (·.name)).Nodup) {f : HField} (hf : f ∈ fields) :
    ∃ o, lastNamed f.name (fields.map fun f => (f.off, f)) = some (o, f) := by
  cases hl : lastNamed f.name (fields.map fun f => (f.off, f)) with
  | none =>
    unfold lastNamed at hl
    rw [List.find?_eq_none] at hl
    have := hl (f.off, f) (by rw [List.mem_reverse, List.mem_map]; exact ⟨f, hf, rfl⟩)
    simp at this
  | some p =>
    obtain ⟨o, g⟩ := p
    obtain ⟨g1, g2⟩ := lastNamed_mem hl
    have e : g = f := List.inj_on_of_nodup_map hn g1 hf g2
    exact ⟨o, by rw [e]⟩

theorem read_header_of {r r' : Reader} {t : Trace} {b : HBlock} (hm : r.map.head? = some b)
    (ho : r.map.length = 1 ∧ 0 ≤ r.bh.maxNumAddTrHeaders ∨ r.bh.maxNumAddTrHeaders = 0)
    (hn : (b.fields.map (·.name)).Nodup) (hc : CountMapped r.bh b.fields) (h : readTrace r = .ok (t, r')) :
    ReadHeader b.fields t.header := by
  have hs := Props.C80_trace_header_values r r' t h
  unfold ShowsHeader at hs
  rw [placed_first hm ho] at hs
  constructor
  · intro f hf k hk
    have q := hs f.name
    obtain ⟨o, hl⟩ := last_field hn hf
    rw [hl] at q
    obtain ⟨v, v1, v2, v3⟩ := q
    rw [hk] at v3
    exact ⟨_, v3 ▸ v1, kind_range (by rw [v2, kind_size hk])⟩
  · intro n hn'
    have q := hs n
    cases hl : lastNamed n (b.fields.map fun f => (f.off, f)) with
    | some p =>
      obtain ⟨g1, g2⟩ := lastNamed_mem hl
      exact absurd (List.mem_map.2 ⟨p.2, g1, g2⟩) hn'
    | none =>
      rw [hl] at q
      simp only at q
      rw [q]
      by_cases hf : fixedLength r.bh = true
      · rw [if_pos hf]; rfl
      · rw [if_neg hf]
        have hne : n ≠ "SAMP_NUM" := by
          rintro rfl
          rcases hc with c | c | c
          · exact hf (by unfold fixedLength; simp [c])
          · exact hf (by unfold fixedLength; simp [c])
          · exact hn' c
        rw [List.find?_cons_of_neg (by simpa using Ne.symm hne)]
        rfl

/-- Every trace of a loop over a file. -/
theorem visits_read {data : Bytes} {ub : Option BinHeader} {m : HdrMap} {ts : List Trace} {r : Reader}
    (hr : Reachable data ub m r) (hv : Visits r ts) {t : Trace} (ht : t ∈ ts) :
    ∃ s s', Reachable data ub m s ∧ readTrace s = .ok (t, s') ∧ s.bh = r.bh ∧ s.map = r.map ∧ s.spt = r.spt ∧
      s.bps = r.bps := by
  induction ts generalizing r with
  | nil => cases ht
  | cons u ts ih =>
    obtain ⟨_, ⟨r', h1, h2⟩, _⟩ := hv
    rcases List.mem_cons.mp ht with rfl | ht
    · exact ⟨r, r', hr, h1, rfl, rfl, rfl, rfl⟩
    · obtain ⟨s, s', a1, a2, a3, a4, a5, a6⟩ := ih (.trace hr h1) h2 ht
      obtain ⟨_, _, _, _, _, _, _, _, _, _, e⟩ := readTrace_ok h1
      rw [e] at a3 a4 a5 a6
      exact ⟨s, s', a1, a2, a3, a4, a5, a6⟩

theorem storable_read {est : LogEst} {fmt : Int} {bo : ByteOrder} {fields fields' : List HField} {t : Trace}
    (hf : Holds fields fields') (hh : ReadHeader fields t.header)
    (hs : ∀ x ∈ t.samples, Survives est fmt bo x) (hl : t.samples.length < 2 ^ 60) :
    Storable est fmt bo fields' t := by
  refine ⟨fun g hg => ?_, fun x hx => ⟨x, hs x hx⟩, hl⟩
  obtain ⟨f, hf', hn⟩ := List.mem_map.1 ((hf.names g.name).2 (List.mem_map_of_mem hg))
  obtain ⟨k, k', h1, h2, -⟩ := hf.types f hf' g hg hn.symm
  obtain ⟨v, h3, -⟩ := hh.mapped f hf' k h1
  refine ⟨v, .inl (by rw [← hn]; exact h3), fun c => ?_⟩
  rw [c] at h2
  cases h2

theorem same_back {est : LogEst} {bo : ByteOrder} {fields fields' : List HField} {t back : Trace}
    (hf : Holds fields fields') (hh : ReadHeader fields t.header)
    (hb : HeaderBack est bo fields' t.header back.header) (n : String) : back.header.get n = t.header.get n := by
  obtain ⟨b1, b2, -⟩ := hb
  by_cases hn : n ∈ fields.map (·.name)
  · obtain ⟨f, hf1, rfl⟩ := List.mem_map.1 hn
    obtain ⟨g, hg, e⟩ := List.mem_map.1 ((hf.names f.name).1 hn)
    obtain ⟨k, k', h1, h2, h5⟩ := hf.types f hf1 g hg e
    obtain ⟨v, h3, h4⟩ := hh.mapped f hf1 k h1
    obtain ⟨r, h6, h7⟩ := b2 g hg k' h2 v (.inl (by rw [e]; exact h3))
    rw [e] at h7
    rw [h7, h3, reduced_same h6 (h5 v h4)]
  · rw [hh.other n hn]
    have := mt (b1 n).1 (mt (hf.names n).2 hn)
    by_contra c
    exact this ((get_isSome _ _).1 (Option.isSome_iff_ne_none.2 c))

theorem same_all {est : LogEst} {fmt : Int} {bo : ByteOrder} {fields fields' : List HField} {ts backs : List Trace}
    (hf : Holds fields fields') (hh : ∀ t ∈ ts, ReadHeader fields t.header)
    (hs : ∀ t ∈ ts, ∀ x ∈ t.samples, Survives est fmt bo x)
    (hb : List.Forall₂ (TraceBack est fmt bo fields') ts backs) : List.Forall₂ SameTrace ts backs := by
  induction hb with
  | nil => exact .nil
  | @cons t u ts us h1 h2 ih =>
    refine .cons ⟨?_, same_back hf (hh t List.mem_cons_self) h1.2⟩
      (ih (fun t h => hh t (List.mem_cons_of_mem _ h)) fun t h => hs t (List.mem_cons_of_mem _ h))
    have := Props.C20_exact est fmt bo fields' [t] [u] (.cons h1 .nil) fun t' h => hs t' (by
      rw [List.mem_singleton] at h
      rw [h]
      exact List.mem_cons_self)
    simpa using this

section
variable {data : Bytes} {ub : Option BinHeader} {m : HdrMap} {b : HBlock} {r : Reader} {ts : List Trace}

theorem readOut_trace (h : ReadOut data ub m b r ts) {t : Trace} (ht : t ∈ ts) :
    ∃ s s', Reachable data ub m s ∧ readTrace s = .ok (t, s') ∧ s.bh = r.bh ∧ s.spt = r.spt ∧ s.bps = r.bps ∧
      ReadHeader b.fields t.header := by
  obtain ⟨s, s', a1, a2, a3, a4, a5, a6⟩ := visits_read (.opened h.opened) h.all ht
  have e : r.map = m := (inv_opened h.opened).map
  exact ⟨s, s', a1, a2, a3, a5, a6, read_header_of (by rw [a4, e]; exact h.head) (by rw [a3, a4, e]; exact h.one) h.names
    (by rw [a3]; exact h.count) a2⟩

theorem readOut_small (h : ReadOut data ub m b r ts) {t : Trace} (ht : t ∈ ts) : t.samples.length < 2 ^ 60 := by
  obtain ⟨s, s', a1, a2, a3, a5, a6, -⟩ := readOut_trace h ht
  obtain ⟨h0, n, buf, rd, rest, -, -, h3, -, h5, -⟩ := readTrace_ok a2
  have e := (inv_reachable a1).data
  obtain ⟨b1, b2, -⟩ := read_ok h3
  have hl : n ≤ data.length := by
    rw [← b2, b1, List.length_take, List.length_drop]
    simp only [e]
    omega
  rw [decodeSamples_length h5]
  have := h.size
  exact lt_of_le_of_lt (Nat.div_le_self _ _) (by omega)

theorem readOut_storable (h : ReadOut data ub m b r ts) {fmt : Int} (hk : fmt ∈ keptBy r.bh.formatCode) (est : LogEst)
    (bo : ByteOrder) {fields : List HField} (hf : Holds b.fields fields) {t : Trace} (ht : t ∈ ts) :
    Storable est fmt bo fields t ∧ ∀ x ∈ t.samples, Survives est fmt bo x := by
  obtain ⟨s, s', a1, a2, a3, a5, a6, a7⟩ := readOut_trace h ht
  have hs := Props.C79_traces data ub m s s' t a1 a2 fmt (by rw [a3]; exact hk) est bo
  exact ⟨storable_read hf a7 hs (readOut_small h ht), hs⟩

theorem readOut_same (h : ReadOut data ub m b r ts) {fmt : Int} (hk : fmt ∈ keptBy r.bh.formatCode) {est : LogEst}
    {bo : ByteOrder} {fields : List HField} (hf : Holds b.fields fields) {backs : List Trace}
    (hb : List.Forall₂ (TraceBack est fmt bo fields) ts backs) : List.Forall₂ SameTrace ts backs :=
  same_all hf (fun t ht => by obtain ⟨_, _, _, _, _, _, _, a⟩ := readOut_trace h ht; exact a)
    (fun t ht => (readOut_storable h hk est bo hf ht).2) hb

theorem readOut_count (h : ReadOut data ub m b r ts) (hv : fixedLength r.bh = false) {f : HField} (hf : f ∈ b.fields)
    (hn : f.name = "SAMP_NUM") {k : IntKind} (hk : intKind f.ty = some k) (h4 : k.size ≤ 4) {t : Trace} (ht : t ∈ ts) :
    t.header.get "SAMP_NUM" = some (.int t.samples.length) := by
  obtain ⟨s, s', a1, a2, a3, a5, a6, a7⟩ := readOut_trace h ht
  obtain ⟨h0, n, buf, rd, rest, -, h2, h3, -, h5, -⟩ := readTrace_ok a2
  have hi := inv_reachable a1
  obtain ⟨c1, c2⟩ := sampleBytes_ok hi.buf h2
  rw [if_neg (by rw [a3, hv]; simp)] at c2
  obtain ⟨i, c3, c4⟩ := c2
  have hg : t.header.get "SAMP_NUM" = some (.int i) := by
    unfold sampNum Header.at at c3
    cases hg : h0.get "SAMP_NUM" with
    | none =>
      rw [hg] at c3
      simp only [Except.ok.injEq, Prod.mk.injEq] at c3
      rw [← c3.2, get_set, if_pos rfl, ← c3.1]
    | some v =>
      rw [hg] at c3
      cases v with
      | dbl d => cases c3
      | int j =>
        simp only [Except.ok.injEq, Prod.mk.injEq] at c3
        rw [← c3.2, hg, c3.1]
  obtain ⟨v, v1, v2⟩ := a7.mapped f hf k hk
  rw [hn, hg] at v1
  cases v1
  have hb := bps_small hi.bps
  have hr : -2 ^ 31 ≤ i ∧ i < 2 ^ 32 := by
    cases k <;> simp only [Shown, IntKind.InRange, IntKind.signed, IntKind.size, reduceCtorEq, if_true, if_false,
      Bool.false_eq_true] at v2 h4 <;> omega
  rw [hg, decodeSamples_length h5, c4]
  congr 2
  generalize s.bps = p at hb c1 c4
  have h0 : 0 ≤ i := by
    by_contra c
    have q1 : i * (p : Int) < 0 := Int.mul_neg_of_neg_of_pos (by omega) (by omega)
    have q2 : -2 ^ 31 * 8 ≤ i * (p : Int) := by nlinarith
    rw [c4] at c1
    unfold toU at c1
    norm_num at c1 q2
    omega
  obtain ⟨j, rfl⟩ := Int.eq_ofNat_of_zero_le h0
  have q : (j : Int) * (p : Int) = ((j * p : Nat) : Int) := by push_cast; rfl
  have q3 : j * p < 256 ^ 8 := by
    have : j * p ≤ 2 ^ 32 * 8 := Nat.mul_le_mul (by omega) hb.2
    norm_num
    omega
  rw [q, toU_of_nat_lt q3, Nat.mul_div_cancel _ (by omega)]

theorem readOut_float (h : ReadOut data ub m b r ts) {f : HField} (hf : f ∈ b.fields) (hty : intKind f.ty = none)
    {t : Trace} (ht : t ∈ ts) : IsDbl t.header f.name := by
  obtain ⟨s, s', a1, a2, a3, a4, a5, a6⟩ := visits_read (.opened h.opened) h.all ht
  have e : r.map = m := (inv_opened h.opened).map
  have hs := Props.C80_trace_header_values s s' t a2
  unfold ShowsHeader at hs
  rw [placed_first (by rw [a4, e]; exact h.head) (by rw [a3, a4, e]; exact h.one)] at hs
  have q := hs f.name
  obtain ⟨o, hl⟩ := last_field h.names hf
  rw [hl] at q
  obtain ⟨v, v1, -, v3⟩ := q
  rw [hty] at v3
  obtain ⟨fmt, x, -, -, v4⟩ := v3
  exact ⟨x, v4 ▸ v1⟩

end

end Sedaman
