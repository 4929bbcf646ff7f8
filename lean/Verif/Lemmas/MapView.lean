import Verif.Lemmas.Convert
import Verif.Lemmas.Open
import Verif.Spec.MapView

/-! # Lemmas about what a trace header map makes of the bytes of a trace -/

namespace Sedaman

open Spec

/-- A value read is the value of the bytes of the field. -/
theorem readField_value {bo : ByteOrder} {ty : VType} {bs rest : Bytes} {v : Value}
    (h : readField bo ty bs = .ok (v, rest)) : FieldValue bo ty (bs.take ty.size) v := by
  have hint : ∀ (n : Nat) (g : Int → Value), ((do pure (g (← rdInt bo n))) : Rd Value) bs = .ok (v, rest) →
      (bs.take n).length = n ∧ v = g (decInt bo (bs.take n)) := by
    intro n g h
    rw [rd_map_int] at h
    split at h
    · exact ⟨by rw [List.length_take]; omega, ((Prod.mk.inj (Except.ok.inj h)).1).symm⟩
    · cases h
  have hnat : ∀ (n : Nat) (g : Nat → Value), ((do pure (g (← rdNat bo n))) : Rd Value) bs = .ok (v, rest) →
      (bs.take n).length = n ∧ v = g (decNat bo (bs.take n)) := by
    intro n g h
    rw [rd_map_nat] at h
    split at h
    · exact ⟨by rw [List.length_take]; omega, ((Prod.mk.inj (Except.ok.inj h)).1).symm⟩
    · cases h
  have hflt : ∀ (fmt : Int) (n : Nat) (r : ByteOrder → Rd Dbl), fmt ∈ supportedFormats →
      sampleReader fmt = .ok r → bytesPerSample fmt = some n →
      ((do pure (Value.dbl (← r bo))) : Rd Value) bs = .ok (v, rest) →
      (bs.take n).length = n ∧ ∃ x, SampleOf fmt bo (bs.take n) x ∧ v = .dbl x := by
    intro fmt n r hf hr hn h
    obtain ⟨n', r', hn', hr', hsh⟩ := reader_shape hf
    rw [hn] at hn'
    rw [hr] at hr'
    cases hn'
    cases hr'
    obtain ⟨w, hw⟩ := hsh bo
    rw [rd_bind, hw] at h
    split at h
    · rename_i hl
      have hl' : (bs.take n).length = n := by rw [List.length_take]; omega
      refine ⟨hl', w (bs.take n), ⟨r, hr, fun tail => ?_⟩, ?_⟩
      · rw [hw, if_pos (by simp; omega), List.take_left' hl', List.drop_left' hl']
      · rw [ok_bind] at h
        exact ((Prod.mk.inj (Except.ok.inj h)).1).symm
    · cases h
  cases ty <;> simp only [readField, readI8_eq bo, readU8_eq bo, readI16_eq, readU16_eq,
        readI24_eq, readU24_eq, readI32_eq, readU32_eq, readI64_eq, readU64_eq] at h
  case i8 => exact hint 1 _ h
  case i16 => exact hint 2 _ h
  case i24 => exact hint 3 _ h
  case i32 => exact hint 4 _ h
  case i64 => exact hint 8 _ h
  case u8 => exact hnat 1 (fun n => .int n) h
  case u16 => exact hnat 2 (fun n => .int n) h
  case u24 => exact hnat 3 (fun n => .int n) h
  case u32 => exact hnat 4 (fun n => .int n) h
  case u64 =>
    obtain ⟨h1, h2⟩ := hnat 8 (fun n => .int (toS 8 n)) h
    refine ⟨h1, ?_⟩
    rw [h2]
    show Value.int (toS 8 (decNat bo (bs.take 8))) = Value.int (decInt bo (bs.take 8))
    rw [decInt_eq, h1]
  case ibm =>
    obtain ⟨h1, x, h2, h3⟩ := hflt 1 4 _ (by decide) rfl rfl h
    exact ⟨h1, 1, x, rfl, h2, h3⟩
  case ieeeSingle =>
    obtain ⟨h1, x, h2, h3⟩ := hflt 5 4 _ (by decide) rfl rfl h
    exact ⟨h1, 5, x, rfl, h2, h3⟩
  case ieeeDouble =>
    obtain ⟨h1, x, h2, h3⟩ := hflt 6 8 _ (by decide) rfl rfl h
    exact ⟨h1, 6, x, rfl, h2, h3⟩

theorem fieldValue_unique {bo : ByteOrder} {ty : VType} {bs : Bytes} {v w : Value}
    (h : FieldValue bo ty bs v) (h' : FieldValue bo ty bs w) : v = w := by
  obtain ⟨_, h⟩ := h
  obtain ⟨_, h'⟩ := h'
  cases hk : intKind ty with
  | some k =>
    rw [hk] at h h'
    rw [h, h']
  | none =>
    rw [hk] at h h'
    obtain ⟨f, x, h1, ⟨r, h2, h3⟩, rfl⟩ := h
    obtain ⟨f', x', h1', ⟨r', h2', h3'⟩, rfl⟩ := h'
    rw [h1] at h1'
    cases h1'
    rw [h2] at h2'
    cases h2'
    have a := h3 []
    rw [h3' []] at a
    rw [(Prod.mk.inj (Except.ok.inj a)).1]

theorem lastNamed_append (k : String) (a b : List (Nat × HField)) :
    lastNamed k (a ++ b) = (lastNamed k b).or (lastNamed k a) := by
  unfold lastNamed
  rw [List.reverse_append, List.find?_append]

/-- The fields of one block. -/
theorem readFields_values {bo : ByteOrder} {fs : List HField} {buf : Bytes} {acc h : Header} (o : Nat)
    (hr : readFields bo fs buf acc = .ok h) (k : String) :
    match lastNamed k (fs.map fun f => (o + f.off, f)) with
    | some (q, f) => ∃ v, h.get k = some v ∧ q = o + f.off ∧
        FieldValue bo f.ty ((buf.drop f.off).take f.ty.size) v
    | none => h.get k = acc.get k := by
  induction fs generalizing acc with
  | nil =>
    simp only [readFields, Except.ok.injEq] at hr
    subst hr
    rfl
  | cons f t ih =>
    simp only [readFields] at hr
    obtain ⟨v, hv, hr⟩ := bind_ok hr
    have hi := ih hr
    rw [List.map_cons, show ∀ (x : Nat × HField) l, x :: l = [x] ++ l from fun _ _ => rfl, lastNamed_append]
    cases hl : lastNamed k (t.map fun f => (o + f.off, f)) with
    | some p =>
      rw [hl] at hi
      exact hi
    | none =>
      rw [hl] at hi
      simp only at hi
      rw [get_set] at hi
      by_cases hn : f.name = k
      · have : lastNamed k [(o + f.off, f)] = some (o + f.off, f) := by simp [lastNamed, hn]
        rw [this]
        rw [if_pos hn] at hi
        refine ⟨v, hi, rfl, ?_⟩
        unfold readAt at hv
        split at hv
        · obtain ⟨⟨v', rest⟩, h1, h2⟩ := bind_ok hv
          cases h2
          exact readField_value h1
        · cases hv
      · have : lastNamed k [(o + f.off, f)] = none := by simp [lastNamed, hn]
        rw [this]
        rw [if_neg hn] at hi
        exact hi

/-- The fields of the blocks from `i` to `i + n`. -/
def placedFrom (m : HdrMap) (i n : Nat) : List (Nat × HField) :=
  (List.range' i n).flatMap fun i => match m[i]? with
    | some b => b.fields.map fun f => (240 * i + f.off, f)
    | none => []

theorem placed_eq (m : HdrMap) (n : Nat) : placed m n = placedFrom m 0 n := by
  unfold placed placedFrom
  rw [List.range_eq_range']
  rfl

theorem readBlocks_values {bo : ByteOrder} {m : HdrMap} {n i : Nat} {data : Bytes} {base : Nat}
    {acc h : Header} {f' : File} (hr : readBlocks bo m n i ⟨data, base + 240 * i⟩ acc = .ok (h, f'))
    (k : String) :
    match lastNamed k (placedFrom m i n) with
    | some (o, f) => ∃ v, h.get k = some v ∧ FieldValue bo f.ty ((data.drop (base + o)).take f.ty.size) v
    | none => h.get k = acc.get k := by
  induction n generalizing i acc with
  | zero =>
    simp only [readBlocks, Except.ok.injEq, Prod.mk.injEq] at hr
    obtain ⟨rfl, -⟩ := hr
    rfl
  | succ n ih =>
    unfold readBlocks at hr
    have hsplit : placedFrom m i (n + 1) = (match m[i]? with
        | some b => b.fields.map fun f => (240 * i + f.off, f)
        | none => []) ++ placedFrom m (i + 1) n := by
      unfold placedFrom
      rw [List.range'_succ, List.flatMap_cons]
    rw [hsplit, lastNamed_append]
    have hpos : base + 240 * i + 240 = base + 240 * (i + 1) := by ring
    cases hm : m[i]? with
    | some b =>
      rw [hm] at hr
      simp only at hr ⊢
      obtain ⟨⟨buf, f1⟩, h1, hr⟩ := bind_ok hr
      obtain ⟨acc', h2, hr⟩ := bind_ok hr
      obtain ⟨hbuf, hb, hf1⟩ := read_ok h1
      rw [hf1] at hr
      simp only [trHeaderSize] at hr
      rw [hpos] at hr
      have hi := ih hr
      cases hl : lastNamed k (placedFrom m (i + 1) n) with
      | some p =>
        rw [hl] at hi
        exact hi
      | none =>
        rw [hl] at hi
        simp only [Option.none_or] at hi ⊢
        have hv := readFields_values (240 * i) h2 k
        split at hv
        · rename_i q f hq
          obtain ⟨v, g1, g2, g3⟩ := hv
          refine ⟨v, by rw [hi, g1], ?_⟩
          have hlen := g3.1
          have e : ((data.drop (base + q)).take f.ty.size) = ((buf.drop f.off).take f.ty.size) := by
            rw [List.length_take, List.length_drop, hb] at hlen
            simp only [trHeaderSize] at hlen hbuf
            rw [hbuf, List.drop_take, List.drop_drop, List.take_take, g2, Nat.min_eq_left (by omega), ← Nat.add_assoc]
          rw [e]
          exact g3
        · rename_i hq
          rw [hi, hv]
    | none =>
      rw [hm] at hr
      simp only [List.nil_append, lastNamed, List.reverse_nil, List.find?_nil, Option.or_none] at hr ⊢
      have e (f : File) : f.seekCur (trHeaderSize : Nat) = .ok ⟨f.data, f.pos + 240⟩ := seekCur_nat f 240
      rw [e, ok_bind] at hr
      simp only at hr
      rw [hpos] at hr
      exact ih hr

end Sedaman
