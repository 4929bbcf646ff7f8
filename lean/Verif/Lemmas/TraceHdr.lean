import Verif.Spec.TraceHdr
import Verif.Lemmas.BinHeader

/-!
# Lemmas about trace header blocks
-/

namespace Sedaman

open Spec

theorem writeAt_ok {buf bs out : Bytes} {off : Nat} (h : writeAt buf off bs = .ok out) :
    off + bs.length ≤ buf.length ∧ out = buf.take off ++ bs ++ buf.drop (off + bs.length) := by
  unfold writeAt at h
  split at h
  · rename_i hl
    exact ⟨hl, (Except.ok.inj h).symm⟩
  · cases h

theorem writeAt_of_le {buf bs : Bytes} {off : Nat} (h : off + bs.length ≤ buf.length) :
    writeAt buf off bs = .ok (buf.take off ++ bs ++ buf.drop (off + bs.length)) := if_pos h

theorem writeAt_length {buf bs out : Bytes} {off : Nat} (h : writeAt buf off bs = .ok out) :
    out.length = buf.length := by
  obtain ⟨hl, rfl⟩ := writeAt_ok h
  simp; omega

theorem writeAt_slice {buf bs out : Bytes} {off : Nat} (h : writeAt buf off bs = .ok out) :
    (out.drop off).take bs.length = bs := by
  obtain ⟨hl, rfl⟩ := writeAt_ok h
  have e : (buf.take off).length = off := by simp; omega
  rw [List.append_assoc]
  conv_lhs => rw [← e]
  rw [List.length_take, Nat.min_eq_left (by omega : off ≤ buf.length)]
  rw [List.drop_append_of_le_length (by omega), List.drop_take]
  simp

theorem writeAt_get_out {buf bs out : Bytes} {off : Nat} (h : writeAt buf off bs = .ok out) (i : Nat)
    (hi : i < off ∨ off + bs.length ≤ i) : out[i]? = buf[i]? := by
  obtain ⟨hl, rfl⟩ := writeAt_ok h
  have e : (buf.take off).length = off := by simp; omega
  rcases hi with hi | hi
  · rw [List.append_assoc, List.getElem?_append_left (by omega), List.getElem?_take, if_pos hi]
  · rw [List.getElem?_append_right (by simp; omega), List.getElem?_drop]
    congr 1
    simp; omega

theorem slice_ext {a b : Bytes} {off n : Nat}
    (h : ∀ i, off ≤ i → i < off + n → a[i]? = b[i]?) :
    (a.drop off).take n = (b.drop off).take n := by
  apply List.ext_getElem?
  intro i
  rw [List.getElem?_take, List.getElem?_take]
  split
  · rw [List.getElem?_drop, List.getElem?_drop]
    exact h _ (by omega) (by omega)
  · rfl

theorem fieldBytes_length {est : LogEst} {bo : ByteOrder} {ty : VType} {v : Int} {bs : Bytes}
    (h : fieldBytes est bo ty v = .ok bs) : bs.length = ty.size := by
  cases ty <;> simp only [fieldBytes, Except.ok.injEq, writeIbm] at h
  case ibm =>
    cases e : ibmEncode est (dblOfInt v) with
    | error _ => rw [e] at h; cases h
    | ok a =>
      rw [e, ok_bind] at h
      have := Except.ok.inj h
      rw [← this, writeU32_eq, encInt_length]; rfl
  all_goals
    rw [← h]
    simp only [writeI8_eq .le, writeU8_eq .le, writeI16_eq, writeU16_eq, writeI24_eq, writeU24_eq,
      writeI32_eq, writeU32_eq, writeI64_eq, writeU64_eq, writeIeeeDouble,
      encInt_length, VType.size]

/-- What the field writer stores: every field has its bytes, everything else is unchanged. -/
theorem writeFields_spec {est : LogEst} {bo : ByteOrder} {hdr : Header} {fs : List HField}
    {buf out : Bytes}
    (hd : fs.Pairwise fun a b => a.off + a.ty.size ≤ b.off ∨ b.off + b.ty.size ≤ a.off)
    (h : writeFields est bo hdr fs buf = .ok out) :
    out.length = buf.length ∧
    (∀ f ∈ fs, f.off + f.ty.size ≤ buf.length ∧ ∃ v bs, intOf hdr f.name = .ok v ∧
      fieldBytes est bo f.ty v = .ok bs ∧ (out.drop f.off).take f.ty.size = bs) ∧
    (∀ i, ¬ Covered fs i → out[i]? = buf[i]?) := by
  induction fs generalizing buf with
  | nil =>
    simp only [writeFields, Except.ok.injEq] at h
    subst h
    simp
  | cons f t ih =>
    rw [List.pairwise_cons] at hd
    simp only [writeFields] at h
    cases hv : intOf hdr f.name with
    | error e => rw [hv] at h; cases h
    | ok v =>
    rw [hv, ok_bind] at h
    cases hb : fieldBytes est bo f.ty v with
    | error e => rw [hb] at h; cases h
    | ok bs =>
    rw [hb, ok_bind] at h
    cases hw : writeAt buf f.off bs with
    | error e => rw [hw] at h; cases h
    | ok b1 =>
    rw [hw, ok_bind] at h
    obtain ⟨h1, h2, h3⟩ := ih hd.2 h
    have hlen := writeAt_length hw
    have hbl := fieldBytes_length hb
    have hbound := (writeAt_ok hw).1
    refine ⟨by omega, ?_, ?_⟩
    · intro g hg
      rw [List.mem_cons] at hg
      rcases hg with rfl | hg
      · refine ⟨by omega, v, bs, hv, hb, ?_⟩
        have e : (out.drop g.off).take g.ty.size = (b1.drop g.off).take g.ty.size := by
          apply slice_ext
          intro i hi1 hi2
          apply h3
          rintro ⟨g', hg', hc⟩
          rcases hd.1 g' hg' with h' | h' <;> omega
        rw [e, ← hbl]
        exact writeAt_slice hw
      · obtain ⟨hb', r⟩ := h2 g hg
        exact ⟨by omega, r⟩
    · intro i hi
      have n1 : ¬ Covered t i := fun ⟨g, hg, hc⟩ => hi ⟨g, List.mem_cons_of_mem _ hg, hc⟩
      have n2 : ¬ (f.off ≤ i ∧ i < f.off + f.ty.size) := fun hc => hi ⟨f, List.mem_cons_self, hc⟩
      rw [h3 i n1]
      exact writeAt_get_out hw i (by omega)

/-- The field writer succeeds as soon as every field can be encoded and lies in the buffer. -/
theorem writeFields_total {est : LogEst} {bo : ByteOrder} {hdr : Header} {fs : List HField}
    {buf : Bytes}
    (hf : ∀ f ∈ fs, f.off + f.ty.size ≤ buf.length ∧ ∃ v bs, intOf hdr f.name = .ok v ∧
      fieldBytes est bo f.ty v = .ok bs) :
    ∃ out, writeFields est bo hdr fs buf = .ok out := by
  induction fs generalizing buf with
  | nil => exact ⟨_, rfl⟩
  | cons f t ih =>
    obtain ⟨hb, v, bs, h1, h2⟩ := hf f List.mem_cons_self
    have hl := fieldBytes_length h2
    have hw := writeAt_of_le (buf := buf) (bs := bs) (off := f.off) (by omega)
    have := writeAt_length hw
    simp only [writeFields, h1, h2, hw, ok_bind]
    apply ih
    intro g hg
    obtain ⟨a, b⟩ := hf g (List.mem_cons_of_mem _ hg)
    exact ⟨by omega, b⟩

theorem memsetHdr_eq {old : Bytes} (h : old.length = 240) :
    memsetHdr old = .ok (List.replicate 240 0) := by
  unfold memsetHdr
  rw [writeAt_of_le (by rw [List.length_replicate]; omega)]
  rw [List.length_replicate, List.drop_of_length_le (by omega), List.take_zero]
  simp only [List.nil_append, List.append_nil]

/-! ## Header maps -/

theorem get_set (h : Header) (k k' : String) (v : Value) :
    (h.set k v).get k' = if k = k' then some v else h.get k' := by
  induction h with
  | nil => simp [Header.set, Header.get]
  | cons p t ih =>
    obtain ⟨a, b⟩ := p
    unfold Header.set
    by_cases e : a = k
    · subst e
      simp only [if_true, Header.get]
      split <;> rfl
    · rw [if_neg e]
      simp only [Header.get, ih]
      by_cases e2 : a = k'
      · subst e2
        rw [if_pos rfl, if_neg (fun hk => e hk.symm), if_pos rfl]
      · rw [if_neg e2, if_neg e2]

theorem keys_set (h : Header) (k : String) (v : Value) :
    (h.set k v).keys = if k ∈ h.keys then h.keys else h.keys ++ [k] := by
  induction h with
  | nil => simp [Header.set, Header.keys]
  | cons p t ih =>
    obtain ⟨a, b⟩ := p
    unfold Header.set
    by_cases e : a = k
    · subst e
      simp [Header.keys]
    · rw [if_neg e]
      unfold Header.keys at ih ⊢
      rw [List.map_cons, ih, List.map_cons]
      by_cases hm : k ∈ t.map (·.1)
      · rw [if_pos hm, if_pos (List.mem_cons_of_mem _ hm)]
      · rw [if_neg hm, if_neg (by simp only [List.mem_cons, not_or]; exact ⟨fun h => e h.symm, hm⟩)]
        rfl

theorem get_isSome (h : Header) (k : String) : (h.get k).isSome ↔ k ∈ h.keys := by
  induction h with
  | nil => simp [Header.get, Header.keys]
  | cons p t ih =>
    obtain ⟨a, b⟩ := p
    unfold Header.get
    by_cases e : a = k
    · subst e; simp [Header.keys]
    · rw [if_neg e, ih]
      simp only [Header.keys, List.map_cons, List.mem_cons]
      exact ⟨Or.inr, fun h => h.resolve_left (fun hk => e hk.symm)⟩

/-! ## Reading fields -/

theorem reader_size_ok (n : Nat) (bo : ByteOrder) (buf : Bytes) (h : n ≤ buf.length) :
    rdNat bo n buf = .ok (decNat bo (buf.take n), buf.drop n) ∧
    rdInt bo n buf = .ok (decInt bo (buf.take n), buf.drop n) := by
  unfold rdNat rdInt
  rw [if_pos h, if_pos h]
  exact ⟨rfl, rfl⟩

/-- A field is decoded from its own bytes only. -/
theorem readField_ok (bo : ByteOrder) (ty : VType) (bs : Bytes) (h : bs.length = ty.size) :
    ∃ v, ∀ rest, readField bo ty (bs ++ rest) = .ok (v, rest) := by
  have hn : ∀ rest, rdNat bo ty.size (bs ++ rest) = .ok (decNat bo bs, rest) := fun rest => by
    rw [(reader_size_ok ty.size bo (bs ++ rest) (by simp; omega)).1, List.take_left' h, List.drop_left' h]
  have hi : ∀ rest, rdInt bo ty.size (bs ++ rest) = .ok (decInt bo bs, rest) := fun rest => by
    rw [(reader_size_ok ty.size bo (bs ++ rest) (by simp; omega)).2, List.take_left' h, List.drop_left' h]
  cases ty <;> simp only [VType.size] at hn hi
  case' i8 => refine ⟨.int (decInt bo bs), fun rest => ?_⟩
  case' i16 => refine ⟨.int (decInt bo bs), fun rest => ?_⟩
  case' i24 => refine ⟨.int (decInt bo bs), fun rest => ?_⟩
  case' i32 => refine ⟨.int (decInt bo bs), fun rest => ?_⟩
  case' i64 => refine ⟨.int (decInt bo bs), fun rest => ?_⟩
  case' u8 => refine ⟨.int (decNat bo bs : Nat), fun rest => ?_⟩
  case' u16 => refine ⟨.int (decNat bo bs : Nat), fun rest => ?_⟩
  case' u24 => refine ⟨.int (decNat bo bs : Nat), fun rest => ?_⟩
  case' u32 => refine ⟨.int (decNat bo bs : Nat), fun rest => ?_⟩
  case' u64 => refine ⟨.int (toS 8 (decNat bo bs)), fun rest => ?_⟩
  case' ibm => refine ⟨.dbl (ibmDecode (decNat bo bs)), fun rest => ?_⟩
  case' ieeeSingle => refine ⟨.dbl (sglToDbl (BitVec.ofNat 32 (decNat bo bs))), fun rest => ?_⟩
  case' ieeeDouble => refine ⟨.dbl (BitVec.ofNat 64 (decNat bo bs)), fun rest => ?_⟩
  all_goals
    simp only [readField, readI8_eq bo, readU8_eq bo, readI16_eq, readU16_eq, readI24_eq, readU24_eq,
      readI32_eq, readU32_eq, readI64_eq, readU64_eq, readIbm, readIeeeFloat, readIeeeDouble, rd_bind,
      hn, hi, ok_bind, rd_pure]

theorem readAt_slice {α : Type} (buf : Bytes) (off n : Nat) (r : Rd α) (bs : Bytes) (v : α)
    (hb : off + n ≤ buf.length) (hs : (buf.drop off).take n = bs)
    (hr : ∀ rest, r (bs ++ rest) = .ok (v, rest)) : readAt buf off r = .ok v := by
  unfold readAt
  rw [if_pos (by omega)]
  have e : buf.drop off = bs ++ (buf.drop off).drop n := by rw [← hs, List.take_append_drop]
  rw [e, hr, ok_bind]
  rfl

/-- Reading all fields: each one adds the value found at its place. -/
theorem readFields_spec (bo : ByteOrder) (fs : List HField) (buf : Bytes) (acc : Header)
    (val : HField → Value) (hv : ∀ f ∈ fs, readAt buf f.off (readField bo f.ty) = .ok (val f)) :
    ∃ h, readFields bo fs buf acc = .ok h ∧
      ∀ n, h.get n = match fs.reverse.find? (fun f => f.name = n) with
        | some f => some (val f)
        | none => acc.get n := by
  induction fs generalizing acc with
  | nil => exact ⟨acc, rfl, fun n => rfl⟩
  | cons f t ih =>
    obtain ⟨h, h1, h2⟩ := ih (acc.set f.name (val f)) (fun g hg => hv g (List.mem_cons_of_mem _ hg))
    refine ⟨h, ?_, ?_⟩
    · simp only [readFields, hv f List.mem_cons_self, ok_bind, h1]
    · intro n
      rw [h2 n, List.reverse_cons, List.find?_append]
      cases e : t.reverse.find? (fun f => f.name = n) with
      | some g => rfl
      | none =>
        simp only [Option.none_or, List.find?_cons, List.find?_nil, get_set]
        by_cases hn : f.name = n
        · rw [if_pos hn]; simp [hn]
        · rw [if_neg hn]; simp [hn]

theorem readFields_keys (bo : ByteOrder) (fs : List HField) (buf : Bytes) (acc h : Header)
    (hr : readFields bo fs buf acc = .ok h) : ∀ n, n ∈ h.keys ↔ n ∈ acc.keys ∨ n ∈ fs.map (·.name) := by
  induction fs generalizing acc with
  | nil =>
    simp only [readFields, Except.ok.injEq] at hr
    subst hr; simp
  | cons f t ih =>
    simp only [readFields] at hr
    cases hv : readAt buf f.off (readField bo f.ty) with
    | error e => rw [hv] at hr; cases hr
    | ok v =>
      rw [hv, ok_bind] at hr
      intro n
      rw [ih _ hr n, keys_set]
      simp only [List.map_cons, List.mem_cons]
      split
      · rename_i hm
        constructor
        · rintro (h | h)
          · exact .inl h
          · exact .inr (.inr h)
        · rintro (h | rfl | h)
          · exact .inl h
          · exact .inl hm
          · exact .inr h
      · simp only [List.mem_append, List.mem_singleton]
        tauto

/-- The integer field types store modulo their width. -/
theorem int_field_rt (est : LogEst) (bo : ByteOrder) (ty : VType) (k : IntKind)
    (hk : intKind ty = some k) (v : Int) :
    ∃ r, Reduced k v r ∧ fieldBytes est bo ty v = .ok (k.write bo v) ∧
      ∀ rest, readField bo ty (k.write bo v ++ rest) = .ok (.int r, rest) := by
  cases ty <;> simp only [intKind, Option.some.injEq, reduceCtorEq] at hk <;> subst hk
  case' i8 => refine ⟨toS 1 (toU 1 v), ?_, rfl, fun rest => ?_⟩
  case' i16 => refine ⟨toS 2 (toU 2 v), ?_, rfl, fun rest => ?_⟩
  case' i24 => refine ⟨toS 3 (toU 3 v), ?_, rfl, fun rest => ?_⟩
  case' i32 => refine ⟨toS 4 (toU 4 v), ?_, rfl, fun rest => ?_⟩
  case' i64 => refine ⟨toS 8 (toU 8 v), ?_, rfl, fun rest => ?_⟩
  case' u8 => refine ⟨(toU 1 v : Nat), ?_, rfl, fun rest => ?_⟩
  case' u16 => refine ⟨(toU 2 v : Nat), ?_, rfl, fun rest => ?_⟩
  case' u24 => refine ⟨(toU 3 v : Nat), ?_, rfl, fun rest => ?_⟩
  case' u32 => refine ⟨(toU 4 v : Nat), ?_, rfl, fun rest => ?_⟩
  case' u64 => refine ⟨toS 8 (toU 8 v), ?_, rfl, fun rest => ?_⟩
  all_goals first
    | (simp only [readField, IntKind.write, readI8_eq bo, readU8_eq bo, readI16_eq, readU16_eq,
        readI24_eq, readU24_eq, readI32_eq, readU32_eq, readI64_eq, readU64_eq, writeI8_eq bo,
        writeU8_eq bo, writeI16_eq, writeU16_eq, writeI24_eq, writeU24_eq, writeI32_eq, writeU32_eq,
        writeI64_eq, writeU64_eq, rd_bind, rdInt_encInt, rdNat_encInt, ok_bind, rd_pure]
       done)
    | (simp only [Reduced, IntKind.InRange, IntKind.signed, IntKind.size, toS, toU]
       norm_num
       try split
       all_goals omega)

end Sedaman
