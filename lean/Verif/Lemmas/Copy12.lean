import Verif.Spec.Copy12
import Verif.Lemmas.Copy
import Verif.Lemmas.MapView
import Verif.Lemmas.BinRewrite

/-!
# Writing what was read from revision 1 and 2 files
-/

namespace Sedaman

open Spec

/-- The integer in the bytes of a field. -/
def fieldInt (bo : ByteOrder) (ty : VType) (bs : Bytes) : Int :=
  match intKind ty with
  | some k => if k.signed ∨ k = .u64 then decInt bo bs else decNat bo bs
  | none => 0

theorem fieldInt_enc {bo : ByteOrder} {ty : VType} {k : IntKind} (hk : intKind ty = some k) {bs : Bytes} {n : Nat}
    (hl : bs.length = n) : encInt bo n (fieldInt bo ty bs) = bs := by
  unfold fieldInt
  rw [hk]
  simp only
  subst hl
  split
  · exact encInt_decInt bo bs
  · exact encInt_decNat bo bs

theorem fieldInt_value {bo : ByteOrder} {ty : VType} {bs : Bytes} {v : Int} {k : IntKind} (hk : intKind ty = some k)
    (h : FieldValue bo ty bs (.int v)) : fieldInt bo ty bs = v := by
  have h2 := h.2
  unfold fieldInt
  rw [hk] at h2 ⊢
  simp only [Value.int.injEq] at h2 ⊢
  exact h2.symm

theorem header_with (fields : List HField) (hn : (fields.map (·.name)).Nodup) (val : HField → Int) :
    ∃ hdr : Header, ∀ f ∈ fields, hdr.get f.name = some (.int (val f)) := by
  refine ⟨fields.map (fun f => (f.name, .int (val f))), fun f hf => ?_⟩
  induction fields with
  | nil => cases hf
  | cons g t ih =>
    rw [List.map_cons, List.nodup_cons] at hn
    simp only [List.map_cons, Header.get]
    rcases List.mem_cons.1 hf with rfl | hf
    · rw [if_pos rfl]
    · rw [if_neg]
      · exact ih hn.2 hf
      · intro e
        exact hn.1 (List.mem_map.2 ⟨f, hf, e.symm⟩)

/-- Every block that is zero outside its fields is the block of the header with the values in it. -/
theorem block_values (est : LogEst) (bo : ByteOrder) {fields : List HField} {blk : Bytes} (hl : blk.length = 240)
    (hs : SafeFields fields) (hn : (fields.map (·.name)).Nodup)
    (hk : ∀ f ∈ fields, ∃ k, intKind f.ty = some k) (hz : ZeroOutside fields blk) :
    ∃ hdr : Header, (∀ f ∈ fields, hdr.get f.name = some (.int (fieldInt bo f.ty ((blk.drop f.off).take f.ty.size))) ∧
        ∀ v, FieldStorable est bo f.ty v) ∧
      writeBlock est bo fields hdr (List.replicate 240 0) = .ok blk := by
  obtain ⟨hdr, hh⟩ := header_with fields hn (fun f => fieldInt bo f.ty ((blk.drop f.off).take f.ty.size))
  have hst : ∀ f ∈ fields, ∀ v, FieldStorable est bo f.ty v :=
    fun f hf _ c => by obtain ⟨k, hk⟩ := hk f hf; rw [c] at hk; cases hk
  refine ⟨hdr, fun f hf => ⟨hh f hf, hst f hf⟩, ?_⟩
  obtain ⟨out, ho⟩ := Props.C15_write_succeeds est bo fields hdr (List.replicate 240 0)
    (by rw [List.length_replicate]) hs (fun f hf => ⟨_, .inl (hh f hf), hst f hf _⟩)
  rw [ho]
  refine congrArg Except.ok ?_
  unfold writeBlock at ho
  rw [memsetHdr_eq (by rw [List.length_replicate]), ok_bind] at ho
  obtain ⟨h1, h2, h3⟩ := writeFields_spec hs.2 ho
  rw [List.length_replicate] at h1
  apply List.ext_getElem?
  intro i
  by_cases hi : i < 240
  · by_cases hc : Covered fields i
    · obtain ⟨f, hf, c1, c2⟩ := hc
      obtain ⟨-, v, bs, g1, g2, g3⟩ := h2 f hf
      rw [intOf_header (.inl (hh f hf))] at g1
      have hv := Except.ok.inj g1
      obtain ⟨k, hk⟩ := hk f hf
      have hb := hs.1 f hf
      have hsl : ((blk.drop f.off).take f.ty.size).length = f.ty.size := by
        rw [List.length_take, List.length_drop]
        omega
      have hksz : k.size = f.ty.size := by
        generalize f.ty = ty at hk
        cases ty <;> simp only [intKind, Option.some.injEq, reduceCtorEq] at hk <;> subst hk <;> rfl
      obtain ⟨_, -, e, -⟩ := int_field_rt est bo f.ty k hk v
      rw [e, kind_write_eq, hksz, ← hv, fieldInt_enc hk hsl] at g2
      have g4 : (out.drop f.off).take f.ty.size = (blk.drop f.off).take f.ty.size := by
        rw [g3, ← Except.ok.inj g2]
      have := congrArg (fun l => l[i - f.off]?) g4
      simp only [List.getElem?_take, List.getElem?_drop] at this
      rw [if_pos (by omega), if_pos (by omega), show f.off + (i - f.off) = i by omega] at this
      exact this
    · rw [h3 i hc, hz i (by omega) hc, List.getElem?_replicate, if_pos hi]
  · rw [List.getElem?_eq_none (by omega), List.getElem?_eq_none (by omega)]

theorem fieldInt_range {bo : ByteOrder} {ty : VType} {k : IntKind} (hk : intKind ty = some k) {bs : Bytes}
    (hl : bs.length = ty.size) : IntKind.InRange (if k = .u64 then .i64 else k) (fieldInt bo ty bs) := by
  unfold fieldInt
  rw [hk]
  simp only
  have hsz : ty.size = k.size := by
    cases ty <;> simp only [intKind, Option.some.injEq, reduceCtorEq] at hk <;> subst hk <;> rfl
  rw [hsz] at hl
  by_cases hu : k = .u64
  · subst hu
    rw [if_pos rfl, if_pos (.inr rfl)]
    exact decInt_range .i64 rfl bo bs hl
  · rw [if_neg hu]
    by_cases hsg : k.signed = true
    · rw [if_pos (.inl hsg)]
      exact decInt_range k hsg bo bs hl
    · rw [if_neg (by rintro (h | h) <;> contradiction)]
      exact decNat_range k (by simpa using hsg) bo bs hl

/-- The traces in the bytes of a file. -/
theorem traces_of12 {est : LogEst} {bh : BinHeader} {bo : ByteOrder} {fields : List HField}
    (hf : bh.formatCode ∈ supportedFormats) (hs : SafeFields fields) (hn : (fields.map (·.name)).Nodup)
    (hk : ∀ f ∈ fields, ∃ k, intKind f.ty = some k) {cs : List Bytes}
    (h : ∀ c ∈ cs, CopyableTrace12 est bh bo fields c) :
    ∃ ts, List.Forall₂ (Chunk est bo bh.formatCode fields) ts cs ∧
      ∀ t ∈ ts, Storable est bh.formatCode bo fields t ∧ LengthKnown bh fields t ∧
        ∀ x ∈ t.samples, Survives est bh.formatCode bo x := by
  obtain ⟨_, w, -, hw, -⟩ := writer_shape est hf
  induction cs with
  | nil => exact ⟨[], .nil, by simp⟩
  | cons c cs ih =>
    obtain ⟨ts, h1, h2⟩ := ih fun q hq => h q (List.mem_cons_of_mem _ hq)
    obtain ⟨n, ⟨blk, ps, rfl, hl, hz, hlen, hp⟩, hcount⟩ := h _ List.mem_cons_self
    obtain ⟨hdr, g1, g2⟩ := block_values est bo hl hs hn hk hz
    obtain ⟨xs, g3, g4, g5⟩ := pieces_of hw hp
    have hnx : xs.length = n := by omega
    refine ⟨⟨hdr, xs⟩ :: ts, .cons ⟨blk, ps, g2, ⟨w, hw, g5⟩, rfl⟩ h1, ?_⟩
    intro t ht
    rcases List.mem_cons.1 ht with rfl | ht
    · refine ⟨⟨fun f hf => ⟨_, .inl (g1 f hf).1, (g1 f hf).2 _⟩, fun x hx => ⟨x, g4 x hx⟩, ?_⟩, ?_, g4⟩
      · simp only
        unfold CountStored at hcount
        split at hcount
        · omega
        · omega
      · unfold CountStored at hcount
        unfold LengthKnown
        simp only
        split at hcount
        · rename_i hfix
          rw [if_pos hfix, hnx]
          exact hcount
        · rename_i hfix
          rw [if_neg hfix]
          obtain ⟨_, f, hf, hname, hv⟩ := hcount
          obtain ⟨k, hk⟩ := hk f hf
          have hb := hs.1 f hf
          have hsl : ((blk.drop f.off).take f.ty.size).length = f.ty.size := by
            rw [List.length_take, List.length_drop]
            omega
          have hcut : ((blk ++ ps.flatten).drop f.off).take f.ty.size = (blk.drop f.off).take f.ty.size := by
            rw [List.drop_append_of_le_length (by omega), List.take_append_of_le_length (by rw [List.length_drop]; omega)]
          rw [hcut] at hv
          have e := fieldInt_value hk hv
          have hr := fieldInt_range (bo := bo) hk hsl
          have g := (g1 f hf).1
          rw [hname, e] at g
          rw [e] at hr
          rw [hnx]
          exact ⟨g, f, hf, hname, k, hk, hr⟩
    · exact h2 t ht

/-- Traces of known bytes are written as these bytes. -/
theorem write_copy {est : LogEst} {rev : Rev} {w0 : Writer} {b : HBlock} {m : HdrMap} {cs : List Bytes} {us : List Trace}
    (hi : WInv2 rev w0) (ha : w0.auto = false) (hmap : w0.map = b :: m)
    (hadd : rev = .r2 → w0.bh.maxNumAddTrHeaders = 0) (hs : SafeFields b.fields)
    (hu : ∀ t ∈ us, Writable est rev w0.bh w0.bo b.fields t)
    (hc : List.Forall₂ (Chunk est w0.bo w0.bh.formatCode b.fields) us cs) :
    ∃ w, writeAll (rev.write est) w0 us = .ok w ∧ w.file.data = w0.file.data ++ cs.flatten ∧ w.bh = w0.bh ∧
      w.trailers = w0.trailers := by
  obtain ⟨w, cs', q1, q2, q3, q4, q5⟩ := writeAll_chunks (est := est) us hi (by rw [ha]; intro c; cases c) hmap hadd hs hu
  rw [chunks_unique hc q2]
  exact ⟨w, q1, q3, q4, q5⟩

/-- The length of a trace that was read is known like that of the trace that was written. -/
theorem length_back {est : LogEst} {bh : BinHeader} {fmt : Int} {bo : ByteOrder} {fields : List HField} {t back : Trace}
    (hl : LengthKnown bh fields t) (hb : TraceBack est fmt bo fields t back)
    (hsv : ∀ x ∈ t.samples, Survives est fmt bo x) : LengthKnown bh fields back := by
  have e := samples_same hb.1 hsv
  unfold LengthKnown at hl ⊢
  rw [e]
  split at hl
  · rename_i hf
    rw [if_pos hf]
    exact hl
  · rename_i hf
    rw [if_neg hf]
    obtain ⟨h1, f, hf, hn, k, hk, hr⟩ := hl
    refine ⟨?_, f, hf, hn, k, hk, hr⟩
    obtain ⟨r, g1, g2⟩ := hb.2.2.1 f hf k hk t.samples.length (by rw [hn]; exact .inl h1)
    rw [hn] at g2
    rw [g2]
    have : r = t.samples.length := by
      obtain ⟨c1, c2⟩ := g1
      cases k <;> simp only [IntKind.InRange, IntKind.signed, IntKind.size, reduceCtorEq, if_false, if_true] at * <;>
        norm_num at * <;> omega
    rw [this]

end Sedaman
