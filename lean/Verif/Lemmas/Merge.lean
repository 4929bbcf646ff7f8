import Verif.Spec.Merge
import Verif.Lemmas.Copy12
import Verif.Lemmas.Edit
import Verif.Props.SortFile

/-!
# Lemmas for merging SEG-Y files
-/

namespace Sedaman
open Sedaman.Spec

/-- The number of samples of a trace follows from the headers. -/
def LengthTold (bh : BinHeader) (fields : List HField) (t : Trace) : Prop :=
  if bh.revMajor = 0 then (t.samples.length : Int) = bh.sampPerTr % 65536 else LengthKnown bh fields t

theorem told_small {bh : BinHeader} {bo : ByteOrder} {fields : List HField} {n : Nat} {c : Bytes}
    (h : CountTold bh bo fields n c) : n < 2 ^ 60 := by
  unfold CountTold CountStored at h
  split at h
  · omega
  · split at h
    · omega
    · exact h.1

/-- The trace in the bytes of one trace. -/
theorem trace_of_chunk {est : LogEst} {fmt : Int} {bo : ByteOrder} {fields : List HField} {n : Nat} {c : Bytes}
    (hf : fmt ∈ supportedFormats) (hs : SafeFields fields) (hn : (fields.map (·.name)).Nodup)
    (hk : ∀ f ∈ fields, ∃ k, intKind f.ty = some k) (h : CopyableTrace est fmt bo fields n c) (hsz : n < 2 ^ 60) :
    ∃ t, Chunk est bo fmt fields t c ∧ Storable est fmt bo fields t ∧ (∀ x ∈ t.samples, Survives est fmt bo x) ∧
      ∀ bh, CountTold bh bo fields n c → LengthTold bh fields t := by
  obtain ⟨_, w, -, hw, -⟩ := writer_shape est hf
  obtain ⟨blk, ps, rfl, hl, hz, hlen, hp⟩ := h
  obtain ⟨hdr, g1, g2⟩ := block_values est bo hl hs hn hk hz
  obtain ⟨xs, g3, g4, g5⟩ := pieces_of hw hp
  have hnx : xs.length = n := by omega
  refine ⟨⟨hdr, xs⟩, ⟨blk, ps, g2, ⟨w, hw, g5⟩, rfl⟩,
    ⟨fun f hf => ⟨_, .inl (g1 f hf).1, (g1 f hf).2 _⟩, fun x hx => ⟨x, g4 x hx⟩, ?_⟩, g4, ?_⟩
  · simp only
    omega
  · intro bh hcount
    unfold CountTold at hcount
    unfold LengthTold
    by_cases hr : bh.revMajor = 0
    · rw [if_pos hr] at hcount ⊢
      simp only
      omega
    rw [if_neg hr] at hcount ⊢
    unfold CountStored at hcount
    unfold LengthKnown
    simp only
    split at hcount
    · rename_i hfix
      rw [if_pos hfix, hnx]
      exact hcount
    · rename_i hfix
      rw [if_neg hfix]
      obtain ⟨_, f, hf, hname, hv⟩ := hcount
      obtain ⟨k, hk⟩ := hk f hf
      have hb := hs.1 f hf
      have hsl : ((blk.drop f.off).take f.ty.size).length = f.ty.size := by
        rw [List.length_take, List.length_drop]
        omega
      have hcut : ((blk ++ ps.flatten).drop f.off).take f.ty.size = (blk.drop f.off).take f.ty.size := by
        rw [List.drop_append_of_le_length (by omega), List.take_append_of_le_length (by rw [List.length_drop]; omega)]
      rw [hcut] at hv
      have e := fieldInt_value hk hv
      have hr := fieldInt_range (bo := bo) hk hsl
      have g := (g1 f hf).1
      rw [hname, e] at g
      rw [e] at hr
      rw [hnx]
      exact ⟨g, f, hf, hname, k, hk, hr⟩

theorem told_back {est : LogEst} {bh : BinHeader} {fmt : Int} {bo : ByteOrder} {fields : List HField} {t back : Trace}
    (hl : LengthTold bh fields t) (hb : TraceBack est fmt bo fields t back)
    (hsv : ∀ x ∈ t.samples, Survives est fmt bo x) : LengthTold bh fields back := by
  unfold LengthTold at hl ⊢
  split at hl
  · rename_i h
    rw [if_pos h, samples_same hb.1 hsv]
    exact hl
  · rename_i h
    rw [if_neg h]
    exact length_back hl hb hsv

/-- What is known of a trace that is to be written as bytes `c` in a file with binary header `bh`. -/
structure Carried (est : LogEst) (bo : ByteOrder) (fmt : Int) (fields : List HField) (bh : BinHeader) (t : Trace)
    (c : Bytes) : Prop where
  chunk : Chunk est bo fmt fields t c
  stor : Storable est fmt bo fields t
  surv : ∀ x ∈ t.samples, Survives est fmt bo x
  told : LengthTold bh fields t

theorem carried_of {est : LogEst} {fmt : Int} {bo : ByteOrder} {fields : List HField} {bh bh' : BinHeader}
    (hf : fmt ∈ supportedFormats) (hs : SafeFields fields) (hn : (fields.map (·.name)).Nodup)
    (hk : ∀ f ∈ fields, ∃ k, intKind f.ty = some k) {cs : List Bytes}
    (h : ∀ c ∈ cs, ∃ n, CopyableTrace est fmt bo fields n c ∧ CountTold bh bo fields n c ∧ CountTold bh' bo fields n c) :
    ∃ ts, List.Forall₂ (Carried est bo fmt fields bh) ts cs ∧ ∀ t ∈ ts, LengthTold bh' fields t := by
  induction cs with
  | nil => exact ⟨[], .nil, by simp⟩
  | cons c cs ih =>
    obtain ⟨ts, h1, h2⟩ := ih fun q hq => h q (List.mem_cons_of_mem _ hq)
    obtain ⟨n, a1, a2, a3⟩ := h _ List.mem_cons_self
    obtain ⟨t, b1, b2, b3, b4⟩ := trace_of_chunk hf hs hn hk a1 (told_small a2)
    refine ⟨t :: ts, .cons ⟨b1, b2, b3, b4 _ a2⟩ h1, ?_⟩
    intro u hu
    rcases List.mem_cons.1 hu with rfl | hu
    · exact b4 _ a3
    · exact h2 u hu

/-- Reading a file of traces whose bytes are known. -/
theorem parts_read {est : LogEst} {m : HdrMap} {b : HBlock} {bo : ByteOrder} {F : SegyParts} (hF : HeadersOk m b bo F)
    {ts : List Trace} (hc : List.Forall₂ (Carried est bo F.bh.formatCode b.fields F.bh) ts F.traces) :
    ∃ r vs, openReader F.bytes none m = .ok r ∧ r.texts = F.text :: F.exts ∧ r.bh = F.bh ∧ Visits r vs ∧
      vs.length = F.traces.length ∧ List.Forall₂ (TraceBack est F.bh.formatCode bo b.fields) ts vs := by
  obtain ⟨hbh, hvis, rfl, hbin⟩ := Props.copy_bin_ok hF.size hF.marker hF.zeros hF.read hF.format
  obtain ⟨bps, hbps⟩ := Props.bps_exists hF.format
  have hb := bps_small hbps
  have hmem : ∀ t ∈ ts, Storable est F.bh.formatCode (orderOfMarker F.bh.endianness) b.fields t ∧
      LengthTold F.bh b.fields t := fun t ht => by
    obtain ⟨c, -, hc⟩ := forall₂_mem_right hc.flip ht
    exact ⟨hc.stor, hc.told⟩
  have hlen : (0 ≤ samplesPerTrace F.bh * bps ∧ samplesPerTrace F.bh * bps < 2 ^ 31) ∧
      ∀ t, LengthTold F.bh b.fields t → Props.LenKnown F.bh bps b.fields t := by
    rcases hF.extended with ⟨h0, hx⟩ | ⟨h1, hx⟩
    · obtain ⟨s1, s2⟩ := Props.spt_fixed (bh := F.bh) hb (.inl hx)
      refine ⟨s2, fun t ht => ?_⟩
      unfold LengthTold at ht
      rw [if_pos h0] at ht
      unfold Props.LenKnown
      rw [if_pos (by unfold fixedLength; rw [h0]; simp), s1, ← ht, ← Int.natCast_mul]
      rfl
    · obtain ⟨q1, q2⟩ := Props.lenKnown_of hb h1 hx
      refine ⟨q1, fun t ht => q2 _ _ ?_⟩
      unfold LengthTold at ht
      rw [if_neg (by omega)] at ht
      exact ht
  have hhead : (F.text ++ F.bin ++ F.exts.flatten).length = 3600 + 3200 * F.exts.length := by
    rw [← hbin, List.length_append, List.length_append, hF.texts F.text List.mem_cons_self, binHeaderBytes_length,
      flatten_length_const 3200 fun x hx => hF.texts x (List.mem_cons_of_mem _ hx)]
  obtain ⟨r, vs, ho, g1, g2, -, hback, hist⟩ := Props.pieces_read hF.texts hF.few hbh hF.map hF.declared
    (by rw [hvis]; exact hF.additional) (by rw [hvis]; push_cast; exact hF.first) (by rw [hvis]; exact hF.stanzas) hbps
    hlen.1 (fun t ht => ⟨(hmem t ht).1, hlen.2 t (hmem t ht).2⟩) (hc.imp fun _ _ h => h.chunk)
  have ho' := ho F.traces
  rw [hbin] at ho'
  simp only [← List.append_assoc] at ho'
  exact ⟨_, vs, ho', g1, by rw [← hvis]; exact g2, Props.pieces_visited hhead hist ho', hist.length_eq.symm, hback⟩

theorem carried_back {est : LogEst} {fmt : Int} {bo : ByteOrder} {fields : List HField} {bh bh' : BinHeader}
    (hint : ∀ f ∈ fields, ∃ k, intKind f.ty = some k) {os ts : List Trace} {cs : List Bytes}
    (ho : List.Forall₂ (Carried est bo fmt fields bh) os cs) (h' : ∀ t ∈ os, LengthTold bh' fields t)
    (hb : List.Forall₂ (TraceBack est fmt bo fields) os ts) :
    List.Forall₂ (Carried est bo fmt fields bh') ts cs ∧ ∀ t ∈ ts, PlainHeader fields t.header := by
  have hmem : ∀ t ∈ os, Storable est fmt bo fields t ∧ ∀ x ∈ t.samples, Survives est fmt bo x := fun t ht => by
    obtain ⟨c, -, hc⟩ := forall₂_mem_right ho.flip ht
    exact ⟨hc.stor, hc.surv⟩
  have b2 := chunks_back hint (fun t ht f hf => ((hmem t ht).1.ints f hf).imp fun _ h => h.1) hb
    (fun t ht => (hmem t ht).2) (ho.imp fun _ _ h => h.chunk)
  clear ho
  induction hb generalizing cs with
  | nil => cases b2; exact ⟨.nil, by simp⟩
  | cons a _ ih =>
    cases b2 with
    | cons x y =>
      obtain ⟨s1, s2⟩ := hmem _ List.mem_cons_self
      obtain ⟨i1, i2⟩ := ih (fun t ht => h' t (List.mem_cons_of_mem _ ht)) (fun t ht => hmem t (List.mem_cons_of_mem _ ht)) y
      refine ⟨.cons ⟨x, storable_back hint s1 a s2, ?_, told_back (h' _ List.mem_cons_self) a s2⟩ i1, ?_⟩
      · rw [samples_same a.1 s2]
        exact s2
      · intro t ht
        rcases List.mem_cons.1 ht with rfl | ht
        · exact plain_back hint s1 a
        · exact i2 t ht

theorem same_carried {est : LogEst} {fmt : Int} {bo : ByteOrder} {fields : List HField} {us vs : List Trace}
    (hs : ∀ t ∈ us, ∀ x ∈ t.samples, Survives est fmt bo x) (hp : ∀ t ∈ us, PlainHeader fields t.header)
    (hb : List.Forall₂ (TraceBack est fmt bo fields) us vs) : List.Forall₂ SameTrace us vs := by
  induction hb with
  | nil => exact .nil
  | cons a _ ih =>
    exact .cons (same_of_back (hp _ List.mem_cons_self) (hs _ List.mem_cons_self) a)
      (ih (fun t ht => hs t (List.mem_cons_of_mem _ ht)) fun t ht => hp t (List.mem_cons_of_mem _ ht))

end Sedaman
