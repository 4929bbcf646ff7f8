import Verif.Spec.Copy
import Verif.Lemmas.E2E

/-!
# Writing what was read
-/

namespace Sedaman

open Spec

theorem encInt_congr (bo : ByteOrder) (n : Nat) {r v : Int} (h : (r - v) % ((256 ^ n : Nat) : Int) = 0) :
    encInt bo n r = encInt bo n v := by
  have : toU n r = toU n v := by
    unfold toU
    rw [Int.emod_eq_emod_iff_emod_sub_eq_zero.2 h]
  rw [← encInt_toU, this, encInt_toU]

/-- A reduced value is stored like the original one. -/
theorem reduced_bytes (est : LogEst) (bo : ByteOrder) {ty : VType} {k : IntKind} (hk : intKind ty = some k)
    {v r : Int} (h : Reduced k v r) : fieldBytes est bo ty r = fieldBytes est bo ty v := by
  obtain ⟨_, -, e1, -⟩ := int_field_rt est bo ty k hk r
  obtain ⟨_, -, e2, -⟩ := int_field_rt est bo ty k hk v
  rw [e1, e2, kind_write_eq, kind_write_eq]
  congr 1
  refine encInt_congr bo _ ?_
  have := h.2
  rw [show ((256 ^ k.size : Nat) : Int) = 2 ^ (8 * k.size) from by
    push_cast
    rw [show (256 : Int) = 2 ^ 8 from rfl, ← pow_mul]]
  exact this

theorem writeFields_congr {est : LogEst} {bo : ByteOrder} {h1 h2 : Header} {fs : List HField}
    (h : ∀ f ∈ fs, (intOf h1 f.name >>= fieldBytes est bo f.ty) = (intOf h2 f.name >>= fieldBytes est bo f.ty))
    (buf : Bytes) : writeFields est bo h1 fs buf = writeFields est bo h2 fs buf := by
  induction fs generalizing buf with
  | nil => rfl
  | cons f t ih =>
    have e : ∀ hd : Header, writeFields est bo hd (f :: t) buf =
        ((intOf hd f.name >>= fieldBytes est bo f.ty) >>= fun bs => writeAt buf f.off bs >>= fun b =>
          writeFields est bo hd t b) := by
      intro hd
      simp only [writeFields]
      cases intOf hd f.name <;> rfl
    rw [e, e, h f List.mem_cons_self]
    congr 1
    funext bs
    congr 1
    funext b
    exact ih (fun g hg => h g (List.mem_cons_of_mem _ hg)) b

theorem intOf_header {hdr : Header} {n : String} {v : Int} (h : headerInt hdr n v) : intOf hdr n = .ok v := by
  unfold intOf
  rcases h with h | ⟨h, rfl⟩ <;> rw [h]

/-- Writing the header that was read gives the block it was read from. -/
theorem block_back {est : LogEst} {bo : ByteOrder} {fields : List HField} {orig back : Header}
    (hk : ∀ f ∈ fields, ∃ k, intKind f.ty = some k) (hi : ∀ f ∈ fields, ∃ v, headerInt orig f.name v)
    (h : HeaderBack est bo fields orig back) (old : Bytes) :
    writeBlock est bo fields back old = writeBlock est bo fields orig old := by
  unfold writeBlock
  congr 1
  funext buf
  apply writeFields_congr
  intro f hf
  obtain ⟨k, hk⟩ := hk f hf
  obtain ⟨v, hv⟩ := hi f hf
  obtain ⟨r, h1, h2⟩ := h.2.1 f hf k hk v hv
  rw [intOf_header hv, intOf_header (hdr := back) (v := r) (.inl h2)]
  exact reduced_bytes est bo hk h1

theorem forall₂_mem_right {α β : Type} {R : α → β → Prop} {l : List α} {k : List β} (h : List.Forall₂ R l k)
    {y : β} (hy : y ∈ k) : ∃ x ∈ l, R x y := by
  induction h with
  | nil => cases hy
  | cons a _ ih =>
    rcases List.mem_cons.1 hy with rfl | hy
    · exact ⟨_, List.mem_cons_self, a⟩
    · obtain ⟨x, h1, h2⟩ := ih hy
      exact ⟨x, List.mem_cons_of_mem _ h1, h2⟩

/-- The header with the given integers. -/
theorem header_of (fields : List HField) (hn : (fields.map (·.name)).Nodup) (val : HField → Int) :
    ∃ hdr : Header, ∀ f ∈ fields, headerInt hdr f.name (val f) := by
  refine ⟨fields.map (fun f => (f.name, .int (val f))), fun f hf => .inl ?_⟩
  induction fields with
  | nil => cases hf
  | cons g t ih =>
    rw [List.map_cons, List.nodup_cons] at hn
    simp only [List.map_cons, Header.get]
    rcases List.mem_cons.1 hf with rfl | hf
    · rw [if_pos rfl]
    · rw [if_neg]
      · exact ih hn.2 hf
      · intro e
        exact hn.1 (List.mem_map.2 ⟨f, hf, e.symm⟩)

/-- Every block that is zero outside its fields is the block of some header. -/
theorem block_of (est : LogEst) (bo : ByteOrder) {fields : List HField} {blk : Bytes} (hl : blk.length = 240)
    (hs : SafeFields fields) (hn : (fields.map (·.name)).Nodup)
    (hk : ∀ f ∈ fields, ∃ k, intKind f.ty = some k) (hz : ZeroOutside fields blk) :
    ∃ hdr, (∀ f ∈ fields, ∃ v, headerInt hdr f.name v ∧ FieldStorable est bo f.ty v) ∧
      writeBlock est bo fields hdr (List.replicate 240 0) = .ok blk := by
  obtain ⟨hdr, hh⟩ := header_of fields hn (fun f => decInt bo ((blk.drop f.off).take f.ty.size))
  have hst : ∀ f ∈ fields, ∀ v, FieldStorable est bo f.ty v :=
    fun f hf _ c => by obtain ⟨k, hk⟩ := hk f hf; rw [c] at hk; cases hk
  refine ⟨hdr, fun f hf => ⟨_, hh f hf, hst f hf _⟩, ?_⟩
  obtain ⟨out, ho⟩ := Props.C15_write_succeeds est bo fields hdr (List.replicate 240 0)
    (by rw [List.length_replicate]) hs (fun f hf => ⟨_, hh f hf, hst f hf _⟩)
  rw [ho]
  refine congrArg Except.ok ?_
  unfold writeBlock at ho
  rw [memsetHdr_eq (by rw [List.length_replicate]), ok_bind] at ho
  obtain ⟨h1, h2, h3⟩ := writeFields_spec hs.2 ho
  rw [List.length_replicate] at h1
  apply List.ext_getElem?
  intro i
  by_cases hi : i < 240
  · by_cases hc : Covered fields i
    · obtain ⟨f, hf, c1, c2⟩ := hc
      obtain ⟨-, v, bs, g1, g2, g3⟩ := h2 f hf
      rw [intOf_header (hh f hf)] at g1
      have hv := Except.ok.inj g1
      obtain ⟨k, hk⟩ := hk f hf
      have hb := hs.1 f hf
      have hsl : ((blk.drop f.off).take f.ty.size).length = f.ty.size := by
        rw [List.length_take, List.length_drop]
        omega
      have hksz : k.size = f.ty.size := by
        generalize f.ty = ty at hk
        cases ty <;> simp only [intKind, Option.some.injEq, reduceCtorEq] at hk <;> subst hk <;> rfl
      obtain ⟨_, -, e, -⟩ := int_field_rt est bo f.ty k hk v
      rw [e, kind_write_eq, hksz, ← hv] at g2
      have e2 := encInt_decInt bo ((blk.drop f.off).take f.ty.size)
      rw [hsl] at e2
      rw [e2] at g2
      have g4 : (out.drop f.off).take f.ty.size = (blk.drop f.off).take f.ty.size := by
        rw [g3, ← Except.ok.inj g2]
      have := congrArg (fun l => l[i - f.off]?) g4
      simp only [List.getElem?_take, List.getElem?_drop] at this
      rw [if_pos (by omega), if_pos (by omega), show f.off + (i - f.off) = i by omega] at this
      exact this
    · rw [h3 i hc, hz i (by omega) hc, List.getElem?_replicate, if_pos hi]
  · rw [List.getElem?_eq_none (by omega), List.getElem?_eq_none (by omega)]

/-- Samples in a file that can be copied. -/
theorem pieces_of {est : LogEst} {fmt : Int} {bo : ByteOrder} {w : ByteOrder → Dbl → Out Bytes}
    (hw : sampleWriter est fmt = .ok w) {ps : List Bytes} (h : ∀ p ∈ ps, Rewrites est fmt bo p) :
    ∃ xs : List Dbl, xs.length = ps.length ∧ (∀ x ∈ xs, Survives est fmt bo x) ∧ Encoded (w bo) xs ps := by
  induction ps with
  | nil => exact ⟨[], rfl, by simp, .nil⟩
  | cons p ps ih =>
    obtain ⟨xs, h1, h2, h3⟩ := ih fun q hq => h q (List.mem_cons_of_mem _ hq)
    obtain ⟨w', r, x, g1, g2, g3, g4⟩ := h p List.mem_cons_self
    have e := hw.symm.trans g1
    have e := Except.ok.inj e
    subst e
    refine ⟨x :: xs, by simp [h1], ?_, .cons g4 h3⟩
    intro y hy
    rcases List.mem_cons.1 hy with rfl | hy
    · exact ⟨_, r, p, g1, g2, g4, g3⟩
    · exact h2 y hy

/-- The traces in the bytes of a file. -/
theorem traces_of {est : LogEst} {fmt : Int} {bo : ByteOrder} {fields : List HField} {n : Nat}
    (hf : fmt ∈ supportedFormats) (hs : SafeFields fields) (hn : (fields.map (·.name)).Nodup)
    (hk : ∀ f ∈ fields, ∃ k, intKind f.ty = some k) {cs : List Bytes}
    (h : ∀ c ∈ cs, CopyableTrace est fmt bo fields n c) (hsz : n < 2 ^ 60) :
    ∃ ts, List.Forall₂ (Chunk est bo fmt fields) ts cs ∧
      ∀ t ∈ ts, Storable est fmt bo fields t ∧ t.samples.length = n ∧
        ∀ x ∈ t.samples, Survives est fmt bo x := by
  obtain ⟨_, w, -, hw, -⟩ := writer_shape est hf
  induction cs with
  | nil => exact ⟨[], .nil, by simp⟩
  | cons c cs ih =>
    obtain ⟨ts, h1, h2⟩ := ih fun q hq => h q (List.mem_cons_of_mem _ hq)
    obtain ⟨blk, ps, rfl, hl, hz, hlen, hp⟩ := h _ List.mem_cons_self
    obtain ⟨hdr, g1, g2⟩ := block_of est bo hl hs hn hk hz
    obtain ⟨xs, g3, g4, g5⟩ := pieces_of hw hp
    refine ⟨⟨hdr, xs⟩ :: ts, .cons ⟨blk, ps, g2, ⟨w, hw, g5⟩, rfl⟩ h1, ?_⟩
    intro t ht
    rcases List.mem_cons.1 ht with rfl | ht
    · exact ⟨⟨g1, fun x hx => ⟨x, g4 x hx⟩, by simp only; omega⟩, by simp only; omega, g4⟩
    · exact h2 t ht

theorem chunk_unique {est : LogEst} {bo : ByteOrder} {fmt : Int} {fields : List HField} {t : Trace} {c d : Bytes}
    (h1 : Chunk est bo fmt fields t c) (h2 : Chunk est bo fmt fields t d) : c = d := by
  obtain ⟨a, ps, a1, ⟨e, e1, e2⟩, rfl⟩ := h1
  obtain ⟨b, qs, b1, ⟨e', e1', e2'⟩, rfl⟩ := h2
  rw [e1] at e1'
  have := Except.ok.inj e1'
  subst this
  rw [a1] at b1
  rw [Except.ok.inj b1, encoded_unique e2 e2']

theorem chunks_unique {est : LogEst} {bo : ByteOrder} {fmt : Int} {fields : List HField} {ts : List Trace}
    {cs ds : List Bytes} (h1 : List.Forall₂ (Chunk est bo fmt fields) ts cs)
    (h2 : List.Forall₂ (Chunk est bo fmt fields) ts ds) : cs = ds := by
  induction h1 generalizing ds with
  | nil => cases h2; rfl
  | cons a _ ih => cases h2 with | cons b c => rw [chunk_unique a b, ih c]

/-- Reading a trace back does not change the bytes it is written as. -/
theorem chunk_back {est : LogEst} {bo : ByteOrder} {fmt : Int} {fields : List HField} {t back : Trace} {c : Bytes}
    (hk : ∀ f ∈ fields, ∃ k, intKind f.ty = some k) (hi : ∀ f ∈ fields, ∃ v, headerInt t.header f.name v)
    (hb : TraceBack est fmt bo fields t back) (hsv : ∀ x ∈ t.samples, Survives est fmt bo x)
    (h : Chunk est bo fmt fields t c) : Chunk est bo fmt fields back c := by
  obtain ⟨a, ps, a1, a2, rfl⟩ := h
  exact ⟨a, ps, by rw [block_back hk hi hb.2]; exact a1, by rw [samples_same hb.1 hsv]; exact a2, rfl⟩

theorem chunks_back {est : LogEst} {bo : ByteOrder} {fmt : Int} {fields : List HField} {ts backs : List Trace}
    {cs : List Bytes} (hk : ∀ f ∈ fields, ∃ k, intKind f.ty = some k)
    (hi : ∀ t ∈ ts, ∀ f ∈ fields, ∃ v, headerInt t.header f.name v)
    (hb : List.Forall₂ (TraceBack est fmt bo fields) ts backs)
    (hsv : ∀ t ∈ ts, ∀ x ∈ t.samples, Survives est fmt bo x)
    (h : List.Forall₂ (Chunk est bo fmt fields) ts cs) :
    List.Forall₂ (Chunk est bo fmt fields) backs cs := by
  induction hb generalizing cs with
  | nil => cases h; exact .nil
  | cons a _ ih =>
    cases h with
    | cons b c =>
      exact .cons (chunk_back hk (hi _ List.mem_cons_self) a (hsv _ List.mem_cons_self) b)
        (ih (fun t ht => hi t (List.mem_cons_of_mem _ ht)) (fun t ht => hsv t (List.mem_cons_of_mem _ ht)) c)

/-- A trace that was read can be stored. -/
theorem storable_back {est : LogEst} {fmt : Int} {bo : ByteOrder} {fields : List HField} {t back : Trace}
    (hk : ∀ f ∈ fields, ∃ k, intKind f.ty = some k) (hs : Storable est fmt bo fields t)
    (hb : TraceBack est fmt bo fields t back) (hsv : ∀ x ∈ t.samples, Survives est fmt bo x) :
    Storable est fmt bo fields back := by
  have e := samples_same hb.1 hsv
  refine ⟨?_, by rw [e]; exact hs.samples, by rw [e]; exact hs.size⟩
  intro f hf
  obtain ⟨k, hk⟩ := hk f hf
  obtain ⟨v, hv, -⟩ := hs.ints f hf
  obtain ⟨r, -, h2⟩ := hb.2.2.1 f hf k hk v hv
  exact ⟨r, .inl h2, fun c => by rw [c] at hk; cases hk⟩

end Sedaman
