import Verif.Spec.Edit
import Verif.Lemmas.Copy12
import Verif.Lemmas.Locality

/-!
# Lemmas about editing trace headers
-/

namespace Sedaman
open Spec

theorem fieldBytes_int (est : LogEst) (bo : ByteOrder) {ty : VType} {k : IntKind} (hk : intKind ty = some k) (v : Int) :
    fieldBytes est bo ty v = .ok (encInt bo ty.size v) := by
  cases ty <;> first
    | (simp only [fieldBytes, VType.size, writeU8_eq bo, writeI8_eq bo, writeU16_eq, writeI16_eq, writeU24_eq, writeI24_eq,
        writeU32_eq, writeI32_eq, writeU64_eq, writeI64_eq]; done)
    | cases hk

/-- Two blocks that agree in a field agree in its bytes. -/
theorem slice_get {a b : Bytes} {off n i : Nat} (h : (a.drop off).take n = (b.drop off).take n) (h1 : off ≤ i)
    (h2 : i < off + n) : a[i]? = b[i]? := by
  have e : ∀ c : Bytes, ((c.drop off).take n)[i - off]? = c[i]? := by
    intro c
    rw [List.getElem?_take, if_pos (by omega), List.getElem?_drop]
    congr 1
    omega
  rw [← e a, ← e b, h]

theorem editBytes_get_in {bo : ByteOrder} {c : Bytes} {e : Edit} (hl : e.1.off + e.1.ty.size ≤ c.length) {i : Nat}
    (h1 : e.1.off ≤ i) (h2 : i < e.1.off + e.1.ty.size) :
    (editBytes bo c e)[i]? = (encInt bo e.1.ty.size e.2)[i - e.1.off]? := by
  unfold editBytes
  have : (c.take e.1.off).length = e.1.off := by simp; omega
  rw [List.append_assoc, List.getElem?_append_right (by omega), this, List.getElem?_append_left (by simp; omega)]

theorem editBytes_get_out {bo : ByteOrder} {c : Bytes} {e : Edit} (hl : e.1.off + e.1.ty.size ≤ c.length) {i : Nat}
    (h : i < e.1.off ∨ e.1.off + e.1.ty.size ≤ i) : (editBytes bo c e)[i]? = c[i]? := by
  unfold editBytes
  have e1 : (c.take e.1.off).length = e.1.off := by simp; omega
  rcases h with h | h
  · rw [List.append_assoc, List.getElem?_append_left (by omega), List.getElem?_take, if_pos h]
  · rw [List.getElem?_append_right (by simp; omega), List.getElem?_drop]
    congr 1
    simp
    omega

theorem block_edit {est : LogEst} {bo : ByteOrder} {fields : List HField} {hdr : Header} {hb : Bytes}
    (hs : SafeFields fields) (hn : (fields.map (·.name)).Nodup)
    (h : writeBlock est bo fields hdr (List.replicate 240 0) = .ok hb) {e : Edit} (he : EditFits fields e) :
    hb.length = 240 ∧ writeBlock est bo fields (hdr.set e.1.name (.int e.2)) (List.replicate 240 0) =
      .ok (editBytes bo hb e) := by
  obtain ⟨hf, k, hk, -⟩ := he
  obtain ⟨z, hz, h⟩ := bind_ok h
  have hzl : z.length = 240 := (writeAt_length hz).trans List.length_replicate
  obtain ⟨s1, s2, s3⟩ := writeFields_spec hs.2 h
  have huniq : ∀ g ∈ fields, g.name = e.1.name → g = e.1 := fun g hg hge =>
    List.inj_on_of_nodup_map hn hg hf hge
  have hval : ∀ g ∈ fields, g ≠ e.1 → intOf (hdr.set e.1.name (.int e.2)) g.name = intOf hdr g.name := fun g hg hne =>
    intOf_congr (get_set_ne fun c => hne (huniq g hg c))
  have hvale : intOf (hdr.set e.1.name (.int e.2)) e.1.name = .ok e.2 := by
    unfold intOf
    rw [get_set, if_pos rfl]
  obtain ⟨out, ho⟩ := writeFields_total (est := est) (bo := bo) (hdr := hdr.set e.1.name (.int e.2)) (fs := fields) (buf := z)
    (fun g hg => by
      obtain ⟨t1, v, bs, t2, t3, -⟩ := s2 g hg
      refine ⟨t1, ?_⟩
      by_cases hge : g = e.1
      · subst hge
        exact ⟨_, _, hvale, fieldBytes_int est bo hk _⟩
      · exact ⟨v, bs, by rw [hval g hg hge]; exact t2, t3⟩)
  obtain ⟨o1, o2, o3⟩ := writeFields_spec hs.2 ho
  have hble : e.1.off + e.1.ty.size ≤ hb.length := by have := hs.1 _ hf; omega
  refine ⟨s1.trans hzl, ?_⟩
  have hwb : writeBlock est bo fields (hdr.set e.1.name (.int e.2)) (List.replicate 240 0) = .ok out := by
    unfold writeBlock
    simp only [hz, ok_bind]
    exact ho
  rw [hwb]
  refine congrArg Except.ok (List.ext_getElem? ?_)
  intro i
  by_cases hin : e.1.off ≤ i ∧ i < e.1.off + e.1.ty.size
  · rw [editBytes_get_in hble hin.1 hin.2]
    obtain ⟨-, v, bs, t2, t3, t4⟩ := o2 _ hf
    rw [hvale] at t2
    cases t2
    rw [fieldBytes_int est bo hk] at t3
    cases t3
    rw [← t4, List.getElem?_take, if_pos (by omega), List.getElem?_drop, show e.1.off + (i - e.1.off) = i by omega]
  · rw [editBytes_get_out hble (by omega)]
    by_cases hc : Covered fields i
    · obtain ⟨g, hg, g1, g2⟩ := hc
      have hge : g ≠ e.1 := by rintro rfl; exact hin ⟨g1, g2⟩
      obtain ⟨-, v, bs, t2, t3, t4⟩ := o2 g hg
      obtain ⟨-, v', bs', u2, u3, u4⟩ := s2 g hg
      rw [hval g hg hge, u2] at t2
      cases t2
      rw [u3] at t3
      cases t3
      exact slice_get (t4.trans u4.symm) g1 g2
    · rw [o3 i hc, s3 i hc]

theorem chunk_edit {est : LogEst} {bo : ByteOrder} {fmt : Int} {fields : List HField} {t : Trace} {c : Bytes}
    (hs : SafeFields fields) (hn : (fields.map (·.name)).Nodup) (h : Chunk est bo fmt fields t c) {e : Edit}
    (he : EditFits fields e) : Chunk est bo fmt fields (editTrace t e) (editBytes bo c e) := by
  obtain ⟨hb, ps, h1, h2, rfl⟩ := h
  obtain ⟨hl, h3⟩ := block_edit hs hn h1 he
  refine ⟨_, ps, h3, h2, ?_⟩
  have hle := hs.1 _ he.1
  unfold editBytes
  rw [List.take_append_of_le_length (by omega), List.drop_append_of_le_length (by omega)]
  simp only [List.append_assoc]

/-- Headers with just the fields of the map, all of them integers in range. -/
structure PlainHeader (fields : List HField) (h : Header) : Prop where
  values : ∀ f ∈ fields, ∃ k r, intKind f.ty = some k ∧ Reduced k r r ∧ h.get f.name = some (.int r)
  others : ∀ n, n ∉ fields.map (·.name) → h.get n = none

theorem reduced_self {k : IntKind} {v r : Int} (h : Reduced k v r) : Reduced k r r := ⟨h.1, by simp⟩

theorem reduced_unique_fit {k : IntKind} {v r : Int} (h : Reduced k v r) (hv : Reduced k v v) : r = v := by
  obtain ⟨h1, h2⟩ := h
  obtain ⟨h3, -⟩ := hv
  cases k <;> simp only [IntKind.InRange, IntKind.signed, IntKind.size, if_true, if_false, Bool.false_eq_true] at h1 h2 h3 <;> omega

theorem plain_back {est : LogEst} {fmt : Int} {bo : ByteOrder} {fields : List HField} {o t : Trace}
    (hint : ∀ f ∈ fields, ∃ k, intKind f.ty = some k) (hs : Storable est fmt bo fields o)
    (hb : TraceBack est fmt bo fields o t) : PlainHeader fields t.header := by
  refine ⟨fun f hf => ?_, fun n hn => ?_⟩
  · obtain ⟨k, hk⟩ := hint f hf
    obtain ⟨v, hv, -⟩ := hs.ints f hf
    obtain ⟨r, h1, h2⟩ := hb.2.2.1 f hf k hk v hv
    exact ⟨k, r, hk, reduced_self h1, h2⟩
  · cases hg : t.header.get n with
    | none => rfl
    | some v => exact absurd ((hb.2.1 n).1 ((get_isSome _ _).1 (by rw [hg]; rfl))) hn

theorem plain_edit {fields : List HField} {t : Trace} (hn : (fields.map (·.name)).Nodup)
    (h : PlainHeader fields t.header) {e : Edit} (he : EditFits fields e) : PlainHeader fields (editTrace t e).header := by
  refine ⟨fun f hf => ?_, fun n hm => ?_⟩
  · by_cases hc : f.name = e.1.name
    · have : f = e.1 := List.inj_on_of_nodup_map hn hf he.1 hc
      subst this
      obtain ⟨-, k, hk, hr⟩ := he
      exact ⟨k, _, hk, hr, by unfold editTrace; rw [get_set, if_pos rfl]⟩
    · obtain ⟨k, r, h1, h2, h3⟩ := h.values f hf
      exact ⟨k, r, h1, h2, by unfold editTrace; rw [get_set_ne hc]; exact h3⟩
  · unfold editTrace
    rw [get_set_ne]
    · exact h.others n hm
    · rintro rfl
      exact hm (List.mem_map.2 ⟨_, he.1, rfl⟩)

theorem same_of_back {est : LogEst} {fmt : Int} {bo : ByteOrder} {fields : List HField} {u v : Trace}
    (hp : PlainHeader fields u.header) (hsv : ∀ x ∈ u.samples, Survives est fmt bo x)
    (hb : TraceBack est fmt bo fields u v) : SameTrace u v := by
  refine ⟨samples_same hb.1 hsv, fun n => ?_⟩
  by_cases hn : n ∈ fields.map (·.name)
  · obtain ⟨f, hf, rfl⟩ := List.mem_map.1 hn
    obtain ⟨k, r, hk, hr, hg⟩ := hp.values f hf
    obtain ⟨r', h1, h2⟩ := hb.2.2.1 f hf k hk r (.inl hg)
    rw [h2, hg, reduced_unique_fit h1 hr]
  · rw [hp.others n hn]
    cases hg : v.header.get n with
    | none => rfl
    | some w => exact absurd ((hb.2.1 n).1 ((get_isSome _ _).1 (by rw [hg]; rfl))) hn

theorem storable_edit {est : LogEst} {fmt : Int} {bo : ByteOrder} {fields : List HField} {t : Trace}
    (hint : ∀ f ∈ fields, ∃ k, intKind f.ty = some k) (h : Storable est fmt bo fields t) (e : Edit) :
    Storable est fmt bo fields (editTrace t e) := by
  refine ⟨fun f hf => ?_, h.samples, h.size⟩
  obtain ⟨k, hk⟩ := hint f hf
  have hfs : ∀ v, FieldStorable est bo f.ty v := fun v c => by rw [c] at hk; cases hk
  by_cases hc : f.name = e.1.name
  · exact ⟨e.2, .inl (by unfold editTrace; rw [get_set, if_pos hc.symm]), hfs _⟩
  · obtain ⟨v, hv, -⟩ := h.ints f hf
    refine ⟨v, ?_, hfs _⟩
    unfold headerInt editTrace at *
    rw [get_set_ne hc]
    exact hv

end Sedaman
