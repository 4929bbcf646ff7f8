import Verif.Spec.Resample
import Verif.Lemmas.Edit

/-!
# Lemmas about replacing samples
-/

namespace Sedaman
open Sedaman.Spec

theorem encoded_of_comes {est : LogEst} {bo : ByteOrder} {fmt : Int} {enc : ByteOrder → Dbl → Out Bytes}
    (he : sampleWriter est fmt = .ok enc) : ∀ (xs : List Dbl), (∀ x ∈ xs, ∃ y, ComesBack est fmt bo x y) →
      ∃ ps, EncodedBy est fmt bo xs ps
  | [], _ => ⟨[], enc, he, .nil⟩
  | x :: xs, h => by
    obtain ⟨ps, e', h1, h2⟩ := encoded_of_comes he xs fun z hz => h z (List.mem_cons_of_mem _ hz)
    obtain ⟨y, w, r, bs, w1, -, w3, -⟩ := h x List.mem_cons_self
    cases w1.symm.trans h1
    exact ⟨bs :: ps, _, h1, .cons w3 h2⟩

theorem chunk_samples {est : LogEst} {bo : ByteOrder} {fmt : Int} {fields : List HField} {t : Trace} {c : Bytes}
    (h : Chunk est bo fmt fields t c) {xs : List Dbl} (hx : ∀ x ∈ xs, ∃ y, ComesBack est fmt bo x y) :
    ∃ ps, EncodedBy est fmt bo xs ps ∧ Chunk est bo fmt fields (resample t xs) (resampleBytes c ps) := by
  obtain ⟨hb, qs, h1, ⟨enc, h2, -⟩, rfl⟩ := h
  obtain ⟨ps, hp⟩ := encoded_of_comes (bo := bo) h2 xs hx
  have hl : hb.length = 240 := writeBlock_length List.length_replicate h1
  refine ⟨ps, hp, hb, ps, h1, hp, ?_⟩
  unfold resampleBytes
  rw [List.take_append_of_le_length (by omega), List.take_of_length_le (by omega)]

theorem stored_of_back {est : LogEst} {fmt : Int} {bo : ByteOrder} {fields : List HField} {u v : Trace}
    (hp : PlainHeader fields u.header) (hb : TraceBack est fmt bo fields u v) : StoredTrace est fmt bo u v := by
  refine ⟨hb.1, fun n => ?_⟩
  by_cases hn : n ∈ fields.map (·.name)
  · obtain ⟨f, hf, rfl⟩ := List.mem_map.1 hn
    obtain ⟨k, r, hk, hr, hg⟩ := hp.values f hf
    obtain ⟨r', h1, h2⟩ := hb.2.2.1 f hf k hk r (.inl hg)
    rw [h2, hg, reduced_unique_fit h1 hr]
  · rw [hp.others n hn]
    cases hg : v.header.get n with
    | none => rfl
    | some w => exact absurd ((hb.2.1 n).1 ((get_isSome _ _).1 (by rw [hg]; rfl))) hn

end Sedaman
