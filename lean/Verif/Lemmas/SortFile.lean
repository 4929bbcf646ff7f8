import Verif.Lemmas.Copy12
import Verif.Lemmas.Sorted1D

/-!
# Lemmas about writing a file in sorted order
-/

namespace Sedaman

open Spec

/-- The bytes of a trace are read as the same trace by readers that differ only in what they read
from. -/
theorem isTrace_other {r : Reader} {c : Bytes} {t : Trace} (h : IsTrace r c t) (f : File) (cur ed : Nat) :
    IsTrace { r with file := f, curr := cur, endData := ed } c t := by
  obtain ⟨h1, r', h2, h3⟩ := h
  obtain ⟨h0, n, buf, rd, rest, g1, g2, g3, g4, g5, rfl⟩ := readTrace_ok h2
  exact ⟨h1, _, readTrace_of (r := { r with file := ⟨c, 0⟩, curr := cur, endData := ed }) g1 g2 g3 g4 g5, h3⟩

/-- The traces of a file are the ones its chunks are read as. -/
theorem chunks_are_traces {est : LogEst} {fmt : Int} {bo : ByteOrder} {data : Bytes} {m m' : HdrMap} {b : HBlock}
    {ts : List Trace} {cs : List Bytes} {r : Reader} (hi : Inv data m r)
    (hm : m = b :: m') (hs : SafeFields b.fields) (hn : (b.fields.map (·.name)).Nodup)
    (hsv : ∀ t ∈ ts, (∀ x ∈ t.samples, ∃ y, ComesBack est fmt bo x y) ∧ t.samples.length < 2 ^ 60)
    (hc : List.Forall₂ (Chunk est bo fmt b.fields) ts cs) (hbo : r.bo = bo)
    (hcount : ∀ t ∈ ts, CountKnown r b.fields t)
    (hfmt : r.bh.formatCode = fmt) (hmax : r.bh.maxNumAddTrHeaders = 0) :
    ∃ backs, List.Forall₂ (TraceBack est fmt bo b.fields) ts backs ∧ List.Forall₂ (IsTrace r) cs backs := by
  induction hc with
  | nil => exact ⟨[], .nil, .nil⟩
  | @cons t c ts cs hc _ ih =>
    obtain ⟨bs, e1, e2⟩ := ih (fun x hx => hsv x (List.mem_cons_of_mem _ hx))
      (fun x hx => hcount x (List.mem_cons_of_mem _ hx))
    have hw := hsv t List.mem_cons_self
    obtain ⟨back, e3, e4⟩ := isTrace_chunk (est := est) hi hm hs hn
      (by rw [hfmt, hbo]; exact hw.1) hw.2 hmax
      (hcount t List.mem_cons_self) (by rw [hfmt, hbo]; exact hc)
    rw [hfmt, hbo] at e4
    exact ⟨back :: bs, .cons e4 e1, .cons e3 e2⟩

/-- Two stable sorts of the same list are the same. -/
theorem stableSort_unique {α : Type} {hdr : α → Header} {name : String} {ts us vs : List α}
    (h1 : StableSort hdr name ts us) (h2 : StableSort hdr name ts vs)
    (hk : ∀ t ∈ ts, ∃ v, (hdr t).get name = some v ∧ Ordered v) : us = vs := by
  classical
  have hp : us.Perm vs := h1.perm.trans h2.perm.symm
  have hku : ∀ t ∈ us, ∃ v, (hdr t).get name = some v ∧ Ordered v := fun t ht => hk t (h1.perm.mem_iff.1 ht)
  have hst : ∀ v, Ordered v → withKey hdr name v us = withKey hdr name v vs := fun v hv => by
    rw [h1.stable v hv, h2.stable v hv]
  have hs1 := h1.sorted
  have hs2 := h2.sorted
  clear h1 h2 hk
  induction us generalizing vs with
  | nil => exact (List.Perm.nil_eq hp)
  | cons a l ih =>
    cases vs with
    | nil => exact absurd hp.symm.nil_eq (by simp)
    | cons b l' =>
      obtain ⟨va, ka, oa⟩ := hku a List.mem_cons_self
      obtain ⟨vb, kb, ob⟩ := hku b (hp.mem_iff.2 List.mem_cons_self)
      -- neither key comes before the other
      have n1 : ¬ KeyLt va vb := by
        rcases List.mem_cons.1 (hp.mem_iff.1 (List.mem_cons_self (a := a) (l := l))) with rfl | hm
        · rw [ka] at kb
          cases kb
          rw [keyLt_rank oa oa]
          exact lt_irrefl _
        · exact List.rel_of_pairwise_cons hs2 hm vb va kb ka
      have n2 : ¬ KeyLt vb va := by
        rcases List.mem_cons.1 (hp.mem_iff.2 (List.mem_cons_self (a := b) (l := l'))) with rfl | hm
        · rw [ka] at kb
          cases kb
          rw [keyLt_rank oa oa]
          exact lt_irrefl _
        · exact List.rel_of_pairwise_cons hs1 hm va vb ka kb
      have ha : HasKey name va (hdr a) := ⟨va, ka, by rw [keyEq_rank oa oa]⟩
      have hb : HasKey name va (hdr b) := ⟨vb, kb, n2, n1⟩
      have e := hst va oa
      unfold withKey at e
      rw [List.filter_cons_of_pos (by simpa using ha), List.filter_cons_of_pos (by simpa using hb)] at e
      have hab : a = b := (List.cons.inj e).1
      subst hab
      rw [ih (List.Perm.cons_inv hp) (fun t ht => hku t (List.mem_cons_of_mem _ ht)) (fun v hv => by
        have := hst v hv
        unfold withKey at this ⊢
        by_cases hc : HasKey name v (hdr a)
        · rw [List.filter_cons_of_pos (by simpa using hc), List.filter_cons_of_pos (by simpa using hc)] at this
          exact (List.cons.inj this).2
        · rw [List.filter_cons_of_neg (by simpa using hc), List.filter_cons_of_neg (by simpa using hc)] at this
          exact this) hs1.of_cons hs2.of_cons]

end Sedaman
