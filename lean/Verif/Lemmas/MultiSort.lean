import Verif.Spec.MultiSort
import Mathlib.Data.List.Pairwise

/-!
# Lemmas about sorting by several headers
-/

namespace Sedaman
open Spec

theorem keyLt_irrefl (v : Value) : ¬ KeyLt v v := by
  cases v with
  | int a => exact lt_irrefl a
  | dbl d =>
    rintro ⟨x, y, h1, h2, h3⟩
    rw [h1] at h2
    cases h2
    exact lt_irrefl x h3

theorem pairwise_all {α β : Type} {R : β → α → α → Prop} {l : List α} (h : ∀ v, l.Pairwise (R v)) :
    l.Pairwise fun a b => ∀ v, R v a b := by
  induction l with
  | nil => exact .nil
  | cons a l ih =>
    exact .cons (fun b hb v => (List.pairwise_cons.mp (h v)).1 b hb)
      (ih fun v => (List.pairwise_cons.mp (h v)).2)

theorem lexSort_nil {α : Type} (hdr : α → Header) (ts : List α) : LexSort hdr [] ts ts :=
  ⟨.refl _, List.pairwise_of_forall fun _ _ h => h, fun _ _ => rfl⟩

theorem lexSort_cons {α : Type} {hdr : α → Header} {n : String} {names : List String} {ts us vs : List α}
    (h1 : LexSort hdr names ts us) (h2 : StableSort hdr n us vs)
    (hk : ∀ t ∈ us, ∃ v, (hdr t).get n = some v ∧ Ordered v) : LexSort hdr (n :: names) ts vs := by
  refine ⟨h2.perm.trans h1.perm, ?_, ?_⟩
  · have hp : vs.Pairwise fun a b => ∀ v, Ordered v → HasKey n v (hdr a) → HasKey n v (hdr b) →
        ¬ LexBefore names (hdr b) (hdr a) := by
      refine pairwise_all fun v => ?_
      by_cases hv : Ordered v
      · have := h1.sorted.filter (fun a => @decide (HasKey n v (hdr a)) (Classical.propDecidable _))
        have e := h2.stable v hv
        unfold withKey at e
        rw [← e, List.pairwise_filter] at this
        exact this.imp fun {a b} h _ ha hb => h (by simpa using ha) (by simpa using hb)
      · exact List.pairwise_of_forall fun _ _ h => absurd h hv
    have hm : ∀ t ∈ vs, ∃ v, (hdr t).get n = some v ∧ Ordered v := fun t ht => hk t (h2.perm.mem_iff.1 ht)
    refine (h2.sorted.and hp).imp_of_mem fun {a b} ha hb h c => ?_
    obtain ⟨v, w, e1, e2, c⟩ := c
    rcases c with c | ⟨c1, c2⟩
    · exact h.1 w v e2 e1 c
    · obtain ⟨v', e3, ho⟩ := hm b hb
      rw [e1] at e3
      cases e3
      exact h.2 v ho ⟨w, e2, c1.2, c1.1⟩ ⟨v, e1, keyLt_irrefl v, keyLt_irrefl v⟩ c2
  · intro l hl
    cases l with
    | nil => simp [withKeys]
    | cons v l =>
      have e : ∀ x : List α, withKeys hdr (n :: names) (v :: l) x =
          withKeys hdr names l (withKey hdr n v x) := by
        intro x
        unfold withKeys withKey
        rw [List.filter_filter]
        congr 1
        funext a
        rw [Bool.eq_iff_iff]
        simp only [decide_eq_true_eq, Bool.and_eq_true, List.forall₂_cons]
        exact and_comm
      have e' : ∀ x : List α, withKeys hdr names l (withKey hdr n v x) =
          withKey hdr n v (withKeys hdr names l x) := by
        intro x
        unfold withKeys withKey
        exact List.filter_comm ..
      rw [e, h2.stable v (hl v (by simp)), e', h1.stable l fun x hx => hl x (by simp [hx]), ← e', ← e]

theorem visits_same {r : Reader} {ts us : List Trace} (h1 : Visits r ts) (h2 : Visits r us) : ts = us := by
  induction ts generalizing r us with
  | nil =>
    cases us with
    | nil => rfl
    | cons u us => unfold Visits at h1 h2; rw [h1] at h2; cases h2.1
  | cons t ts ih =>
    cases us with
    | nil => unfold Visits at h1 h2; rw [h2] at h1; cases h1.1
    | cons u us =>
      unfold Visits at h1 h2
      obtain ⟨-, ⟨r1, a1, a2⟩, -⟩ := h1
      obtain ⟨-, ⟨r2, b1, b2⟩, -⟩ := h2
      rw [a1] at b1
      cases b1
      rw [ih a2 b2]

end Sedaman
