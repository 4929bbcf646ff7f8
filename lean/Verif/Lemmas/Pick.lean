import Verif.Spec.Pick

/-!
# Lemmas about picking traces
-/

namespace Sedaman
open Spec

theorem picked_forall {α β : Type} {R : α → β → Prop} {xs : List α} {ys : List β} (h : List.Forall₂ R xs ys)
    (ks : List Nat) : List.Forall₂ R (picked ks xs) (picked ks ys) := by
  have hat : ∀ k : Nat, (xs[k]? = none ∧ ys[k]? = none) ∨ ∃ x y, xs[k]? = some x ∧ ys[k]? = some y ∧ R x y := by
    intro k
    induction h generalizing k with
    | nil => exact .inl ⟨rfl, rfl⟩
    | cons a _ ih =>
      cases k with
      | zero => exact .inr ⟨_, _, rfl, rfl, a⟩
      | succ k => simpa using ih k
  induction ks with
  | nil => exact .nil
  | cons k ks ih =>
    unfold picked at ih ⊢
    rw [List.filterMap_cons, List.filterMap_cons]
    rcases hat k with ⟨h1, h2⟩ | ⟨x, y, h1, h2, h3⟩
    · rw [h1, h2]; exact ih
    · rw [h1, h2]; exact .cons h3 ih

theorem picked_mem {α : Type} {ks : List Nat} {l : List α} {x : α} (h : x ∈ picked ks l) : x ∈ l := by
  obtain ⟨k, -, hk⟩ := List.mem_filterMap.1 h
  exact List.mem_of_getElem? hk

/-- What a sublist picks. -/
theorem picked_sublist {α : Type} {us ts : List α} (h : us.Sublist ts) :
    ∃ ks : List Nat, ks.Pairwise (· < ·) ∧ picked ks ts = us := by
  have hs : ∀ (ks : List Nat) (t : α) (l : List α), picked (ks.map (· + 1)) (t :: l) = picked ks l := by
    intro ks t l
    unfold picked
    rw [List.filterMap_map]
    congr 1
  induction h with
  | slnil => exact ⟨[], .nil, rfl⟩
  | cons a _ ih =>
    obtain ⟨ks, h1, h2⟩ := ih
    exact ⟨ks.map (· + 1), h1.map _ fun _ _ h => by omega, by rw [hs, h2]⟩
  | cons_cons a _ ih =>
    obtain ⟨ks, h1, h2⟩ := ih
    refine ⟨0 :: ks.map (· + 1), List.pairwise_cons.2 ⟨fun k hk => ?_, h1.map _ fun _ _ h => by omega⟩, ?_⟩
    · obtain ⟨j, -, rfl⟩ := List.mem_map.1 hk
      omega
    · have := hs ks a
      unfold picked at this h2 ⊢
      rw [List.filterMap_cons]
      simp only [List.getElem?_cons_zero, this, h2]

end Sedaman
