import Verif.Lemmas.ValueOrder

/-!
# The map from keys to lists
-/

namespace Sedaman

open Spec

section

variable {α : Type}

/-- What a map built from the list `l` looks like. `key` gives the key of an element. -/
structure Grouped (key : α → Value) (l : List α) (m : VecMap α) : Prop where
  keys : m.Pairwise fun a b => rank a.1 < rank b.1
  groups : ∀ g ∈ m, g.2 ≠ [] ∧ (∃ a ∈ l, key a = g.1) ∧
    g.2 = l.filter fun a => decide (rank (key a) = rank g.1)
  all : ∀ a ∈ l, ∃ g ∈ m, rank g.1 = rank (key a)

theorem mapPush_mem {m : VecMap α} {v : Value} {a : α} (hv : Ordered v)
    (hm : ∀ g ∈ m, Ordered g.1) (hs : m.Pairwise fun a b => rank a.1 < rank b.1) :
    (mapPush m v a).Pairwise (fun a b => rank a.1 < rank b.1) ∧
    (∀ g ∈ mapPush m v a, (g ∈ m ∧ rank g.1 ≠ rank v) ∨
      (∃ ps, (g.1, ps) ∈ m ∧ rank g.1 = rank v ∧ g.2 = ps ++ [a]) ∨
      (g = (v, [a]) ∧ ∀ g' ∈ m, rank g'.1 ≠ rank v)) ∧
    (∀ g ∈ m, ∃ g' ∈ mapPush m v a, g'.1 = g.1) ∧
    (∃ g ∈ mapPush m v a, rank g.1 = rank v) := by
  induction m with
  | nil =>
    refine ⟨by simp [mapPush], ?_, by simp, (v, [a]), by simp [mapPush], rfl⟩
    intro g hg
    simp only [mapPush, List.mem_singleton] at hg
    exact .inr (.inr ⟨hg, by simp⟩)
  | cons g0 t ih =>
    obtain ⟨k, ps⟩ := g0
    have hk : Ordered k := hm _ List.mem_cons_self
    have ht : ∀ g ∈ t, Ordered g.1 := fun g hg => hm g (List.mem_cons_of_mem _ hg)
    rw [List.pairwise_cons] at hs
    obtain ⟨hs1, hs2⟩ := hs
    unfold mapPush
    by_cases h1 : valueLt k v = true
    · rw [if_pos h1]
      rw [valueLt_iff, keyLt_rank hk hv] at h1
      obtain ⟨i1, i2, i3, i4⟩ := ih ht hs2
      refine ⟨List.pairwise_cons.2 ⟨fun g hg => ?_, i1⟩, ?_, ?_, ?_⟩
      · rcases i2 g hg with ⟨h, -⟩ | ⟨ps', h, -, -⟩ | ⟨h, -⟩
        · exact hs1 g h
        · exact hs1 (g.1, ps') h
        · rw [h]; exact h1
      · intro g hg
        rcases List.mem_cons.1 hg with rfl | hg
        · exact .inl ⟨List.mem_cons_self, h1.ne⟩
        · rcases i2 g hg with ⟨h, h'⟩ | ⟨ps', h, h'⟩ | ⟨h, h'⟩
          · exact .inl ⟨List.mem_cons_of_mem _ h, h'⟩
          · exact .inr (.inl ⟨ps', List.mem_cons_of_mem _ h, h'⟩)
          · refine .inr (.inr ⟨h, fun g' hg' => ?_⟩)
            rcases List.mem_cons.1 hg' with rfl | hg'
            · exact h1.ne
            · exact h' g' hg'
      · intro g hg
        rcases List.mem_cons.1 hg with rfl | hg
        · exact ⟨_, List.mem_cons_self, rfl⟩
        · obtain ⟨g', h, h'⟩ := i3 g hg
          exact ⟨g', List.mem_cons_of_mem _ h, h'⟩
      · obtain ⟨g', h, h'⟩ := i4
        exact ⟨g', List.mem_cons_of_mem _ h, h'⟩
    · rw [if_neg h1]
      rw [valueLt_iff, keyLt_rank hk hv] at h1
      by_cases h2 : valueLt v k = true
      · rw [if_pos h2]
        rw [valueLt_iff, keyLt_rank hv hk] at h2
        have hall : ∀ g ∈ (k, ps) :: t, rank v < rank g.1 := by
          intro g hg
          rcases List.mem_cons.1 hg with rfl | hg
          · exact h2
          · exact lt_trans h2 (hs1 g hg)
        refine ⟨List.pairwise_cons.2 ⟨hall, List.pairwise_cons.2 ⟨hs1, hs2⟩⟩, ?_, ?_, ?_⟩
        · intro g hg
          rcases List.mem_cons.1 hg with rfl | hg
          · exact .inr (.inr ⟨rfl, fun g' hg' => (hall g' hg').ne'⟩)
          · exact .inl ⟨hg, (hall g hg).ne'⟩
        · intro g hg
          exact ⟨g, List.mem_cons_of_mem _ hg, rfl⟩
        · exact ⟨_, List.mem_cons_self, rfl⟩
      · rw [if_neg h2]
        rw [valueLt_iff, keyLt_rank hv hk] at h2
        have he : rank k = rank v := le_antisymm (not_lt.1 h2) (not_lt.1 h1)
        refine ⟨List.pairwise_cons.2 ⟨hs1, hs2⟩, ?_, ?_, ?_⟩
        · intro g hg
          rcases List.mem_cons.1 hg with rfl | hg
          · exact .inr (.inl ⟨ps, List.mem_cons_self, he, rfl⟩)
          · refine .inl ⟨List.mem_cons_of_mem _ hg, ?_⟩
            rw [← he]
            exact (hs1 g hg).ne'
        · intro g hg
          rcases List.mem_cons.1 hg with rfl | hg
          · exact ⟨_, List.mem_cons_self, rfl⟩
          · exact ⟨g, List.mem_cons_of_mem _ hg, rfl⟩
        · exact ⟨_, List.mem_cons_self, he⟩

theorem grouped_push {key : α → Value} {l : List α} {m : VecMap α} (h : Grouped key l m)
    (ho : ∀ a ∈ l, Ordered (key a)) {a : α} (ha : Ordered (key a)) :
    Grouped key (l ++ [a]) (mapPush m (key a) a) := by
  have hm : ∀ g ∈ m, Ordered g.1 := by
    intro g hg
    obtain ⟨-, ⟨b, hb, e⟩, -⟩ := h.groups g hg
    rw [← e]; exact ho b hb
  obtain ⟨h1, h2, h3, h4⟩ := mapPush_mem (a := a) ha hm h.keys
  refine ⟨h1, fun g hg => ?_, fun b hb => ?_⟩
  · rcases h2 g hg with ⟨hg', hr⟩ | ⟨ps, hg', hr, e⟩ | ⟨rfl, hr⟩
    · obtain ⟨i1, ⟨b, hb, e⟩, i3⟩ := h.groups g hg'
      refine ⟨i1, ⟨b, List.mem_append_left _ hb, e⟩, ?_⟩
      rw [List.filter_append, ← i3]
      simp [hr.symm]
    · obtain ⟨i1, ⟨b, hb, e'⟩, i3⟩ := h.groups _ hg'
      refine ⟨by rw [e]; simp, ⟨b, List.mem_append_left _ hb, e'⟩, ?_⟩
      rw [List.filter_append, e]
      simp only at i3
      rw [← i3]
      simp [hr]
    · refine ⟨by simp, ⟨a, by simp, rfl⟩, ?_⟩
      simp only
      rw [List.filter_append]
      have : l.filter (fun b => decide (rank (key b) = rank (key a))) = [] := by
        rw [List.filter_eq_nil_iff]
        intro b hb
        obtain ⟨g, hg, e⟩ := h.all b hb
        rw [← e]
        simp only [decide_eq_true_eq]
        exact hr g hg
      rw [this]
      simp
  · rcases List.mem_append.1 hb with hb | hb
    · obtain ⟨g, hg, e⟩ := h.all b hb
      obtain ⟨g', hg', e'⟩ := h3 g hg
      exact ⟨g', hg', by rw [e', e]⟩
    · rw [List.mem_singleton] at hb
      subst hb
      exact h4

/-- The map built by pushing all elements of a list. -/
theorem grouped_foldl {key : α → Value} (l : List α) (ho : ∀ a ∈ l, Ordered (key a)) :
    Grouped key l (l.foldl (fun m a => mapPush m (key a) a) []) := by
  suffices ∀ (l2 l1 : List α) (m : VecMap α), Grouped key l1 m → (∀ a ∈ l1 ++ l2, Ordered (key a)) →
      Grouped key (l1 ++ l2) (l2.foldl (fun m a => mapPush m (key a) a) m) by
    exact this l [] [] ⟨.nil, by simp, by simp⟩ ho
  intro l2
  induction l2 with
  | nil => intro l1 m h _; simpa using h
  | cons a l2 ih =>
    intro l1 m h ho
    have := ih (l1 ++ [a]) (mapPush m (key a) a)
      (grouped_push h (fun b hb => ho b (List.mem_append_left _ hb)) (ho a (by simp)))
      (by simpa using ho)
    simpa using this

/-- Everything in the order of iteration. -/
def flat (m : VecMap α) : List α := m.flatMap (·.2)

theorem flat_filter {key : α → Value} {l : List α} {m : VecMap α} (h : Grouped key l m)
    (x : ℤ ×ₗ ℤ) :
    (flat m).filter (fun a => decide (rank (key a) = x)) =
      l.filter (fun a => decide (rank (key a) = x)) := by
  have hg : ∀ g ∈ m, g.2.filter (fun a => decide (rank (key a) = x)) =
      if rank g.1 = x then g.2 else [] := by
    intro g hg
    obtain ⟨-, -, e⟩ := h.groups g hg
    have hk : ∀ a ∈ g.2, rank (key a) = rank g.1 := by
      intro a ha
      rw [e, List.mem_filter] at ha
      simpa using ha.2
    split
    · rename_i hx
      rw [List.filter_eq_self]
      intro a ha
      rw [hk a ha]; simpa using hx
    · rename_i hx
      rw [List.filter_eq_nil_iff]
      intro a ha
      rw [hk a ha]; simpa using hx
  have step : ∀ m' : VecMap α, (∀ g ∈ m', g ∈ m) →
      (flat m').filter (fun a => decide (rank (key a) = x)) =
        m'.flatMap fun g => if rank g.1 = x then g.2 else [] := by
    intro m' hm'
    unfold flat
    rw [List.filter_flatMap]
    induction m' with
    | nil => rfl
    | cons g t ih =>
      rw [List.flatMap_cons, List.flatMap_cons, ih fun g' h' => hm' g' (List.mem_cons_of_mem _ h'),
        hg g (hm' g List.mem_cons_self)]
  rw [step m fun _ h => h]
  by_cases hx : ∃ g ∈ m, rank g.1 = x
  · obtain ⟨g, hgm, hgx⟩ := hx
    obtain ⟨-, -, e⟩ := h.groups g hgm
    rw [hgx] at e
    rw [← e]
    have hs := h.keys
    clear h hg step e
    induction m with
    | nil => cases hgm
    | cons g0 t ih =>
      rw [List.pairwise_cons] at hs
      rw [List.flatMap_cons]
      rcases List.mem_cons.1 hgm with rfl | hgm
      · rw [if_pos hgx]
        have : t.flatMap (fun g => if rank g.1 = x then g.2 else []) = [] := by
          rw [List.flatMap_eq_nil_iff]
          intro g' hg'
          rw [if_neg]
          have := hs.1 g' hg'
          rw [hgx] at this
          exact this.ne'
        rw [this, List.append_nil]
      · have := hs.1 g hgm
        rw [hgx] at this
        rw [if_neg this.ne, List.nil_append, ih hgm hs.2]
  · have e1 : m.flatMap (fun g => if rank g.1 = x then g.2 else []) = [] := by
      rw [List.flatMap_eq_nil_iff]
      intro g' hg'
      rw [if_neg fun hc => hx ⟨g', hg', hc⟩]
    rw [e1]
    symm
    rw [List.filter_eq_nil_iff]
    intro a ha hc
    obtain ⟨g, hg, e⟩ := h.all a ha
    exact hx ⟨g, hg, by rw [e]; simpa using hc⟩

theorem flat_perm {key : α → Value} {l : List α} {m : VecMap α} (h : Grouped key l m) :
    (flat m).Perm l := by
  classical
  rw [List.perm_iff_count]
  intro a
  have := congrArg (List.count a) (flat_filter h (rank (key a)))
  rwa [List.count_filter (by simp), List.count_filter (by simp)] at this

theorem flat_sorted {key : α → Value} {l : List α} {m : VecMap α} (h : Grouped key l m) :
    (flat m).Pairwise fun a b => rank (key a) ≤ rank (key b) := by
  have hk : ∀ g ∈ m, ∀ a ∈ g.2, rank (key a) = rank g.1 := by
    intro g hg a ha
    obtain ⟨-, -, e⟩ := h.groups g hg
    rw [e, List.mem_filter] at ha
    simpa using ha.2
  have hs := h.keys
  clear h
  unfold flat
  induction m with
  | nil => exact .nil
  | cons g t ih =>
    rw [List.pairwise_cons] at hs
    rw [List.flatMap_cons, List.pairwise_append]
    refine ⟨?_, ih (fun g' h' => hk g' (List.mem_cons_of_mem _ h')) hs.2, ?_⟩
    · rw [List.pairwise_iff_forall_sublist]
      intro a b hab
      have ha := hab.subset (List.mem_cons_self)
      have hb := hab.subset (List.mem_cons_of_mem _ List.mem_cons_self)
      rw [hk g List.mem_cons_self a ha, hk g List.mem_cons_self b hb]
    · intro a ha b hb
      obtain ⟨g', hg', hb⟩ := List.mem_flatMap.1 hb
      rw [hk g List.mem_cons_self a ha, hk g' (List.mem_cons_of_mem _ hg') b hb]
      exact (hs.1 g' hg').le

/-- Looking up a key. -/
theorem find_grouped {key : α → Value} {l : List α} {m : VecMap α} (h : Grouped key l m)
    (ho : ∀ a ∈ l, Ordered (key a)) {v : Value} (hv : Ordered v) :
    mapFind m v = none ∧ l.filter (fun a => decide (rank (key a) = rank v)) = [] ∨
    mapFind m v = some (l.filter fun a => decide (rank (key a) = rank v)) := by
  have hm : ∀ g ∈ m, Ordered g.1 := by
    intro g hg
    obtain ⟨-, ⟨b, hb, e⟩, -⟩ := h.groups g hg
    rw [← e]; exact ho b hb
  have hs := h.keys
  have key2 : ∀ m' : VecMap α, (∀ g ∈ m', Ordered g.1) → m'.Pairwise (fun a b => rank a.1 < rank b.1) →
      (mapFind m' v = none ∧ ∀ g ∈ m', rank g.1 ≠ rank v) ∨
      ∃ g ∈ m', rank g.1 = rank v ∧ mapFind m' v = some g.2 := by
    intro m'
    induction m' with
    | nil => intro _ _; exact .inl ⟨rfl, by simp⟩
    | cons g t ih =>
      obtain ⟨k, ps⟩ := g
      intro hm hs
      have hk : Ordered k := hm _ List.mem_cons_self
      rw [List.pairwise_cons] at hs
      unfold mapFind
      by_cases h1 : valueLt k v = true
      · rw [if_pos h1]
        rw [valueLt_iff, keyLt_rank hk hv] at h1
        rcases ih (fun g hg => hm g (List.mem_cons_of_mem _ hg)) hs.2 with ⟨i1, i2⟩ | ⟨g, i1, i2⟩
        · refine .inl ⟨i1, fun g hg => ?_⟩
          rcases List.mem_cons.1 hg with rfl | hg
          · exact h1.ne
          · exact i2 g hg
        · exact .inr ⟨g, List.mem_cons_of_mem _ i1, i2⟩
      · rw [if_neg h1]
        rw [valueLt_iff, keyLt_rank hk hv] at h1
        by_cases h2 : valueLt v k = true
        · rw [if_pos h2]
          rw [valueLt_iff, keyLt_rank hv hk] at h2
          refine .inl ⟨rfl, fun g hg => ?_⟩
          rcases List.mem_cons.1 hg with rfl | hg
          · exact h2.ne'
          · exact (lt_trans h2 (hs.1 g hg)).ne'
        · rw [if_neg h2]
          rw [valueLt_iff, keyLt_rank hv hk] at h2
          exact .inr ⟨_, List.mem_cons_self, le_antisymm (not_lt.1 h2) (not_lt.1 h1), rfl⟩
  rcases key2 m hm hs with ⟨i1, i2⟩ | ⟨g, i1, i2, i3⟩
  · refine .inl ⟨i1, ?_⟩
    rw [List.filter_eq_nil_iff]
    intro a ha hc
    obtain ⟨g, hg, e⟩ := h.all a ha
    exact i2 g hg (by rw [e]; simpa using hc)
  · refine .inr ?_
    rw [i3, (h.groups g i1).2.2, i2]

/-- Pushing and looking up do not look at the elements. -/
theorem mapPush_map {β : Type} (f : α → β) (m : VecMap α) (v : Value) (a : α) :
    mapPush (m.map fun g => (g.1, g.2.map f)) v (f a) =
      (mapPush m v a).map fun g => (g.1, g.2.map f) := by
  induction m with
  | nil => rfl
  | cons g t ih =>
    obtain ⟨k, ps⟩ := g
    simp only [List.map_cons, mapPush]
    split
    · rw [ih]; rfl
    · split
      · rfl
      · simp

theorem mapFind_map {β : Type} (f : α → β) (m : VecMap α) (v : Value) :
    mapFind (m.map fun g => (g.1, g.2.map f)) v = (mapFind m v).map (List.map f) := by
  induction m with
  | nil => rfl
  | cons g t ih =>
    obtain ⟨k, ps⟩ := g
    simp only [List.map_cons, mapFind]
    split
    · exact ih
    · split <;> rfl

end

end Sedaman
