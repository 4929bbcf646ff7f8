import Verif.Spec.TraceObj
import Verif.Lemmas.Bytes

/-!
# Lemmas about `Trace` and `Trace::Header` objects
-/

namespace Sedaman

open Spec

theorem upd_same {α : Type} (f : Nat → α) (k : Nat) (v : α) : upd f k v k = v := if_pos rfl

theorem upd_other {α : Type} (f : Nat → α) {k i : Nat} (v : α) (h : i ≠ k) : upd f k v i = f i :=
  if_neg h

/-- The heap `s` represents the values `a`; `H` gives the address of the data of each header. -/
structure Represents (s : Mem) (H : HLoc → Option Nat) (a : Vals) : Prop where
  fresh : ∀ p, s.next ≤ p → s.cells p = none
  hv : ∀ x, s.hvars x = H (.var x)
  hnone : ∀ l, H l = none → a.hdr l = none
  hsome : ∀ l p, H l = some p → ∃ m, s.cells p = some (.hdr m) ∧ a.hdr l = some m
  tnone : ∀ y, s.tvars y = none → a.smp y = none ∧ H (.inTrace y) = none
  tsome : ∀ y p, s.tvars y = some p →
    ∃ q d, s.cells p = some (.trc q d) ∧ a.smp y = some d ∧ H (.inTrace y) = some q
  injH : ∀ l k p, H l = some p → H k = some p → l = k
  injT : ∀ y z p, s.tvars y = some p → s.tvars z = some p → y = z

/-- No variable refers to the address. -/
def Unowned (s : Mem) (H : HLoc → Option Nat) (p : Nat) : Prop :=
  (∀ l, H l ≠ some p) ∧ ∀ y, s.tvars y ≠ some p

variable {s : Mem} {H : HLoc → Option Nat} {a : Vals}

theorem Represents.start : Represents Mem.start (fun _ => none) Vals.start where
  fresh _ _ := rfl
  hv _ := rfl
  hnone _ _ := rfl
  hsome _ _ h := by cases h
  tnone _ _ := ⟨rfl, rfl⟩
  tsome _ _ h := by cases h
  injH _ _ _ h := by cases h
  injT _ _ _ h := by cases h

theorem Represents.hdr_of (r : Represents s H a) {l : HLoc} {m : Header} (h : a.hdr l = some m) :
    ∃ p, H l = some p ∧ s.cells p = some (.hdr m) := by
  cases e : H l with
  | none => rw [r.hnone l e] at h; cases h
  | some p =>
    obtain ⟨m', h1, h2⟩ := r.hsome l p e
    rw [h] at h2
    cases h2
    exact ⟨p, rfl, h1⟩

theorem Represents.smp_of (r : Represents s H a) {y : Nat} {d : List Dbl} (h : a.smp y = some d) :
    ∃ p q, s.tvars y = some p ∧ s.cells p = some (.trc q d) ∧ H (.inTrace y) = some q := by
  cases e : s.tvars y with
  | none => rw [(r.tnone y e).1] at h; cases h
  | some p =>
    obtain ⟨q, d', h1, h2, h3⟩ := r.tsome y p e
    rw [h] at h2
    cases h2
    exact ⟨p, q, rfl, h1, h3⟩

theorem Represents.hfree (r : Represents s H a) {l : HLoc} (h : a.hdr l = none) : H l = none := by
  cases e : H l with
  | none => rfl
  | some p =>
    obtain ⟨m, _, h2⟩ := r.hsome l p e
    rw [h] at h2
    cases h2

theorem Represents.tfree (r : Represents s H a) {y : Nat} (h : a.smp y = none) : s.tvars y = none := by
  cases e : s.tvars y with
  | none => rfl
  | some p =>
    obtain ⟨q, d, _, h2, _⟩ := r.tsome y p e
    rw [h] at h2
    cases h2

theorem Represents.hptr (r : Represents s H a) {l : HLoc} {p : Nat} (h : H l = some p) :
    s.hptr l = .ok p := by
  cases l with
  | var x =>
    show inScope (s.hvars x) = _
    rw [r.hv, h]
    rfl
  | inTrace y =>
    cases e : s.tvars y with
    | none => rw [(r.tnone y e).2] at h; cases h
    | some o =>
      obtain ⟨q, d, h1, _, h3⟩ := r.tsome y o e
      rw [h] at h3
      cases h3
      unfold Mem.hptr
      simp only
      rw [e]
      show (do let (q, _) ← s.loadT o; pure q) = _
      unfold Mem.loadT
      rw [h1]
      rfl

/-- A trace cell is not a header cell. -/
theorem Represents.apart (r : Represents s H a) {l : HLoc} {y p : Nat} (h : H l = some p)
    (ht : s.tvars y = some p) : False := by
  obtain ⟨m, h1, _⟩ := r.hsome l p h
  obtain ⟨q, d, h2, _⟩ := r.tsome y p ht
  rw [h1] at h2
  cases h2

theorem Represents.unowned_next (r : Represents s H a) : Unowned s H s.next := by
  constructor
  · intro l h
    obtain ⟨m, h1, _⟩ := r.hsome l _ h
    rw [r.fresh _ (Nat.le_refl _)] at h1
    cases h1
  · intro y h
    obtain ⟨q, d, h1, _⟩ := r.tsome y _ h
    rw [r.fresh _ (Nat.le_refl _)] at h1
    cases h1

/-- A change of an address nobody refers to. -/
theorem Represents.other (r : Represents s H a) {p : Nat} (hu : Unowned s H p) {c : Option Cell} {n : Nat}
    (hn : s.next ≤ n) (hc : c = none ∨ p < n) :
    Represents { s with cells := upd s.cells p c, next := n } H a where
  fresh i hi := by
    show upd s.cells p c i = none
    by_cases e : i = p
    · subst e
      rcases hc with h | h
      · rw [upd_same, h]
      · exact absurd hi (by show ¬ n ≤ i; omega)
    · rw [upd_other _ _ e]
      exact r.fresh i (Nat.le_trans hn hi)
  hv := r.hv
  hnone := r.hnone
  hsome l i h := by
    obtain ⟨m, h1, h2⟩ := r.hsome l i h
    exact ⟨m, (upd_other _ _ (fun e : i = p => hu.1 l (e ▸ h))).trans h1, h2⟩
  tnone := r.tnone
  tsome y i h := by
    obtain ⟨q, d, h1, h2⟩ := r.tsome y i h
    exact ⟨q, d, (upd_other _ _ (fun e : i = p => hu.2 y (e ▸ h))).trans h1, h2⟩
  injH := r.injH
  injT := r.injT

theorem Represents.alloc (r : Represents s H a) (c : Cell) : Represents (s.alloc c).2 H a :=
  r.other r.unowned_next (Nat.le_succ _) (.inr (Nat.lt_succ_self _))

theorem alloc_cell (s : Mem) (c : Cell) : (s.alloc c).2.cells s.next = some c := upd_same _ _ _

theorem alloc_keep (r : Represents s H a) (c : Cell) {p : Nat} {d : Cell} (h : s.cells p = some d) :
    (s.alloc c).2.cells p = some d := by
  refine (upd_other _ _ ?_).trans h
  intro e
  subst e
  rw [r.fresh _ (Nat.le_refl _)] at h
  cases h

theorem Represents.below (r : Represents s H a) {p : Nat} {c : Cell} (h : s.cells p = some c) :
    p < s.next := by
  refine Nat.lt_of_not_le fun hn => ?_
  rw [r.fresh p hn] at h
  cases h

/-- Storing into the data of a header. -/
theorem Represents.store (r : Represents s H a) {l : HLoc} {p : Nat} (h : H l = some p) (m : Header) :
    Represents { s with cells := upd s.cells p (some (.hdr m)) } H (a.putH l (some m)) where
  fresh i hi := by
    obtain ⟨m', h1, _⟩ := r.hsome l p h
    have := r.below h1
    exact (upd_other _ _ (by show i ≠ p; have : s.next ≤ i := hi; omega)).trans (r.fresh i hi)
  hv := r.hv
  hnone k hk := by
    show (if k = l then _ else _) = none
    rw [if_neg (fun e => by rw [e, h] at hk; cases hk)]
    exact r.hnone k hk
  hsome k i hk := by
    by_cases e : k = l
    · subst e
      rw [h] at hk
      cases hk
      exact ⟨m, upd_same _ _ _, if_pos rfl⟩
    · obtain ⟨m', h1, h2⟩ := r.hsome k i hk
      refine ⟨m', (upd_other _ _ (fun e' : i = p => e (r.injH k l p (e' ▸ hk) h))).trans h1, ?_⟩
      exact (if_neg e).trans h2
  tnone := r.tnone
  tsome y i hi := by
    obtain ⟨q, d, h1, h2⟩ := r.tsome y i hi
    exact ⟨q, d, (upd_other _ _ (fun e => r.apart h (e ▸ hi))).trans h1, h2⟩
  injH := r.injH
  injT := r.injT

/-- Give a trace other samples. -/
def Vals.putD (a : Vals) (y : Nat) (d : List Dbl) : Vals :=
  { a with smp := fun k => if k = y then some d else a.smp k }

theorem Represents.storeD (r : Represents s H a) {y p q : Nat} (h : s.tvars y = some p)
    (hq : H (.inTrace y) = some q) (d : List Dbl) :
    Represents { s with cells := upd s.cells p (some (.trc q d)) } H (Vals.putD a y d) where
  fresh i hi := by
    obtain ⟨_, _, h1, _⟩ := r.tsome y p h
    have := r.below h1
    exact (upd_other _ _ (by show i ≠ p; have : s.next ≤ i := hi; omega)).trans (r.fresh i hi)
  hv := r.hv
  hnone := r.hnone
  hsome k i hk := by
    obtain ⟨m', h1, h2⟩ := r.hsome k i hk
    exact ⟨m', (upd_other _ _ (fun e => r.apart (e ▸ hk) h)).trans h1, h2⟩
  tnone z hz := by
    refine ⟨?_, (r.tnone z hz).2⟩
    show (if z = y then _ else _) = none
    rw [if_neg (fun e => by subst e; rw [show s.tvars z = some p from h] at hz; cases hz)]
    exact (r.tnone z hz).1
  tsome z i hz := by
    by_cases e : z = y
    · subst e
      rw [show s.tvars z = some p from h] at hz
      cases hz
      exact ⟨q, d, upd_same _ _ _, if_pos rfl, hq⟩
    · obtain ⟨q', d', h1, h2, h3⟩ := r.tsome z i hz
      refine ⟨q', d', (upd_other _ _ (fun e' : i = p => e (r.injT z y p (e' ▸ hz) h))).trans h1, ?_, h3⟩
      exact (if_neg e).trans h2
  injH := r.injH
  injT := r.injT

/-- `H` changed at `l`. -/
def updH (H : HLoc → Option Nat) (l : HLoc) (v : Option Nat) : HLoc → Option Nat :=
  fun k => if k = l then v else H k

theorem updH_same (l : HLoc) (v : Option Nat) : updH H l v l = v := if_pos rfl

theorem updH_other {l k : HLoc} (v : Option Nat) (h : k ≠ l) : updH H l v k = H k := if_neg h

/-- A new header variable for data nobody refers to. -/
theorem Represents.bindH (r : Represents s H a) {x p : Nat} {m : Header} (hu : Unowned s H p)
    (hc : s.cells p = some (.hdr m)) :
    Represents { s with hvars := upd s.hvars x (some p) } (updH H (.var x) (some p))
      (a.putH (.var x) (some m)) where
  fresh := r.fresh
  hv i := by
    show upd s.hvars x (some p) i = _
    by_cases e : i = x
    · subst e; rw [upd_same, updH_same]
    · rw [upd_other _ _ e, updH_other _ (by simpa using e)]
      exact r.hv i
  hnone k hk := by
    show (if k = .var x then _ else _) = none
    by_cases e : k = .var x
    · subst e; rw [updH_same] at hk; cases hk
    · rw [updH_other _ e] at hk
      rw [if_neg e]
      exact r.hnone k hk
  hsome k i hk := by
    by_cases e : k = .var x
    · subst e
      rw [updH_same] at hk
      cases hk
      exact ⟨m, hc, if_pos rfl⟩
    · rw [updH_other _ e] at hk
      obtain ⟨m', h1, h2⟩ := r.hsome k i hk
      exact ⟨m', h1, (if_neg e).trans h2⟩
  tnone y hy := by
    refine ⟨(r.tnone y hy).1, ?_⟩
    rw [updH_other _ (by simp)]
    exact (r.tnone y hy).2
  tsome y i hi := by
    obtain ⟨q, d, h1, h2, h3⟩ := r.tsome y i hi
    exact ⟨q, d, h1, h2, by rw [updH_other _ (by simp)]; exact h3⟩
  injH k k' i h h' := by
    by_cases e : k = .var x
    · subst e
      rw [updH_same] at h
      cases h
      by_cases e' : k' = .var x
      · exact e'.symm
      · rw [updH_other _ e'] at h'
        exact absurd h' (hu.1 k')
    · rw [updH_other _ e] at h
      by_cases e' : k' = .var x
      · subst e'
        rw [updH_same] at h'
        cases h'
        exact absurd h (hu.1 k)
      · rw [updH_other _ e'] at h'
        exact r.injH k k' i h h'
  injT := r.injT

/-- A header variable leaves its scope and its data are freed. -/
theorem Represents.dropH (r : Represents s H a) {x p : Nat} (h : H (.var x) = some p) :
    Represents { s with cells := upd s.cells p none, hvars := upd s.hvars x none }
      (updH H (.var x) none) (a.putH (.var x) none) where
  fresh i hi := by
    show upd s.cells p none i = none
    by_cases e : i = p
    · subst e; rw [upd_same]
    · rw [upd_other _ _ e]; exact r.fresh i hi
  hv i := by
    show upd s.hvars x none i = _
    by_cases e : i = x
    · subst e; rw [upd_same, updH_same]
    · rw [upd_other _ _ e, updH_other _ (by simpa using e)]
      exact r.hv i
  hnone k hk := by
    show (if k = .var x then _ else _) = none
    by_cases e : k = .var x
    · rw [if_pos e]
    · rw [updH_other _ e] at hk
      rw [if_neg e]
      exact r.hnone k hk
  hsome k i hk := by
    by_cases e : k = .var x
    · subst e
      rw [updH_same] at hk
      cases hk
    · rw [updH_other _ e] at hk
      obtain ⟨m', h1, h2⟩ := r.hsome k i hk
      exact ⟨m', (upd_other _ _ (fun e' : i = p => e (r.injH _ _ p (e' ▸ hk) h))).trans h1, (if_neg e).trans h2⟩
  tnone y hy := by
    refine ⟨(r.tnone y hy).1, ?_⟩
    rw [updH_other _ (by simp)]
    exact (r.tnone y hy).2
  tsome y i hi := by
    obtain ⟨q, d, h1, h2, h3⟩ := r.tsome y i hi
    refine ⟨q, d, (upd_other _ _ (fun e => r.apart h (e ▸ hi))).trans h1, h2, ?_⟩
    rw [updH_other _ (by simp)]
    exact h3
  injH k k' i h1 h2 := by
    by_cases e : k = .var x
    · subst e; rw [updH_same] at h1; cases h1
    · by_cases e' : k' = .var x
      · subst e'; rw [updH_same] at h2; cases h2
      · rw [updH_other _ e] at h1
        rw [updH_other _ e'] at h2
        exact r.injH k k' i h1 h2
  injT := r.injT

/-- A new trace variable for data nobody refers to. -/
theorem Represents.bindT (r : Represents s H a) {y p q : Nat} {m : Header} {d : List Dbl}
    (hp : Unowned s H p) (hq : Unowned s H q) (hc : s.cells p = some (.trc q d))
    (hm : s.cells q = some (.hdr m)) :
    Represents { s with tvars := upd s.tvars y (some p) } (updH H (.inTrace y) (some q))
      (a.putT y (some m) (some d)) where
  fresh := r.fresh
  hv i := by
    rw [updH_other _ (by simp)]
    exact r.hv i
  hnone k hk := by
    show (if k = .inTrace y then _ else _) = none
    by_cases e : k = .inTrace y
    · subst e; rw [updH_same] at hk; cases hk
    · rw [updH_other _ e] at hk
      rw [if_neg e]
      exact r.hnone k hk
  hsome k i hk := by
    by_cases e : k = .inTrace y
    · subst e
      rw [updH_same] at hk
      cases hk
      exact ⟨m, hm, if_pos rfl⟩
    · rw [updH_other _ e] at hk
      obtain ⟨m', h1, h2⟩ := r.hsome k i hk
      exact ⟨m', h1, (if_neg e).trans h2⟩
  tnone z hz := by
    have hz : upd s.tvars y (some p) z = none := hz
    by_cases e : z = y
    · subst e; rw [upd_same] at hz; cases hz
    · rw [upd_other _ _ e] at hz
      refine ⟨(if_neg e).trans (r.tnone z hz).1, ?_⟩
      rw [updH_other _ (by simpa using e)]
      exact (r.tnone z hz).2
  tsome z i hz := by
    have hz : upd s.tvars y (some p) z = some i := hz
    by_cases e : z = y
    · subst e
      rw [upd_same] at hz
      cases hz
      exact ⟨q, d, hc, if_pos rfl, updH_same _ _⟩
    · rw [upd_other _ _ e] at hz
      obtain ⟨q', d', h1, h2, h3⟩ := r.tsome z i hz
      exact ⟨q', d', h1, (if_neg e).trans h2, by rw [updH_other _ (by simpa using e)]; exact h3⟩
  injH k k' i h h' := by
    by_cases e : k = .inTrace y
    · subst e
      rw [updH_same] at h
      cases h
      by_cases e' : k' = .inTrace y
      · exact e'.symm
      · rw [updH_other _ e'] at h'
        exact absurd h' (hq.1 k')
    · rw [updH_other _ e] at h
      by_cases e' : k' = .inTrace y
      · subst e'
        rw [updH_same] at h'
        cases h'
        exact absurd h (hq.1 k)
      · rw [updH_other _ e'] at h'
        exact r.injH k k' i h h'
  injT k k' i h0 h1 := by
    have h : upd s.tvars y (some p) k = some i := h0
    have h' : upd s.tvars y (some p) k' = some i := h1
    clear h0 h1
    by_cases e : k = y
    · by_cases e' : k' = y
      · rw [e, e']
      · rw [e, upd_same] at h
        rw [upd_other _ _ e', ← h] at h'
        exact absurd h' (hp.2 k')
    · by_cases e' : k' = y
      · rw [e', upd_same] at h'
        rw [upd_other _ _ e, ← h'] at h
        exact absurd h (hp.2 k)
      · rw [upd_other _ _ e] at h
        rw [upd_other _ _ e'] at h'
        exact r.injT k k' i h h'

/-- A trace variable leaves its scope and its data are freed. -/
theorem Represents.dropT (r : Represents s H a) {y p q : Nat} (h : s.tvars y = some p)
    (hq : H (.inTrace y) = some q) :
    Represents { s with cells := upd (upd s.cells q none) p none, tvars := upd s.tvars y none }
      (updH H (.inTrace y) none) (a.putT y none none) where
  fresh i hi := by
    show upd (upd s.cells q none) p none i = none
    unfold upd
    split
    · rfl
    · split
      · rfl
      · exact r.fresh i hi
  hv i := by
    rw [updH_other _ (by simp)]
    exact r.hv i
  hnone k hk := by
    show (if k = .inTrace y then _ else _) = none
    by_cases e : k = .inTrace y
    · rw [if_pos e]
    · rw [updH_other _ e] at hk
      rw [if_neg e]
      exact r.hnone k hk
  hsome k i hk := by
    by_cases e : k = .inTrace y
    · subst e
      rw [updH_same] at hk
      cases hk
    · rw [updH_other _ e] at hk
      obtain ⟨m', h1, h2⟩ := r.hsome k i hk
      refine ⟨m', ?_, (if_neg e).trans h2⟩
      refine (upd_other _ _ (fun e' => r.apart (e' ▸ hk) h)).trans ?_
      exact (upd_other _ _ (fun e' : i = q => e (r.injH _ _ q (e' ▸ hk) hq))).trans h1
  tnone z hz := by
    have hz : upd s.tvars y none z = none := hz
    by_cases e : z = y
    · subst e
      exact ⟨if_pos rfl, updH_same _ _⟩
    · rw [upd_other _ _ e] at hz
      refine ⟨(if_neg e).trans (r.tnone z hz).1, ?_⟩
      rw [updH_other _ (by simpa using e)]
      exact (r.tnone z hz).2
  tsome z i hz := by
    have hz : upd s.tvars y none z = some i := hz
    by_cases e : z = y
    · subst e
      rw [upd_same] at hz
      cases hz
    · rw [upd_other _ _ e] at hz
      obtain ⟨q', d', h1, h2, h3⟩ := r.tsome z i hz
      refine ⟨q', d', ?_, (if_neg e).trans h2, by rw [updH_other _ (by simpa using e)]; exact h3⟩
      refine (upd_other _ _ (fun e' : i = p => e (r.injT z y p (e' ▸ hz) h))).trans ?_
      exact (upd_other _ _ (fun e' => r.apart hq (e' ▸ hz))).trans h1
  injH k k' i h1 h2 := by
    by_cases e : k = .inTrace y
    · subst e; rw [updH_same] at h1; cases h1
    · by_cases e' : k' = .inTrace y
      · subst e'; rw [updH_same] at h2; cases h2
      · rw [updH_other _ e] at h1
        rw [updH_other _ e'] at h2
        exact r.injH k k' i h1 h2
  injT k k' i h1 h2 := by
    have h1 : upd s.tvars y none k = some i := h1
    have h2 : upd s.tvars y none k' = some i := h2
    by_cases e : k = y
    · subst e; rw [upd_same] at h1; cases h1
    · by_cases e' : k' = y
      · subst e'; rw [upd_same] at h2; cases h2
      · rw [upd_other _ _ e] at h1
        rw [upd_other _ _ e'] at h2
        exact r.injT k k' i h1 h2

/-! ## The operations -/

theorem loadH_ok {p : Nat} {m : Header} (h : s.cells p = some (.hdr m)) : s.loadH p = .ok m := by
  unfold Mem.loadH; rw [h]

theorem loadT_ok {p q : Nat} {d : List Dbl} (h : s.cells p = some (.trc q d)) :
    s.loadT p = .ok (q, d) := by
  unfold Mem.loadT; rw [h]

theorem storeH_ok {p : Nat} {m : Header} (n : Header) (h : s.cells p = some (.hdr m)) :
    s.storeH p n = .ok { s with cells := upd s.cells p (some (.hdr n)) } := by
  unfold Mem.storeH; rw [h]

theorem storeT_ok {p q : Nat} {d : List Dbl} (n : List Dbl) (h : s.cells p = some (.trc q d)) :
    s.storeT p n = .ok { s with cells := upd s.cells p (some (.trc q n)) } := by
  unfold Mem.storeT; rw [h]

theorem free_ok {p : Nat} {c : Cell} (h : s.cells p = some c) :
    s.free p = .ok { s with cells := upd s.cells p none } := by
  unfold Mem.free; rw [h]

theorem Represents.unowned_ge (r : Represents s H a) {p : Nat} (hp : s.next ≤ p) : Unowned s H p := by
  constructor
  · intro l h
    obtain ⟨m, h1, _⟩ := r.hsome l _ h
    have := r.below h1
    omega
  · intro y h
    obtain ⟨q, d, h1, _⟩ := r.tsome y _ h
    have := r.below h1
    omega

theorem putH_same {l : HLoc} {m : Option Header} (h : a.hdr l = m) : a.putH l m = a := by
  unfold Vals.putH
  congr 1
  funext k
  split
  · rename_i e; rw [e, h]
  · rfl

/-- Moving a header out of a variable, then into a new object nobody refers to yet. -/
theorem moveHdr_ok (r : Represents s H a) {l : HLoc} {q : Nat} {m : Header} (left : Header)
    (hq : H l = some q) (hm : s.cells q = some (.hdr m)) :
    ∃ s', s.moveHdr q left = .ok (s.next, s') ∧ s'.next = s.next + 1 ∧ s'.tvars = s.tvars ∧
      s'.cells s.next = some (.hdr m) ∧ Represents s' H (a.putH l (some left)) ∧
      (∀ p c, s.cells p = some c → p ≠ q → s'.cells p = some c) := by
  have r' := r.store hq left
  refine ⟨(Mem.alloc { s with cells := upd s.cells q (some (.hdr left)) } (.hdr m)).2, ?_, rfl, rfl, ?_,
    r'.alloc (.hdr m), ?_⟩
  · unfold Mem.moveHdr
    rw [loadH_ok hm, ok_bind, storeH_ok left hm, ok_bind]
    rfl
  · exact upd_same _ _ _
  · intro p c hc hp
    have := r.below hc
    refine (upd_other _ _ (by show p ≠ s.next; omega)).trans ?_
    exact (upd_other _ _ hp).trans hc

/-- The rest of the constructor `Impl(Trace::Header h, …)`: the parameter is moved into the member and
destroyed. -/
theorem finish_ok (r : Represents s H a) {h y : Nat} {m : Header} {d : List Dbl}
    (hu : Unowned s H h) (hm : s.cells h = some (.hdr m)) :
    ∃ s' H', (do
      let (q, s) ← s.moveHdr h []
      let (p, s) := s.alloc (.trc q d)
      let s ← s.free h
      pure ({ s with tvars := upd s.tvars y (some p) }, TRes.unit) : Out (Mem × TRes))
        = .ok (s', .unit) ∧ Represents s' H' (a.putT y (some m) (some d)) := by
  have hlt := r.below hm
  have r1 := r.other hu (c := some (.hdr [])) (Nat.le_refl _) (.inr hlt)
  have r2 := r1.alloc (.hdr m)
  have r3 := r2.alloc (.trc s.next d)
  have r4 := r3.other (p := h) hu (c := none) (Nat.le_refl _) (.inl rfl)
  have e1 : s.moveHdr h [] = .ok ((Mem.alloc { s with cells := upd s.cells h (some (.hdr [])) } (.hdr m))) := by
    unfold Mem.moveHdr
    rw [loadH_ok hm, ok_bind, storeH_ok [] hm, ok_bind]
    rfl
  rw [e1, ok_bind]
  simp only [Mem.alloc]
  rw [free_ok (c := .hdr []) (by
    show upd (upd (upd s.cells h _) s.next _) (s.next + 1) _ h = _
    rw [upd_other _ _ (by omega), upd_other _ _ (by omega), upd_same]), ok_bind]
  refine ⟨_, updH H (.inTrace y) (some s.next), rfl, ?_⟩
  refine r4.bindT (y := y) (p := s.next + 1) (q := s.next) (m := m) (d := d) ?_ ?_ ?_ ?_
  · exact r.unowned_ge (by omega)
  · exact r.unowned_ge (Nat.le_refl _)
  · show upd (upd (upd (upd s.cells h _) s.next _) (s.next + 1) _) h none (s.next + 1) = _
    rw [upd_other _ _ (by omega), upd_same]
  · show upd (upd (upd (upd s.cells h _) s.next _) (s.next + 1) _) h none s.next = _
    rw [upd_other _ _ (by omega), upd_other _ _ (by omega), upd_same]

theorem putT_eq (a : Vals) (y : Nat) (m : Header) (d : List Dbl) :
    Vals.putD (a.putH (.inTrace y) (some m)) y d = a.putT y (some m) (some d) := rfl

theorem step_ok (r : Represents s H a) {op : TOp} {a' : Vals} {res : TRes}
    (h : a.step op = some (a', res)) :
    ∃ s' H', s.step op = .ok (s', res) ∧ Represents s' H' a' := by
  cases op with
  | newH x m =>
    simp only [Vals.step] at h
    split at h
    · rename_i hx
      cases h
      refine ⟨_, _, rfl, (r.alloc (.hdr m)).bindH (x := x) (p := s.next) (m := m) ?_ (alloc_cell _ _)⟩
      exact r.unowned_next
    · cases h
  | copyH x l =>
    simp only [Vals.step, Option.bind_eq_bind, Option.bind_eq_some_iff] at h
    obtain ⟨m, hm, h⟩ := h
    split at h
    · cases h
      obtain ⟨q, hq, hc⟩ := r.hdr_of hm
      simp only [Mem.step, Mem.copyHdr, r.hptr hq, ok_bind, loadH_ok hc]
      refine ⟨_, _, rfl, (r.alloc (.hdr m)).bindH (x := x) (p := s.next) (m := m) ?_ (alloc_cell _ _)⟩
      exact r.unowned_next
    · cases h
  | moveH x l left =>
    simp only [Vals.step, Option.bind_eq_bind, Option.bind_eq_some_iff] at h
    obtain ⟨m, hm, h⟩ := h
    split at h
    · cases h
      obtain ⟨q, hq, hc⟩ := r.hdr_of hm
      obtain ⟨s', e, hn, ht, hc', r', _⟩ := moveHdr_ok r left hq hc
      simp only [Mem.step, r.hptr hq, ok_bind, e]
      refine ⟨_, _, rfl, r'.bindH (x := x) (p := s.next) (m := m) ?_ hc'⟩
      have := r.unowned_next
      exact ⟨this.1, by rw [ht]; exact this.2⟩
    · cases h
  | assignH l k =>
    simp only [Vals.step, Option.bind_eq_bind, Option.bind_eq_some_iff] at h
    obtain ⟨m0, hm0, m, hm, h⟩ := h
    cases h
    obtain ⟨p, hp, hc0⟩ := r.hdr_of hm0
    obtain ⟨q, hq, hc⟩ := r.hdr_of hm
    simp only [Mem.step, r.hptr hp, r.hptr hq, ok_bind, Mem.assignHdr]
    by_cases e : l = k
    · rw [decide_eq_true e, if_pos rfl]
      refine ⟨s, H, rfl, ?_⟩
      rw [putH_same (e ▸ hm)]
      exact r
    · rw [decide_eq_false e, if_neg (by simp), loadH_ok hc, ok_bind, storeH_ok m hc0]
      exact ⟨_, H, rfl, r.store hp m⟩
  | moveAssignH l k left =>
    simp only [Vals.step, Option.bind_eq_bind, Option.bind_eq_some_iff] at h
    obtain ⟨m0, hm0, m, hm, h⟩ := h
    obtain ⟨p, hp, hc0⟩ := r.hdr_of hm0
    obtain ⟨q, hq, hc⟩ := r.hdr_of hm
    simp only [Mem.step, r.hptr hp, r.hptr hq, ok_bind, Mem.moveAssignHdr]
    by_cases e : l = k
    · rw [if_pos e] at h
      cases h
      rw [decide_eq_true e, if_pos rfl]
      exact ⟨s, H, rfl, r⟩
    · rw [if_neg e] at h
      cases h
      have hne : p ≠ q := fun e' => e (r.injH l k q (e' ▸ hp) hq)
      rw [decide_eq_false e, if_neg (by simp), loadH_ok hc, ok_bind, storeH_ok left hc, ok_bind,
        storeH_ok (m := m0) m (by exact (upd_other _ _ hne).trans hc0)]
      exact ⟨_, H, rfl, (r.store hq left).store hp m⟩
  | set l key v =>
    simp only [Vals.step, Option.bind_eq_bind, Option.bind_eq_some_iff] at h
    obtain ⟨m, hm, h⟩ := h
    cases h
    obtain ⟨p, hp, hc⟩ := r.hdr_of hm
    simp only [Mem.step, r.hptr hp, ok_bind, loadH_ok hc, storeH_ok _ hc]
    exact ⟨_, H, rfl, r.store hp _⟩
  | get l key =>
    simp only [Vals.step, Option.bind_eq_bind, Option.bind_eq_some_iff] at h
    obtain ⟨m, hm, h⟩ := h
    cases h
    obtain ⟨p, hp, hc⟩ := r.hdr_of hm
    simp only [Mem.step, r.hptr hp, ok_bind, loadH_ok hc]
    exact ⟨_, H, rfl, r⟩
  | dropH x =>
    simp only [Vals.step, Option.bind_eq_bind, Option.bind_eq_some_iff] at h
    obtain ⟨m, hm, h⟩ := h
    cases h
    obtain ⟨p, hp, hc⟩ := r.hdr_of hm
    simp only [Mem.step, r.hv x, hp, inScope, ok_bind, free_ok hc]
    exact ⟨_, _, rfl, r.dropH hp⟩
  | newT y m d =>
    simp only [Vals.step] at h
    split at h
    · cases h
      refine ⟨_, _, rfl, ((r.alloc (.hdr m)).alloc (.trc s.next d)).bindT (y := y) (p := s.next + 1)
        (q := s.next) (m := m) (d := d) ?_ ?_ ?_ ?_⟩
      · exact r.unowned_ge (by omega)
      · exact r.unowned_next
      · exact upd_same _ _ _
      · exact (upd_other _ _ (by show s.next ≠ s.next + 1; omega)).trans (upd_same _ _ _)
    · cases h
  | copyT y z =>
    simp only [Vals.step, Option.bind_eq_bind, Option.bind_eq_some_iff] at h
    obtain ⟨m, hm, d, hd, h⟩ := h
    split at h
    · cases h
      obtain ⟨o, q, ho, hco, hq⟩ := r.smp_of hd
      obtain ⟨q', hq', hcq⟩ := r.hdr_of hm
      rw [hq] at hq'
      cases hq'
      simp only [Mem.step, ho, inScope, ok_bind, loadT_ok hco, Mem.copyHdr, loadH_ok hcq]
      exact finish_ok (r.alloc (.hdr m)) r.unowned_next (alloc_cell _ _)
    · cases h
  | moveT y z leftH leftD =>
    simp only [Vals.step, Option.bind_eq_bind, Option.bind_eq_some_iff] at h
    obtain ⟨m, hm, d, hd, h⟩ := h
    split at h
    · cases h
      obtain ⟨o, q, ho, hco, hq⟩ := r.smp_of hd
      obtain ⟨q', hq', hcq⟩ := r.hdr_of hm
      rw [hq] at hq'
      cases hq'
      obtain ⟨s', e, hn, ht, hc', r', keep⟩ := moveHdr_ok r leftH hq hcq
      have hoq : o ≠ q := fun e => r.apart hq (e ▸ ho)
      have hso := keep o _ hco hoq
      simp only [Mem.step, ho, inScope, ok_bind, loadT_ok hco, e, storeT_ok leftD hso]
      have r2 := r'.storeD (y := z) (ht ▸ ho) hq leftD
      rw [putT_eq] at r2
      refine finish_ok r2 ?_ ?_
      · have := r.unowned_next
        exact ⟨this.1, by show ∀ y, s'.tvars y ≠ _; rw [ht]; exact this.2⟩
      · refine (upd_other _ _ ?_).trans hc'
        have := r.below hco
        show s.next ≠ o
        omega
    · cases h
  | assignT y z =>
    simp only [Vals.step, Option.bind_eq_bind, Option.bind_eq_some_iff] at h
    obtain ⟨d0, hd0, m, hm, d, hd, h⟩ := h
    cases h
    obtain ⟨p, ph, hp, hcp, hph⟩ := r.smp_of hd0
    obtain ⟨o, q, ho, hco, hq⟩ := r.smp_of hd
    obtain ⟨q', hq', hcq⟩ := r.hdr_of hm
    rw [hq] at hq'
    cases hq'
    obtain ⟨m0, hc0, _⟩ := r.hsome _ _ hph
    simp only [Mem.step, hp, ho, inScope, ok_bind]
    by_cases e : y = z
    · rw [if_pos e]
      refine ⟨s, H, rfl, ?_⟩
      subst e
      have e1 : a.putT y (some m) (some d) = a := by
        unfold Vals.putT
        rw [putH_same hm]
        congr 1
        funext k
        split
        · rename_i e; rw [e, hd]
        · rfl
      rw [e1]
      exact r
    · rw [if_neg e, loadT_ok hcp, ok_bind]
      simp only [loadT_ok hco, ok_bind, Mem.assignHdr, Bool.false_eq_true, if_false, loadH_ok hcq,
        storeH_ok m hc0]
      have r1 := r.store hph m
      rw [storeT_ok (q := ph) (d := d0) d
        (by exact (upd_other _ _ (fun e' : p = ph => r.apart (e' ▸ hph) hp)).trans hcp), ok_bind]
      exact ⟨_, H, rfl, r1.storeD (y := y) hp hph d⟩
  | moveAssignT y z leftH leftD =>
    simp only [Vals.step, Option.bind_eq_bind, Option.bind_eq_some_iff] at h
    obtain ⟨d0, hd0, m, hm, d, hd, h⟩ := h
    obtain ⟨p, ph, hp, hcp, hph⟩ := r.smp_of hd0
    obtain ⟨o, q, ho, hco, hq⟩ := r.smp_of hd
    obtain ⟨q', hq', hcq⟩ := r.hdr_of hm
    rw [hq] at hq'
    cases hq'
    obtain ⟨m0, hc0, _⟩ := r.hsome _ _ hph
    simp only [Mem.step, hp, ho, inScope, ok_bind]
    by_cases e : y = z
    · rw [if_pos e] at h
      cases h
      rw [if_pos e]
      exact ⟨s, H, rfl, r⟩
    · rw [if_neg e] at h
      cases h
      have n1 : ph ≠ q := fun e' => e (by
        have := r.injH _ _ q (e' ▸ hph) hq
        simpa using this)
      have n2 : p ≠ o := fun e' => e (r.injT y z o (e' ▸ hp) ho)
      have n3 : p ≠ ph := fun e' => r.apart (e' ▸ hph) hp
      have n4 : p ≠ q := fun e' => r.apart (e' ▸ hq) hp
      have n5 : o ≠ ph := fun e' => r.apart (e' ▸ hph) ho
      have n6 : o ≠ q := fun e' => r.apart (e' ▸ hq) ho
      rw [if_neg e, loadT_ok hcp, ok_bind]
      simp only [loadT_ok hco, ok_bind, Mem.moveAssignHdr, Bool.false_eq_true, if_false, loadH_ok hcq,
        storeH_ok leftH hcq]
      have r1 := r.store hq leftH
      have r2 := r1.store hph m
      have r3 := r2.storeD (y := z) ho hq leftD
      have r4 := r3.storeD (y := y) hp hph d
      rw [storeH_ok (m := m0) m (by exact (upd_other _ _ n1).trans hc0), ok_bind]
      rw [storeT_ok (q := q) (d := d) leftD
        (by exact (upd_other _ _ n5).trans ((upd_other _ _ n6).trans hco)), ok_bind]
      rw [storeT_ok (q := ph) (d := d0) d
        (by exact (upd_other _ _ n2).trans ((upd_other _ _ n3).trans ((upd_other _ _ n4).trans hcp))),
        ok_bind]
      refine ⟨_, H, rfl, ?_⟩
      have e1 : (Vals.putD (Vals.putD ((a.putH (.inTrace z) (some leftH)).putH (.inTrace y) (some m))
          z leftD) y d) = (a.putT z (some leftH) (some leftD)).putT y (some m) (some d) := rfl
      rw [← e1]
      exact r4
  | samples y =>
    simp only [Vals.step, Option.bind_eq_bind, Option.bind_eq_some_iff] at h
    obtain ⟨d, hd, h⟩ := h
    cases h
    obtain ⟨p, q, hp, hc, _⟩ := r.smp_of hd
    simp only [Mem.step, hp, inScope, ok_bind, loadT_ok hc]
    exact ⟨_, H, rfl, r⟩
  | dropT y =>
    simp only [Vals.step, Option.bind_eq_bind, Option.bind_eq_some_iff] at h
    obtain ⟨d, hd, h⟩ := h
    cases h
    obtain ⟨p, q, hp, hc, hq⟩ := r.smp_of hd
    obtain ⟨m, hm, _⟩ := r.hsome _ _ hq
    simp only [Mem.step, hp, inScope, ok_bind, loadT_ok hc, free_ok hm]
    rw [free_ok (c := .trc q d) (by exact (upd_other _ _ (fun e => r.apart (e ▸ hq) hp)).trans hc), ok_bind]
    exact ⟨_, _, rfl, r.dropT hp hq⟩

theorem run_ok (r : Represents s H a) {ops : List TOp} {a' : Vals} {res : List TRes}
    (h : a.run ops = some (a', res)) :
    ∃ s' H', s.run ops = .ok (s', res) ∧ Represents s' H' a' := by
  induction ops generalizing s H a a' res with
  | nil =>
    simp only [Vals.run] at h
    cases h
    exact ⟨s, H, rfl, r⟩
  | cons op ops ih =>
    simp only [Vals.run, Option.bind_eq_bind, Option.bind_eq_some_iff] at h
    obtain ⟨⟨a1, r1⟩, h1, ⟨a2, r2⟩, h2, h3⟩ := h
    cases h3
    obtain ⟨s1, H1, e1, p1⟩ := step_ok r h1
    obtain ⟨s2, H2, e2, p2⟩ := ih p1 h2
    refine ⟨s2, H2, ?_, p2⟩
    simp only [Mem.run, e1, ok_bind, e2]
    rfl

end Sedaman
