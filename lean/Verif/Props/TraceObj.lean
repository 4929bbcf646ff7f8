import Verif.Lemmas.TraceObj

/-!
# C66 and C42: `Trace` and `Trace::Header` objects are values
-/

namespace Sedaman.Props

open Spec

/-- **C66.** Every program that creates, copies, moves, assigns, changes, reads and destroys headers
and traces in any order gives the results it would give if they were plain values without shared
data, and it never uses data that do not exist: `Mem.run` does not end in undefined behaviour. -/
theorem C66_value_semantics (ops : List TOp) (a : Vals) (res : List TRes)
    (h : Vals.start.run ops = some (a, res)) : ∃ s, Mem.start.run ops = .ok (s, res) := by
  obtain ⟨s, _, e, _⟩ := run_ok Represents.start h
  exact ⟨s, e⟩

/-- A program with a copy that is changed, an assignment to a header inside a trace, a moved-from
trace that is used again and a self-assignment. -/
def objExample : List TOp :=
  [.newT 0 [("FFID", .int 7)] [1, 2], .copyT 1 0, .set (.inTrace 1) "FFID" (.int 8),
   .get (.inTrace 0) "FFID", .get (.inTrace 1) "FFID", .copyH 0 (.inTrace 1),
   .assignH (.inTrace 0) (.var 0), .set (.var 0) "CHAN" (.int 3), .get (.inTrace 0) "CHAN",
   .moveT 2 0 [] [], .samples 2, .assignT 0 1, .moveAssignT 0 0 [] [], .samples 0, .dropT 1,
   .get (.inTrace 0) "FFID", .dropT 0, .dropT 2, .dropH 0]

/-- What `objExample` returns. -/
def objResults : List TRes :=
  [.unit, .unit, .unit, .value (some (.int 7)), .value (some (.int 8)), .unit, .unit, .unit,
   .value none, .unit, .samples [1, 2], .unit, .unit, .samples [1, 2], .unit, .value (some (.int 8)),
   .unit, .unit, .unit]

example : (Vals.start.run objExample).map (·.2) = some objResults := by decide +kernel

theorem Vals.run_append (a : Vals) (p q : List TOp) :
    a.run (p ++ q) = (a.run p).bind fun x => (x.1.run q).map fun y => (y.1, x.2 ++ y.2) := by
  induction p generalizing a with
  | nil =>
    cases h : a.run q <;> simp [Vals.run, h]
  | cons op p ih =>
    cases h : a.step op with
    | none => simp [Vals.run, h]
    | some x =>
      cases h2 : x.1.run p with
      | none => simp [Vals.run, h, ih, h2]
      | some y => cases h3 : y.1.run q <;> simp [Vals.run, h, ih, h2, h3]

/-- A sequence of `set` calls on one header, on values. -/
theorem Vals.run_sets (a : Vals) (l : HLoc) (m : Header) (h : a.hdr l = some m)
    (sets : List (String × Value)) :
    a.run (sets.map fun p => TOp.set l p.1 p.2)
      = some (a.putH l (some (sets.foldl (fun h p => h.set p.1 p.2) m)),
          sets.map fun _ => TRes.unit) := by
  induction sets generalizing a m with
  | nil =>
    simp only [List.map_nil, List.foldl_nil, Vals.run]
    rw [putH_same h]
  | cons p t ih =>
    have h1 : (a.putH l (some (m.set p.1 p.2))).hdr l = some (m.set p.1 p.2) := if_pos rfl
    have h2 := ih _ _ h1
    have h3 : ∀ x y, (a.putH l x).putH l y = a.putH l y := by
      intro x y
      unfold Vals.putH
      congr 1
      funext k
      simp only
      split <;> rfl
    rw [h3] at h2
    simp only [List.map_cons, Vals.run, Vals.step, h, Option.bind_eq_bind, Option.bind_some, h2,
      List.foldl_cons]

/-- **C42, C66.** A copy is independent of the original: after any program in which header `l` has
the value `m`, a copy `x` of `l` can be changed with any sequence of `set` calls; `l` still returns
the values of `m`, and `x` those of the changed `m`. Exchanging the roles, `l` can be changed and the
copy keeps `m`. -/
theorem C42_copy_independent (ops : List TOp) (a : Vals) (res : List TRes)
    (h : Vals.start.run ops = some (a, res)) (l : HLoc) (m : Header) (hl : a.hdr l = some m) (x : Nat)
    (hx : a.hdr (.var x) = none) (sets : List (String × Value)) (k : String) :
    (∃ s, Mem.start.run (ops ++ (.copyH x l :: (sets.map (fun p => TOp.set (.var x) p.1 p.2) ++
        [.get l k, .get (.var x) k])))
      = .ok (s, res ++ (.unit :: (sets.map (fun _ => TRes.unit) ++
        [.value (m.get k), .value ((sets.foldl (fun h p => h.set p.1 p.2) m).get k)])))) ∧
    ∃ s, Mem.start.run (ops ++ (.copyH x l :: (sets.map (fun p => TOp.set l p.1 p.2) ++
        [.get l k, .get (.var x) k])))
      = .ok (s, res ++ (.unit :: (sets.map (fun _ => TRes.unit) ++
        [.value ((sets.foldl (fun h p => h.set p.1 p.2) m).get k), .value (m.get k)]))) := by
  have hne : l ≠ .var x := fun e => by rw [e, hx] at hl; cases hl
  have g1 : (a.putH (.var x) (some m)).hdr (.var x) = some m := if_pos rfl
  have g2 : (a.putH (.var x) (some m)).hdr l = some m := (if_neg hne).trans hl
  constructor
  · refine C66_value_semantics _ ((a.putH (.var x) (some m)).putH (.var x)
      (some (sets.foldl (fun h p => h.set p.1 p.2) m))) _ ?_
    have e1 : ∀ y, ((a.putH (.var x) (some m)).putH (.var x) y).hdr l = some m :=
      fun y => (if_neg hne).trans g2
    have e2 : ∀ y, ((a.putH (.var x) (some m)).putH (.var x) y).hdr (.var x) = y := fun y => if_pos rfl
    rw [Vals.run_append, h]
    simp only [Option.bind_some, Vals.run, Vals.step, hl, hx, if_true, Option.bind_eq_bind,
      Vals.run_append, Vals.run_sets _ _ m g1, e1, e2, Option.map_some]
  · refine C66_value_semantics _ ((a.putH (.var x) (some m)).putH l
      (some (sets.foldl (fun h p => h.set p.1 p.2) m))) _ ?_
    have e1 : ∀ y, ((a.putH (.var x) (some m)).putH l y).hdr l = y := fun y => if_pos rfl
    have e2 : ∀ y, ((a.putH (.var x) (some m)).putH l y).hdr (.var x) = some m :=
      fun y => (if_neg (Ne.symm hne)).trans g1
    rw [Vals.run_append, h]
    simp only [Option.bind_some, Vals.run, Vals.step, hl, hx, if_true, Option.bind_eq_bind,
      Vals.run_append, Vals.run_sets _ _ m g2, e1, e2, Option.map_some]

/-- A header in a trace that can be copied. -/
example : ∃ a res, Vals.start.run [.newT 0 [("FFID", .int 7)] [1]] = some (a, res) ∧
    a.hdr (.inTrace 0) = some [("FFID", .int 7)] ∧ a.hdr (.var 0) = none := ⟨_, _, rfl, rfl, rfl⟩

end Sedaman.Props
