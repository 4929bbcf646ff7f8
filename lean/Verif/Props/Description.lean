import Verif.Model.Description

/-!
# Property C58: descriptions of trace header names
-/

namespace Sedaman.Props

/-- All names of the default trace header map. -/
def defaultNames : List String := defaultMap.flatMap fun b => b.fields.map (·.name)

/-- Names of the default map for which the table has no entry. -/
def undescribed : List String :=
  ["TRANS_CONST_MANT", "TRANS_CONST_EXP", "SOURCE_MEASUREMENT_MANT", "SOURCE_MEASUREMENT_EXP",
   "NANOSECOND"]

/-- **C58, for all but five names and one wrong text.** Every other name of the default trace header
map has a description. -/
theorem C58_described_partial (name : String) (h : name ∈ defaultNames) (hn : name ∉ undescribed) :
    ∃ s, describe name = some s := by
  have key : defaultNames.all (fun n => decide (n ∈ undescribed) || (describe n).isSome) = true := by
    decide +kernel
  have := List.all_eq_true.1 key name h
  simp only [Bool.or_eq_true, decide_eq_true_eq] at this
  rcases this with h | h
  · exact absurd h hn
  · exact Option.isSome_iff_exists.1 h

/-- **C58, for all but one name.** Different names have different descriptions, apart from `HOUR`. -/
theorem C58_distinct_partial (a b : String) (s : String) (ha : describe a = some s)
    (hb : describe b = some s) (h1 : a ≠ "HOUR") (h2 : b ≠ "HOUR") : a = b := by
  have key : headerDescription.all (fun x => headerDescription.all fun y =>
      decide (x.1 = "HOUR") || decide (y.1 = "HOUR") || decide (x.2 ≠ y.2) || decide (x.1 = y.1)) = true := by
    decide +kernel
  have get : ∀ n t, describe n = some t → (n, t) ∈ headerDescription := by
    intro n t h
    unfold describe at h
    cases hf : headerDescription.find? (fun e => decide (e.1 = n)) with
    | none => rw [hf] at h; cases h
    | some e =>
      rw [hf] at h
      have h1 := List.find?_some hf
      have h2 := List.mem_of_find?_eq_some hf
      simp only [decide_eq_true_eq] at h1
      simp only [Option.map_some, Option.some.injEq] at h
      rw [← h1, ← h]
      exact h2
  have := List.all_eq_true.1 (List.all_eq_true.1 key _ (get a s ha)) _ (get b s hb)
  simp only [Bool.or_eq_true, decide_eq_true_eq, ne_eq, not_true_eq_false] at this
  rcases this with ((h | h) | h) | h
  · exact absurd h h1
  · exact absurd h h2
  · cases h
  · exact h

/-- **C58 fails.** These names are in the default map and have no description, and the description of
the hour is that of the year. -/
theorem C58_fails : (∀ n ∈ undescribed, n ∈ defaultNames ∧ describe n = none) ∧
    describe "HOUR" = some "Year data recorded." ∧ describe "YEAR" = describe "HOUR" := by
  decide +kernel

/-- The table describes names that are not in the map instead. -/
example : (describe "NANO_SECOND").isSome ∧ "NANO_SECOND" ∉ defaultNames ∧
    describe "FFID" = some "Original field record number." ∧ "FFID" ∈ defaultNames := by
  decide +kernel

end Sedaman.Props
