import Verif.Model.Names
import Verif.Lemmas.Bytes
import Mathlib.Data.List.Nodup

/-!
# Properties C56 and C57: texts for the names of header fields
-/

namespace Sedaman.Props

/-- Every enumerator has a text, and different enumerators have different texts. -/
def Distinct (t : NameTable) : Prop :=
  (∀ i < t.enumerators.length, ∃ s, t.nameAsString i = .ok s) ∧
  ∀ i < t.enumerators.length, ∀ j < t.enumerators.length, ∀ s,
    t.nameAsString i = .ok s → t.nameAsString j = .ok s → i = j

theorem distinct_of {t : NameTable} (h1 : t.enumerators.length ≤ t.texts.length)
    (h2 : t.texts.Nodup) : Distinct t := by
  have key : ∀ i s, t.nameAsString i = .ok s → t.texts[i]? = some s := by
    intro i s h
    unfold NameTable.nameAsString at h
    split at h
    · rename_i s' hs
      rw [hs, Except.ok.inj h]
    · cases h
  refine ⟨fun i hi => ?_, fun i hi j hj s h h' => ?_⟩
  · refine ⟨t.texts[i]'(by omega), ?_⟩
    unfold NameTable.nameAsString
    rw [List.getElem?_eq_getElem (by omega)]
  · have e1 := key i s h
    have e2 := key j s h'
    obtain ⟨l1, e1⟩ := List.getElem?_eq_some_iff.1 e1
    obtain ⟨l2, e2⟩ := List.getElem?_eq_some_iff.1 e2
    exact (List.Nodup.getElem_inj_iff h2).1 (e1.trans e2.symm)

/-- **C56.** `BinaryHeader::name_as_string` has a text for each of the 44 enumerators, and no two
are the same. -/
theorem C56_binary_header : Distinct namesBinaryHeader :=
  distinct_of (by decide +kernel) (by decide +kernel)

/-- The enumerator `SAMP_INT`. -/
example : namesBinaryHeader.enumerators.length = 44 ∧
    namesBinaryHeader.enumerators[5]? = some "SAMP_INT" ∧
    namesBinaryHeader.nameAsString 5 = .ok "Sample interval" := by decide +kernel

/-- **C57, all structures but one.** -/
theorem C57_segd_partial (t : NameTable) (h : t ∈ segdNames) (hn : t.owner ≠ "GeneralHeaderOri") :
    Distinct t := by
  have key : segdNames.all (fun t => decide (t.owner = "GeneralHeaderOri") ||
      (decide (t.enumerators.length ≤ t.texts.length) && decide t.texts.Nodup)) = true := by
    decide +kernel
  have := List.all_eq_true.1 key t h
  simp only [Bool.or_eq_true, Bool.and_eq_true, decide_eq_true_eq] at this
  rcases this with h | h
  · exact absurd h hn
  · exact distinct_of h.1 h.2

example : segdNames.length = 29 ∧ namesChannelSetHeader.enumerators[5]? = some "DESCALE_MULTIPLIER" ∧
    namesChannelSetHeader.nameAsString 5 = .ok "Descale multiplier" := by decide +kernel

/-- **C57 fails for `GeneralHeaderOri`.** There are eleven enumerators and nine texts: the last two
enumerators read past the table, and the one before gets the text of the last. -/
theorem C57_orientation_fails : ¬ Distinct namesGeneralHeaderOri ∧
    namesGeneralHeaderOri.enumerators[8]? = some "ROT_NORTH" ∧
    namesGeneralHeaderOri.nameAsString 8 = .ok "General header type" ∧
    namesGeneralHeaderOri.enumerators[9]? = some "APPLIED" ∧
    namesGeneralHeaderOri.nameAsString 9 = .error (.ub .outOfBounds) ∧
    namesGeneralHeaderOri.enumerators[10]? = some "GEN_HEADER_TYPE" ∧
    namesGeneralHeaderOri.nameAsString 10 = .error (.ub .outOfBounds) := by
  have h : namesGeneralHeaderOri.nameAsString 9 = .error (.ub .outOfBounds) := by decide +kernel
  refine ⟨fun hd => ?_, by decide +kernel, by decide +kernel, by decide +kernel, h, by decide +kernel,
    by decide +kernel⟩
  obtain ⟨s, hs⟩ := hd.1 9 (by decide +kernel)
  rw [h] at hs
  cases hs

end Sedaman.Props
