import Verif.Lemmas.SegdSplit
import Verif.Props.SegdJoin

/-!
# C105: SEG-D files can be cut into their records
-/

namespace Sedaman.Props

open Spec

theorem cut_all (pw : Dbl → Dbl) (m : ExtMap) : ∀ (n : Nat) {data : Bytes} {ts : List Trace}, ts.length ≤ n →
    GivesTraces pw m data ts →
    ∃ pieces, CutInto data ts pieces ∧ ∀ x ∈ pieces, GivesRecord pw m x.1 x.2 := by
  intro n
  induction n with
  | zero =>
    intro data ts hn h
    exact absurd (List.length_eq_zero_iff.1 (Nat.le_zero.1 hn)) h.1
  | succ n ih =>
    intro data ts hn h
    obtain ⟨d1, d2, ts1, ts2, rfl, rfl, hne, h1, ⟨rfl, rfl⟩ | h2⟩ := gives_first h
    · exact ⟨[(d1, ts1)], ⟨by simp, by simp⟩, by simpa using h1⟩
    · have : 0 < ts1.length := List.length_pos_of_ne_nil hne
      rw [List.length_append] at hn
      obtain ⟨pieces, hc, hp⟩ := ih (by omega) h2
      refine ⟨(d1, ts1) :: pieces, ⟨?_, ?_⟩, ?_⟩
      · rw [List.map_cons, List.flatten_cons, hc.bytes]
      · rw [List.map_cons, List.flatten_cons, hc.traces]
      · intro x hx
        rcases List.mem_cons.1 hx with rfl | hx
        · exact h1
        · exact hp x hx

/-- **C105.** A SEG-D file that can be read to its end consists of files of one record each. Each of them
opens, and they give the traces of the whole file, in order.
Missing: files with records that are not on their own, see `C105_stale`, or that have no traces, see
`C88_empty_record`. -/
theorem C105_cut_partial (pw : Dbl → Dbl) (m : ExtMap) (data : Bytes) (ts : List Trace)
    (h : GivesTraces pw m data ts) :
    ∃ pieces, CutInto data ts pieces ∧ ∀ x ∈ pieces, GivesRecord pw m x.1 x.2 :=
  cut_all pw m ts.length (Nat.le_refl _) h

/-- **C105.** Records of any such files, chosen and put together in any order, make a file with just the traces of
these records.
Missing: see `C105_cut_partial`. -/
theorem C105_choose_partial (pw : Dbl → Dbl) (m : ExtMap) (files : List (Bytes × List Trace))
    (h : ∀ x ∈ files, GivesTraces pw m x.1 x.2) :
    ∃ pieces : List (List (Bytes × List Trace)),
      List.Forall₂ (fun x ps => CutInto x.1 x.2 ps ∧ ∀ y ∈ ps, GivesRecord pw m y.1 y.2) files pieces ∧
      ∀ chosen, chosen ≠ [] → (∀ x ∈ chosen, x ∈ pieces.flatten) →
        GivesTraces pw m (chosen.map Prod.fst).flatten (chosen.map Prod.snd).flatten := by
  have : ∃ pieces : List (List (Bytes × List Trace)),
      List.Forall₂ (fun x ps => CutInto x.1 x.2 ps ∧ ∀ y ∈ ps, GivesRecord pw m y.1 y.2) files pieces ∧
      ∀ x ∈ pieces.flatten, GivesTraces pw m x.1 x.2 := by
    induction files with
    | nil => exact ⟨[], .nil, fun x hx => by cases hx⟩
    | cons x xs ih =>
      obtain ⟨ps, h1, h2⟩ := C105_cut_partial pw m x.1 x.2 (h x (List.mem_cons_self ..))
      obtain ⟨pss, k1, k2⟩ := ih fun y hy => h y (List.mem_cons_of_mem _ hy)
      refine ⟨ps :: pss, .cons ⟨h1, h2⟩ k1, fun y hy => ?_⟩
      rw [List.flatten_cons, List.mem_append] at hy
      exact hy.elim (fun hy => (h2 y hy).1) (k2 y)
  obtain ⟨pieces, h1, h2⟩ := this
  exact ⟨pieces, h1, fun chosen hne hc => C88_joined_partial pw m chosen hne fun x hx => h2 x (hc x hx)⟩

/-- A file of three records with two traces each meets the conditions. -/
example : ∃ data ts, ts.length = 6 ∧ GivesTraces hostExample.pw [] data ts := by
  obtain ⟨files, back, -, h2, h3⟩ := threeRecords
  refine ⟨files.flatten, back.flatten, ?_, h3⟩
  cases h2 with
  | cons a h2 => cases h2 with
    | cons b h2 => cases h2 with
      | cons c h2 =>
        cases h2
        have e : segdRecordIn.traces.length = 2 := rfl
        have := a.length_eq
        have := b.length_eq
        have := c.length_eq
        simp only [List.flatten_cons, List.flatten_nil, List.length_append, List.length_nil]
        omega

/-- The file of the example, with the number of extended headers also in general header 2. -/
def fileOneExt : Out Bytes :=
  segdFileOf { segdArgsExample with gh2 := { segdArgsExample.gh2 with extendedHdrBlocks := 1 } }

/-- The same as a record of an old revision: without general header 2 and without additional general headers. The
number of extended headers in general header 1 is the escape value. -/
def oldStyleExt (d : Bytes) : Bytes :=
  (((d.take 32).set 11 (d.getD 11 0 &&& 0x0f)).set 30 0xff) ++ d.drop 96

/-- **C105, counterexample.** A file of two records with two traces each can be read to its end. The second
record has no general header 2, and the reader takes the number of extended headers from that of the first.
Alone in a file the second record cannot be read to its end. -/
theorem C105_stale :
    (do let d ← fileOneExt
        let s ← openSegd (d ++ oldStyleExt d) []
        sampleCounts 9 s) = .ok ([2, 2, 2, 2], false, false) ∧
    (do let d ← fileOneExt
        let s ← openSegd (oldStyleExt d) []
        sampleCounts 9 s) = throwExn .iosFailure := by
  constructor <;> decide +kernel

end Sedaman.Props
