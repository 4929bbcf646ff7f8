import Verif.Spec.Sorted1D
import Verif.Spec.OSEGY

/-!
# Specification: sorting a file by several headers, one after the other
-/

namespace Sedaman.Spec

/-- The order by several headers, the first being the most significant: the first header in which the two
differ decides. -/
def LexBefore : List String → Header → Header → Prop
  | [], _, _ => False
  | n :: names, a, b => ∃ v w, a.get n = some v ∧ b.get n = some w ∧
      (KeyLt v w ∨ KeyEq v w ∧ LexBefore names a b)

open Classical in
/-- The elements whose headers have these values, in the order of the list. -/
noncomputable def withKeys {α : Type} (hdr : α → Header) (names : List String) (vs : List Value) (l : List α) :
    List α :=
  l.filter fun a => decide (List.Forall₂ (fun n v => HasKey n v (hdr a)) names vs)

/-- `us` are the elements of `ts`, each exactly as often, in the order by several headers, those that agree
in all of them in the order they have in `ts`. -/
structure LexSort {α : Type} (hdr : α → Header) (names : List String) (ts us : List α) : Prop where
  perm : us.Perm ts
  sorted : us.Pairwise fun a b => ¬ LexBefore names (hdr b) (hdr a)
  stable : ∀ vs, (∀ v ∈ vs, Ordered v) → withKeys hdr names vs us = withKeys hdr names vs ts

/-- A new file with the headers an open reader reports and these traces. -/
def WritesAgain (est : LogEst) : Rev → Reader → HdrMap → List Trace → Bytes → Prop
  | .r0, r, m, us, out => ∃ text w0 w, r.texts = [text] ∧ openRev0 text r.bh m = .ok w0 ∧
      writeAll (writeTraceRev0 est) w0 us = .ok w ∧ out = w.file.data
  | .r1, r, m, us, out => ∃ w0 w, openRev1 r.texts r.bh m = .ok w0 ∧
      writeAll (writeTraceRev1 est) w0 us = .ok w ∧ out = w.file.data
  | .r2, r, m, us, out => ∃ w0 w, openRev2 r.texts r.bh r.trailers m = .ok w0 ∧
      writeAll (writeTraceRev2 est) w0 us = .ok w ∧ closeRev2 w = .ok out

/-- One pass of sorting: the sorted reader is opened for a header, and all it reads is written to a new
file. -/
def SortPass (est : LogEst) (rev : Rev) (m : HdrMap) (name : String) (data out : Bytes) : Prop :=
  ∃ r s us, openReader data none m = .ok r ∧ OpensSorted data none m name s ∧ SVisits s us ∧
    WritesAgain est rev r m us out

/-- Sorting by several headers: one pass for each, the least significant first. -/
def SortPasses (est : LogEst) (rev : Rev) (m : HdrMap) : List String → Bytes → Bytes → Prop
  | [], data, out => out = data
  | n :: names, data, out => ∃ mid, SortPasses est rev m names data mid ∧ SortPass est rev m n mid out

end Sedaman.Spec
