import Verif.Model.ISEGY

/-!
# Defined behaviour

An operation is *defined* when it returns or throws. Nothing can be said about a program after
undefined behaviour, so for a reader of files from elsewhere this is the least a user needs.
-/

namespace Sedaman.Spec

/-- The call returns or throws an exception. -/
def Defined {α : Type} (x : Out α) : Prop := ∀ u, x ≠ isUb u

/-- The products the reader computes from a binary header fit into an `int`: the size of a trace in
bytes and the size of the trailer. -/
def SizesFit (bh : BinHeader) : Prop :=
  (∀ n : Nat, bytesPerSample bh.formatCode = some n →
    -2 ^ 31 ≤ samplesPerTrace bh * n ∧ samplesPerTrace bh * n < 2 ^ 31) ∧
  (bh.numOfTrailerStanza ≠ -1 →
    -2 ^ 31 ≤ bh.numOfTrailerStanza * 3200 ∧ bh.numOfTrailerStanza * 3200 < 2 ^ 31)

end Sedaman.Spec
