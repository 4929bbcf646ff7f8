import Verif.Spec.MultiSort

/-!
# Specification: picking traces of a file
-/

namespace Sedaman.Spec

/-- The elements at these positions, in the order of the positions. A position may occur several times;
positions beyond the end count for nothing. -/
def picked {α : Type} (ks : List Nat) (l : List α) : List α := ks.filterMap fun k => l[k]?

end Sedaman.Spec
