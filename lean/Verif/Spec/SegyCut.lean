import Verif.Spec.SEGY
import Verif.Spec.MapView

/-!
# Specification for files that are cut short or still grow
-/

namespace Sedaman.Spec

/-- Calls of `read_trace` one after the other give these traces and leave the reader like this. -/
def ReadsTraces : Reader → List Trace → Reader → Prop
  | r, [], r' => r' = r
  | r, t :: ts, r' => ∃ r1, readTrace r = .ok (t, r1) ∧ ReadsTraces r1 ts r'

/-- The two files have the first `k` bytes in common. -/
def SameStart (k : Nat) (a b : Bytes) : Prop := k ≤ a.length ∧ k ≤ b.length ∧ a.take k = b.take k

/-- Where the headers in front of the traces end. -/
def headersEnd (r : Reader) : Nat := 400 + 3200 * r.texts.length

end Sedaman.Spec
