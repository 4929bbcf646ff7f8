import Verif.Model.OSEGYFail
import Verif.Spec.OSEGY
import Verif.Spec.Safe

/-!
# Specification of `write_trace` calls that may throw
-/

namespace Sedaman.Spec

/-- `write_trace` of each class, whether it returns or throws. -/
def Rev.call (est : LogEst) : Rev → Writer → Trace → Call
  | .r0 => writeTraceRev0IO est
  | .r1 => writeTraceRev1IO est
  | .r2 => writeTraceRev2IO est

/-- One call per trace by a program that catches whatever is thrown and goes on: the outcomes and
the writer afterwards. -/
def calls (step : Writer → Trace → Call) : Writer → List Trace → List (Out Unit) × Writer
  | w, [] => ([], w)
  | w, t :: ts =>
    let x := step w t
    let y := calls step x.2 ts
    (x.1 :: y.1, y.2)

/-- The traces whose call returned. -/
def keptOf : List (Out Unit) → List Trace → List Trace
  | .ok _ :: rs, t :: ts => t :: keptOf rs ts
  | .error _ :: rs, _ :: ts => keptOf rs ts
  | _, _ => []

/-- The traces that reach the samples once their first header block is written: SAMP_NUM is a count
where the file has traces of variable length, and the fields of the additional header blocks hold
integers (or nothing). -/
def Plain (rev : Rev) (w : Writer) (t : Trace) : Prop :=
  (rev ≠ .r0 → w.bh.fixedTrLength = 0 → ∃ n : Nat, t.header.get "SAMP_NUM" = some (.int n)) ∧
  (rev = .r2 → ∀ b ∈ w.map.drop 1, ∀ f ∈ b.fields, ∀ d, t.header.get f.name ≠ some (.dbl d))

end Sedaman.Spec
