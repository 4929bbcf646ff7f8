import Verif.Model.SegdFail
import Verif.Spec.Safe

/-!
# Specification of reading SEG-D with failures
-/

namespace Sedaman.Spec

/-- A program that calls `read_trace` `n` times, catches whatever is thrown and goes on: the outcome of
every call, and what `has_trace` and `has_record` say afterwards. -/
def asksD (pw : Dbl → Dbl) : DS → Nat → List (Out Trace × Bool × Bool)
  | _, 0 => []
  | d, n + 1 =>
    let (x, d) := smReadTrace pw d
    (x, d.s.hasTrace, d.s.hasRecord) :: asksD pw d n

/-- The same program, but before each call it asks `has_trace` and stops when there is none. -/
def triesD (pw : Dbl → Dbl) : DS → Nat → List (Out Trace)
  | _, 0 => []
  | d, n + 1 =>
    if d.s.hasTrace then
      let (x, d) := smReadTrace pw d
      x :: triesD pw d n
    else []

/-- In the model without failures: the traces up to the first failure, and the failure. -/
def answersD (pw : Dbl → Dbl) : ISegd → Nat → List Trace × Option Err
  | _, 0 => ([], none)
  | s, n + 1 =>
    match readTraceD pw s with
    | .ok (t, s) => let (ts, e) := answersD pw s n; (t :: ts, e)
    | .error e => ([], some e)

/-- The same while `has_trace`. -/
def takesD (pw : Dbl → Dbl) : ISegd → Nat → List Trace × Option Err
  | _, 0 => ([], none)
  | s, n + 1 =>
    if s.hasTrace then
      match readTraceD pw s with
      | .ok (t, s) => let (ts, e) := takesD pw s n; (t :: ts, e)
      | .error e => ([], some e)
    else ([], none)

/-- The extension map stores the numbers `read_trace` needs itself as integers. -/
def CountsAreInts (m : ExtMap) : Prop :=
  ∀ fs ∈ m, ∀ f ∈ fs, f.name ∈ ["SCAN_TYPE_NUM", "CH_SET_NUM", "SAMP_NUM"] →
    f.ty ≠ .ibm ∧ f.ty ≠ .ieeeSingle ∧ f.ty ≠ .ieeeDouble

end Sedaman.Spec
