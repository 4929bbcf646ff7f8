import Verif.Model.ISEGYFail
import Verif.Spec.SEGY
import Verif.Spec.Safe

/-!
# Specification of reading with failures
-/

namespace Sedaman.Spec

/-- The calls of a program that reads traces. -/
inductive Ask where | header | trace
  deriving DecidableEq, Repr

/-- What they return. -/
inductive Ans where
  | header (h : Header)
  | trace (t : Trace)
  deriving DecidableEq, Repr

/-- One call that may fail. -/
def askIO (s : RS) : Ask → Out Ans × RS
  | .header => let (x, s) := rmReadHeader s; (x.map .header, s)
  | .trace => let (x, s) := rmReadTrace s; (x.map .trace, s)

/-- One call in the model without failures. -/
def ask (r : Reader) : Ask → Out (Ans × Reader)
  | .header => (readHeader r).map fun (h, r) => (.header h, r)
  | .trace => (readTrace r).map fun (t, r) => (.trace t, r)

/-- A program that catches whatever is thrown and goes on: for every call its outcome and what
`has_trace` says afterwards. -/
def asks : RS → List Ask → List (Out Ans × Bool)
  | _, [] => []
  | s, a :: as =>
    let (x, s) := askIO s a
    (x, hasTrace s.r) :: asks s as

/-- The answers up to the first failure, and the failure if there is one. -/
def answers : Reader → List Ask → List Ans × Option Err
  | _, [] => ([], none)
  | r, a :: as =>
    match ask r a with
    | .ok (x, r) => let (xs, e) := answers r as; (x :: xs, e)
    | .error e => ([], some e)

end Sedaman.Spec
