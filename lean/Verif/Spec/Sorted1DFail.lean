import Verif.Model.Sorted1DFail
import Verif.Spec.Sorted1D

/-!
# Specification of sorted reading with failures
-/

namespace Sedaman.Spec

/-- What the calls on a sorted reader return. -/
inductive SAns where
  | keys (l : List Value)
  | headers (l : List Header)
  | traces (l : List Trace)
  | header (h : Header)
  | trace (t : Trace)
  deriving DecidableEq

/-- One call in the model without failures. -/
def sAsk (s : Sorted1D) : SCall → Out (SAns × Sorted1D)
  | .getKeys => .ok (.keys s.getKeys, s)
  | .getHeaders v max => (s.getHeaders v max).map fun (x, s) => (.headers x, s)
  | .getTraces v max => (s.getTraces v max).map fun (x, s) => (.traces x, s)
  | .readHeader => s.readHeader.map fun (x, s) => (.header x, s)
  | .readTrace => s.readTrace.map fun (x, s) => (.trace x, s)

/-- One call that may fail. -/
def sAskIO (d : SD) : SCall → Out SAns × SD
  | .getKeys => (.ok (.keys d.s.getKeys), d)
  | .getHeaders v max => let (x, d) := d.getHeaders v max; (x.map .headers, d)
  | .getTraces v max => let (x, d) := d.getTraces v max; (x.map .traces, d)
  | .readHeader => let (x, d) := d.readHeader; (x.map .header, d)
  | .readTrace => let (x, d) := d.readTrace; (x.map .trace, d)

/-- A program that catches whatever is thrown and goes on: every call, its outcome and what `has_trace`
says afterwards. Nothing is said about what follows undefined behaviour. -/
def sAsks : SD → List SCall → List (SCall × Out SAns × Bool)
  | _, [] => []
  | d, c :: cs =>
    let (x, d) := sAskIO d c
    (c, x, d.s.hasTrace) ::
      match x with
      | .error (.ub _) => []
      | _ => sAsks d cs

/-- The calls that returned, with their results. -/
def returned (l : List (SCall × Out SAns × Bool)) : List (SCall × SAns × Bool) :=
  l.filterMap fun (c, x, b) =>
    match x with
    | .ok a => some (c, a, b)
    | .error _ => none

/-- In the model without failures these calls, one after the other, return these results. -/
def Answers : Sorted1D → List (SCall × SAns × Bool) → Prop
  | _, [] => True
  | s, (c, a, b) :: l => ∃ s', sAsk s c = .ok (a, s') ∧ s'.hasTrace = b ∧ Answers s' l

/-- What `read_trace` and `read_header` returned, in order. -/
def iterated (l : List (SCall × SAns × Bool)) : List (Header × Option (List Dbl)) :=
  l.filterMap fun (_, a, _) =>
    match a with
    | .header h => some (h, none)
    | .trace t => some (t.header, some t.samples)
    | _ => none

end Sedaman.Spec
