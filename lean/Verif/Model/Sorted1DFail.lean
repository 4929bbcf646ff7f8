import Verif.Model.ISEGYFail
import Verif.Model.Sorted1D

/-!
# Sorted SEG-Y readers after an exception

`Verif.Model.Sorted1D` gives no state after an exception. Here the same functions are modelled with the
state they leave behind in any case, on top of `Verif.Model.ISEGYFail`.
-/

namespace Sedaman

/-- A sorted reader and the `failbit` of its stream. -/
structure SD where
  s : Sorted1D
  bad : Bool

/-- `file.seekg(p)`, which leaves `curr_pos` as it is. ISEGYSorted1D.cpp:45, 59, 92, 109 -/
def rmSeek (p : Nat) : RM Unit := fun s =>
  if s.bad then (throwExn .iosFailure, s)
  else match s.r.file.seek p with
    | .ok f => (.ok (), { s with r := { s.r with file := f } })
    | .error e => (.error e, { s with bad := true })

/-- `seekg(p)` and the `read_header` of `ISEGY`. ISEGYSorted1D.cpp:45-46, 92-93 -/
def rmHeaderFrom (p : Nat) : RM Header := do
  rmSeek p
  rmReadHeader

/-- `seekg(p)` and the `read_trace` of `ISEGY`. ISEGYSorted1D.cpp:59-60, 109-110 -/
def rmTraceFrom (p : Nat) : RM Trace := do
  rmSeek p
  rmReadTrace

/-- The base class part of a sorted reader does something; the iterators stay. -/
def SD.base {α : Type} (x : RM α) (d : SD) : Out α × SD :=
  let (a, rs) := x ⟨d.s.rd, d.bad⟩
  (a, ⟨{ d.s with rd := rs.r }, rs.bad⟩)

/-- `read_header` and `read_trace`: the iterators move after the base class has returned.
ISEGYSorted1D.cpp:44-70 -/
def SD.next {α : Type} (x : Nat → RM α) (d : SD) : Out α × SD :=
  match d.s.curPos with
  | .error e => (.error e, d)
  | .ok p =>
    match d.base (x p) with
    | (.ok a, d) => (.ok a, ⟨d.s.advance, d.bad⟩)
    | (.error e, d) => (.error e, d)

/-- `read_header`. ISEGYSorted1D.cpp:44-56 -/
def SD.readHeader (d : SD) : Out Header × SD := d.next rmHeaderFrom

/-- `read_trace`. ISEGYSorted1D.cpp:58-70 -/
def SD.readTrace (d : SD) : Out Trace × SD := d.next rmTraceFrom

/-- The loop of `get_headers` and `get_traces`. ISEGYSorted1D.cpp:89-95, 106-112 -/
def rmAll {α : Type} (x : Nat → RM α) : List Nat → Nat → RM (List α)
  | [], _ => pure []
  | _ :: _, 0 => pure []
  | p :: ps, max + 1 => do
    let a ← x p
    let t ← rmAll x ps max
    pure (a :: t)

/-- `get_headers` and `get_traces`; looking up NaN is undefined behaviour (see `scanKeys`).
ISEGYSorted1D.cpp:83-115 -/
def SD.query {α : Type} (x : Nat → RM α) (v : Value) (max : Nat) (d : SD) : Out (List α) × SD :=
  if valueIsNan v then (isUb .badOrder, d)
  else
    match mapFind d.s.index v with
    | none => (.ok [], d)
    | some ps => d.base (rmAll x ps max)

/-- `get_headers(v, max_num)`. ISEGYSorted1D.cpp:83-98 -/
def SD.getHeaders (v : Value) (max : Nat) (d : SD) : Out (List Header) × SD := d.query rmHeaderFrom v max

/-- `get_traces(v, max_num)`. ISEGYSorted1D.cpp:100-115 -/
def SD.getTraces (v : Value) (max : Nat) (d : SD) : Out (List Trace) × SD := d.query rmTraceFrom v max

end Sedaman
