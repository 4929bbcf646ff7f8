import Verif.Model.Sorted1D
import Verif.Spec.SEGY
import Verif.Spec.Float
import Mathlib.Data.List.Perm.Basic
import Mathlib.Order.WithBot

/-!
# Specification of reading in sorted order
-/

namespace Sedaman.Spec

/-! ## Order of header values -/

/-- The number held by a `double`: a rational, or infinite, or nothing for NaN. -/
def dblNumber (d : Dbl) : Option (WithBot (WithTop ℚ)) :=
  match d.val with
  | .nan => none
  | .inf s => some (if s then ⊥ else ((⊤ : WithTop ℚ) : WithBot (WithTop ℚ)))
  | v => (ratOf v).map fun (q : ℚ) => ((q : WithTop ℚ) : WithBot (WithTop ℚ))

/-- The order of header values: integers before floating point values, each in the order of the
numbers. NaN is not ordered. -/
def KeyLt : Value → Value → Prop
  | .int a, .int b => a < b
  | .int _, .dbl _ => True
  | .dbl _, .int _ => False
  | .dbl a, .dbl b => ∃ x y, dblNumber a = some x ∧ dblNumber b = some y ∧ x < y

/-- Equal header values: none comes before the other. -/
def KeyEq (a b : Value) : Prop := ¬ KeyLt a b ∧ ¬ KeyLt b a

/-- A value with a place in the order. -/
def Ordered : Value → Prop
  | .int _ => True
  | .dbl d => dblNumber d ≠ none

/-- The header has the value `v` under a name. -/
def HasKey (name : String) (v : Value) (h : Header) : Prop := ∃ w, h.get name = some w ∧ KeyEq w v

open Classical in
/-- The elements of a list whose header has the value `v`, in the order of the list. -/
noncomputable def withKey {α : Type} (hdr : α → Header) (name : String) (v : Value) (l : List α) :
    List α :=
  l.filter fun a => decide (HasKey name v (hdr a))

/-- `us` are the elements of `ts`, each exactly as often, in non-decreasing order of a header, those
with equal values in the order they have in `ts`. -/
structure StableSort {α : Type} (hdr : α → Header) (name : String) (ts us : List α) : Prop where
  perm : us.Perm ts
  sorted : us.Pairwise fun a b => ∀ v w, (hdr a).get name = some v → (hdr b).get name = some w →
    ¬ KeyLt w v
  stable : ∀ v, Ordered v → withKey hdr name v us = withKey hdr name v ts

/-! ## Iterating -/

/-- The constructor returns `s`. -/
def OpensSorted (data : Bytes) (ub : Option BinHeader) (m : HdrMap) (name : String)
    (s : Sorted1D) : Prop := ∃ fuel, openSorted data ub m name fuel = some (.ok s)

/-- The constructor ends with an exception or undefined behaviour. -/
def FailsSorted (data : Bytes) (ub : Option BinHeader) (m : HdrMap) (name : String)
    (e : Err) : Prop := ∃ fuel, openSorted data ub m name fuel = some (.error e)

/-- The loop over `has_trace` of the plain reader with `read_header` meets these headers, at these
file positions. -/
def Scans : Reader → List (Nat × Header) → Prop
  | r, [] => hasTrace r = false
  | r, e :: l => hasTrace r = true ∧ r.file.pos = e.1 ∧
      ∃ r', readHeader r = .ok (e.2, r') ∧ Scans r' l

/-- The loop over `has_trace` of the sorted reader meets exactly these traces, whichever of
`read_trace` and `read_header` is called at each step. -/
def SVisits : Sorted1D → List Trace → Prop
  | s, [] => s.hasTrace = false
  | s, t :: ts => s.hasTrace = true ∧
      (∃ s', s.readTrace = .ok (t, s') ∧ SVisits s' ts) ∧
      (∃ s', s.readHeader = .ok (t.header, s') ∧ SVisits s' ts)

/-- The loop over `has_trace` of the sorted reader with `read_header` meets exactly these
headers. -/
def SHeaders : Sorted1D → List Header → Prop
  | s, [] => s.hasTrace = false
  | s, h :: hs => s.hasTrace = true ∧ ∃ s', s.readHeader = .ok (h, s') ∧ SHeaders s' hs

/-- Calls on a sorted reader. -/
inductive SCall where
  | getKeys
  | getHeaders (v : Value) (max : Nat)
  | getTraces (v : Value) (max : Nat)
  | readHeader
  | readTrace

/-- A history of calls that all return, from one state to another; the traces and headers returned
by `read_trace` and `read_header`, in order. -/
inductive SHistory : Sorted1D → List SCall → List (Header × Option (List Dbl)) → Sorted1D → Prop where
  | nil (s : Sorted1D) : SHistory s [] [] s
  | getKeys {s s' : Sorted1D} {cs : List SCall} {out : List (Header × Option (List Dbl))} :
      SHistory s cs out s' → SHistory s (.getKeys :: cs) out s'
  | getHeaders {s s1 s' : Sorted1D} {v : Value} {max : Nat} {hs : List Header} {cs : List SCall}
      {out : List (Header × Option (List Dbl))} :
      s.getHeaders v max = .ok (hs, s1) → SHistory s1 cs out s' →
      SHistory s (.getHeaders v max :: cs) out s'
  | getTraces {s s1 s' : Sorted1D} {v : Value} {max : Nat} {ts : List Trace} {cs : List SCall}
      {out : List (Header × Option (List Dbl))} :
      s.getTraces v max = .ok (ts, s1) → SHistory s1 cs out s' →
      SHistory s (.getTraces v max :: cs) out s'
  | readHeader {s s1 s' : Sorted1D} {h : Header} {cs : List SCall}
      {out : List (Header × Option (List Dbl))} :
      s.readHeader = .ok (h, s1) → SHistory s1 cs out s' →
      SHistory s (.readHeader :: cs) ((h, none) :: out) s'
  | readTrace {s s1 s' : Sorted1D} {t : Trace} {cs : List SCall}
      {out : List (Header × Option (List Dbl))} :
      s.readTrace = .ok (t, s1) → SHistory s1 cs out s' →
      SHistory s (.readTrace :: cs) ((t.header, some t.samples) :: out) s'

end Sedaman.Spec
