import Verif.Model.ISEGY

/-!
# `ISEGYSorted1D`

The reader that returns the traces of a file in the order of one header. ISEGYSorted1D.cpp
-/

namespace Sedaman

/-! ## The order of header values -/

/-- A `double` as an integer with the same order: the magnitude pattern with the sign of the number.
Both zeros give 0. -/
def dblRank (d : Dbl) : Int :=
  if 2 ^ 63 ≤ d.toNat then -((d.toNat - 2 ^ 63 : Nat) : Int) else d.toNat

/-- Whether a `double` is NaN. -/
def dblIsNan (d : Dbl) : Bool := decide (f64.infMag < d.toNat % 2 ^ 63)

/-- `a < b` on doubles, false if one of them is NaN. -/
def dblLt (a b : Dbl) : Bool := !dblIsNan a && !dblIsNan b && decide (dblRank a < dblRank b)

/-- `std::less` on `variant<int64_t, double>` (Trace.hpp:41): the alternative first, then the
value. -/
def valueLt : Value → Value → Bool
  | .int a, .int b => decide (a < b)
  | .int _, .dbl _ => true
  | .dbl _, .int _ => false
  | .dbl a, .dbl b => dblLt a b

/-- A value that the comparison does not order. -/
def valueIsNan : Value → Bool
  | .int _ => false
  | .dbl d => dblIsNan d

/-! ## `map<Value, vector<streampos>>` -/

/-- A `std::map` from values to vectors, as the list of its entries in iteration order. -/
abbrev VecMap (α : Type) := List (Value × List α)

/-- `trc_map[v].push_back(p)` for a value that is not NaN: a new entry goes to its place in the
order, an equivalent one keeps its key. ISEGYSorted1D.cpp:33 -/
def mapPush {α : Type} (m : VecMap α) (v : Value) (p : α) : VecMap α :=
  match m with
  | [] => [(v, [p])]
  | (k, ps) :: t =>
    if valueLt k v then (k, ps) :: mapPush t v p
    else if valueLt v k then (v, [p]) :: (k, ps) :: t
    else (k, ps ++ [p]) :: t

/-- `trc_map.find(v)`. ISEGYSorted1D.cpp:87, 104 -/
def mapFind {α : Type} (m : VecMap α) (v : Value) : Option (List α) :=
  match m with
  | [] => none
  | (k, ps) :: t =>
    if valueLt k v then mapFind t v else if valueLt v k then none else some ps

/-! ## The reader -/

/-- The members of `ISEGYSorted1D` and its `Impl`. `map_cur` and `vec_cur` are kept as indices; an
index equal to the length is the end iterator. ISEGYSorted1D.cpp:14-24 -/
structure Sorted1D where
  rd : Reader
  index : VecMap Nat
  mapCur : Nat
  vecCur : Nat

/-- The loop of the constructor, up to `fuel` passes: `none` means that it is still running.
A NaN key is given to the map as undefined behaviour, since its comparison is no strict weak order
then. ISEGYSorted1D.cpp:27-34 -/
def scanKeys (name : String) : Nat → Reader → VecMap Nat → Option (Out (Reader × VecMap Nat))
  | 0, _, _ => none
  | fuel + 1, r, idx =>
    if hasTrace r then
      match readHeader r with
      | .error e => some (.error e)
      | .ok (h, r') =>
        match h.get name with
        | none => some (throwExn .noSuchHeader)
        | some v =>
          if valueIsNan v then some (isUb .badOrder)
          else scanKeys name fuel r' (mapPush idx v r.file.pos)
    else some (.ok (r, idx))

/-- The iterators set at the end of the constructor: `map_cur->second` of an empty map dereferences
the end iterator. ISEGYSorted1D.cpp:35-39 -/
def startIteration (r : Reader) (idx : VecMap Nat) : Out Sorted1D :=
  match idx with
  | [] => isUb .endIterator
  | _ :: _ => .ok ⟨r, idx, 0, 0⟩

/-- Both constructors (the header of the second is `ub`), given a bound on the number of passes of
the loop. ISEGYSorted1D.cpp:26-40, 117-129 -/
def openSorted (data : Bytes) (ub : Option BinHeader) (m : HdrMap) (name : String) (fuel : Nat) :
    Option (Out Sorted1D) :=
  match openReader data ub m with
  | .error e => some (.error e)
  | .ok r =>
    match scanKeys name fuel r [] with
    | none => none
    | some (.error e) => some (.error e)
    | some (.ok (r', idx)) => some (startIteration r' idx)

/-- `has_trace`. ISEGYSorted1D.cpp:42 -/
def Sorted1D.hasTrace (s : Sorted1D) : Bool := decide (s.mapCur ≠ s.index.length)

/-- `*vec_cur`. After the last trace `vec_cur` is an end iterator. ISEGYSorted1D.cpp:45, 59 -/
def Sorted1D.curPos (s : Sorted1D) : Out Nat :=
  match s.index[s.mapCur]? with
  | none => isUb .endIterator
  | some g =>
    match g.2[s.vecCur]? with
    | none => isUb .endIterator
    | some p => .ok p

/-- `++vec_cur` and, at the end of the group, `++map_cur`. ISEGYSorted1D.cpp:47-54, 61-68 -/
def Sorted1D.advance (s : Sorted1D) : Sorted1D :=
  match s.index[s.mapCur]? with
  | none => s
  | some g =>
    if s.vecCur + 1 = g.2.length then { s with mapCur := s.mapCur + 1, vecCur := 0 }
    else { s with vecCur := s.vecCur + 1 }

/-- `seekg(p)` followed by the `read_header` of `ISEGY`. ISEGYSorted1D.cpp:45-46, 92-93 -/
def headerFrom (r : Reader) (p : Nat) : Out (Header × Reader) := do
  let f ← r.file.seek p
  readHeader { r with file := f }

/-- `seekg(p)` followed by the `read_trace` of `ISEGY`. ISEGYSorted1D.cpp:59-60, 109-110 -/
def traceFrom (r : Reader) (p : Nat) : Out (Trace × Reader) := do
  let f ← r.file.seek p
  readTrace { r with file := f }

/-- `read_header`. ISEGYSorted1D.cpp:44-56 -/
def Sorted1D.readHeader (s : Sorted1D) : Out (Header × Sorted1D) := do
  let p ← s.curPos
  let (h, r) ← headerFrom s.rd p
  pure (h, { s with rd := r }.advance)

/-- `read_trace`. ISEGYSorted1D.cpp:58-70 -/
def Sorted1D.readTrace (s : Sorted1D) : Out (Trace × Sorted1D) := do
  let p ← s.curPos
  let (t, r) ← traceFrom s.rd p
  pure (t, { s with rd := r }.advance)

/-- `get_keys`. ISEGYSorted1D.cpp:72-81 -/
def Sorted1D.getKeys (s : Sorted1D) : List Value := s.index.map (·.1)

/-- The loop of `get_headers` from one position of the vector on; `max` is what is left of
`max_num`. ISEGYSorted1D.cpp:89-95 -/
def headersFrom (r : Reader) (ps : List Nat) (max : Nat) : Out (List Header × Reader) :=
  match ps, max with
  | [], _ => .ok ([], r)
  | _ :: _, 0 => .ok ([], r)
  | p :: ps, max + 1 => do
    let (h, r) ← headerFrom r p
    let (hs, r) ← headersFrom r ps max
    pure (h :: hs, r)

/-- The loop of `get_traces`. ISEGYSorted1D.cpp:106-112 -/
def tracesFrom (r : Reader) (ps : List Nat) (max : Nat) : Out (List Trace × Reader) :=
  match ps, max with
  | [], _ => .ok ([], r)
  | _ :: _, 0 => .ok ([], r)
  | p :: ps, max + 1 => do
    let (t, r) ← traceFrom r p
    let (ts, r) ← tracesFrom r ps max
    pure (t :: ts, r)

/-- `get_headers(v, max_num)`; looking up NaN is undefined behaviour as above.
ISEGYSorted1D.cpp:83-98 -/
def Sorted1D.getHeaders (s : Sorted1D) (v : Value) (max : Nat) : Out (List Header × Sorted1D) :=
  if valueIsNan v then isUb .badOrder
  else
    match mapFind s.index v with
    | none => .ok ([], s)
    | some ps => do
      let (hs, r) ← headersFrom s.rd ps max
      pure (hs, { s with rd := r })

/-- `get_traces(v, max_num)`. ISEGYSorted1D.cpp:100-115 -/
def Sorted1D.getTraces (s : Sorted1D) (v : Value) (max : Nat) : Out (List Trace × Sorted1D) :=
  if valueIsNan v then isUb .badOrder
  else
    match mapFind s.index v with
    | none => .ok ([], s)
    | some ps => do
      let (ts, r) ← tracesFrom s.rd ps max
      pure (ts, { s with rd := r })

end Sedaman
