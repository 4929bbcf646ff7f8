import Verif.Model.HdrMap

/-!
# `Trace` and `Trace::Header` objects

Both classes hold a `unique_ptr` to their data. The model has a heap of such data, headers and
traces are variables with the address the pointer holds, and every member function is the sequence
of allocations, loads, stores and frees it executes. Using an address without live data of the
right kind is undefined behaviour.

Simplifications: allocation never fails; `operator delete` runs when a variable goes out of scope.
What a moved-from `unordered_map` or `vector` contains is unspecified: it is an argument of the
operation and can be anything.

Model of src/Trace.cpp and include/Trace.hpp.
-/

namespace Sedaman

/-- The data behind a pointer: `Trace::Header::Impl` or `Trace::Impl`, the latter with the pointer of
its `d_header`. Trace.cpp:13-36 -/
inductive Cell where
  | hdr (m : Header)
  | trc (header : Nat) (samples : List Dbl)

/-- A header in a program: a variable, or the result of `header()` of a trace variable. -/
inductive HLoc where
  | var (x : Nat)
  | inTrace (y : Nat)
  deriving DecidableEq, Repr

/-- Heap, next address, and the pointers held by the header and trace variables in scope. -/
structure Mem where
  cells : Nat → Option Cell
  next : Nat
  hvars : Nat → Option Nat
  tvars : Nat → Option Nat

/-- A program that has not created any object. -/
def Mem.start : Mem := ⟨fun _ => none, 0, fun _ => none, fun _ => none⟩

/-- `f` changed at `k`. -/
def upd {α : Type} (f : Nat → α) (k : Nat) (v : α) : Nat → α := fun i => if i = k then v else f i

/-- `make_unique<Impl>` -/
def Mem.alloc (s : Mem) (c : Cell) : Nat × Mem :=
  (s.next, { s with cells := upd s.cells s.next (some c), next := s.next + 1 })

/-- Data of a header. -/
def Mem.loadH (s : Mem) (p : Nat) : Out Header :=
  match s.cells p with
  | some (.hdr m) => .ok m
  | _ => isUb .nullDeref

/-- Data of a trace. -/
def Mem.loadT (s : Mem) (p : Nat) : Out (Nat × List Dbl) :=
  match s.cells p with
  | some (.trc q d) => .ok (q, d)
  | _ => isUb .nullDeref

/-- Assignment to `pimpl->d_hdr`. -/
def Mem.storeH (s : Mem) (p : Nat) (m : Header) : Out Mem :=
  match s.cells p with
  | some (.hdr _) => .ok { s with cells := upd s.cells p (some (.hdr m)) }
  | _ => isUb .nullDeref

/-- Assignment to `pimpl->d_samples`. -/
def Mem.storeT (s : Mem) (p : Nat) (d : List Dbl) : Out Mem :=
  match s.cells p with
  | some (.trc q _) => .ok { s with cells := upd s.cells p (some (.trc q d)) }
  | _ => isUb .nullDeref

/-- `delete` -/
def Mem.free (s : Mem) (p : Nat) : Out Mem :=
  match s.cells p with
  | some _ => .ok { s with cells := upd s.cells p none }
  | none => isUb .nullDeref

/-- Pointer of a variable; naming one that is not in scope does not compile, which the model counts
as undefined. -/
def inScope (v : Option Nat) : Out Nat :=
  match v with
  | some p => .ok p
  | none => isUb .nullDeref

/-- The pointer held by a header. `Trace::header`, `Trace::header_const`: Trace.cpp:38-39 -/
def Mem.hptr (s : Mem) : HLoc → Out Nat
  | .var x => inScope (s.hvars x)
  | .inTrace y => do
    let p ← inScope (s.tvars y)
    let (q, _) ← s.loadT p
    pure q

/-- `Header(Header const& hdr)`: the pointer of the new object. Trace.cpp:59-62 -/
def Mem.copyHdr (s : Mem) (q : Nat) : Out (Nat × Mem) := do
  let m ← s.loadH q
  pure (s.alloc (.hdr m))

/-- `Header(Header&& hdr)`; `left` remains in the source. Trace.cpp:64-67 -/
def Mem.moveHdr (s : Mem) (q : Nat) (left : Header) : Out (Nat × Mem) := do
  let m ← s.loadH q
  let s ← s.storeH q left
  pure (s.alloc (.hdr m))

/-- `operator=(Header const&)` with the address comparison. Trace.cpp:76-81 -/
def Mem.assignHdr (s : Mem) (p q : Nat) (self : Bool) : Out Mem := do
  if self then pure s
  else
    let m ← s.loadH q
    s.storeH p m

/-- `operator=(Header&&)` with the address comparison. Trace.cpp:83-88 -/
def Mem.moveAssignHdr (s : Mem) (p q : Nat) (self : Bool) (left : Header) : Out Mem := do
  if self then pure s
  else
    let m ← s.loadH q
    let s ← s.storeH q left
    s.storeH p m

/-- What a program can do with headers and traces. `left…` is what a moved-from map or vector
contains afterwards. -/
inductive TOp where
  /-- `Header x(m);` Trace.cpp:69-72 -/
  | newH (x : Nat) (m : Header)
  /-- `Header x(l);` -/
  | copyH (x : Nat) (l : HLoc)
  /-- `Header x(move(l));` -/
  | moveH (x : Nat) (l : HLoc) (left : Header)
  /-- `l = k;` -/
  | assignH (l k : HLoc)
  /-- `l = move(k);` -/
  | moveAssignH (l k : HLoc) (left : Header)
  /-- `l.set(key, v);` -/
  | set (l : HLoc) (key : String) (v : Value)
  /-- `l.get(key);` -/
  | get (l : HLoc) (key : String)
  /-- end of the scope of `x` -/
  | dropH (x : Nat)
  /-- `Trace y(m, d);` Trace.cpp:103-106 -/
  | newT (y : Nat) (m : Header) (d : List Dbl)
  /-- `Trace y(z);` Trace.cpp:92-95 -/
  | copyT (y z : Nat)
  /-- `Trace y(move(z));` Trace.cpp:97-101 -/
  | moveT (y z : Nat) (leftH : Header) (leftD : List Dbl)
  /-- `y = z;` Trace.cpp:110-117 -/
  | assignT (y z : Nat)
  /-- `y = move(z);` Trace.cpp:119-126 -/
  | moveAssignT (y z : Nat) (leftH : Header) (leftD : List Dbl)
  /-- `y.samples();` Trace.cpp:40 -/
  | samples (y : Nat)
  /-- end of the scope of `y` -/
  | dropT (y : Nat)

/-- What a call returns. -/
inductive TRes where
  | unit
  | value (v : Option Value)
  | samples (d : List Dbl)
  deriving DecidableEq

/-- One operation. In `copyT` and `moveT` the header passes through the parameter `h` of
`Impl(Trace::Header h, …)`, a temporary object that is moved from and destroyed. Trace.cpp:24-28 -/
def Mem.step (s : Mem) : TOp → Out (Mem × TRes)
  | .newH x m =>
    let (p, s) := s.alloc (.hdr m)
    pure ({ s with hvars := upd s.hvars x (some p) }, .unit)
  | .copyH x l => do
    let q ← s.hptr l
    let (p, s) ← s.copyHdr q
    pure ({ s with hvars := upd s.hvars x (some p) }, .unit)
  | .moveH x l left => do
    let q ← s.hptr l
    let (p, s) ← s.moveHdr q left
    pure ({ s with hvars := upd s.hvars x (some p) }, .unit)
  | .assignH l k => do
    let p ← s.hptr l
    let q ← s.hptr k
    let s ← s.assignHdr p q (l = k)
    pure (s, .unit)
  | .moveAssignH l k left => do
    let p ← s.hptr l
    let q ← s.hptr k
    let s ← s.moveAssignHdr p q (l = k) left
    pure (s, .unit)
  | .set l key v => do
    let p ← s.hptr l
    let m ← s.loadH p
    let s ← s.storeH p (m.set key v)
    pure (s, .unit)
  | .get l key => do
    let p ← s.hptr l
    let m ← s.loadH p
    pure (s, .value (m.get key))
  | .dropH x => do
    let p ← inScope (s.hvars x)
    let s ← s.free p
    pure ({ s with hvars := upd s.hvars x none }, .unit)
  | .newT y m d =>
    let (q, s) := s.alloc (.hdr m)
    let (p, s) := s.alloc (.trc q d)
    pure ({ s with tvars := upd s.tvars y (some p) }, .unit)
  | .copyT y z => do
    let o ← inScope (s.tvars z)
    let (oh, d) ← s.loadT o
    let (h, s) ← s.copyHdr oh
    let (q, s) ← s.moveHdr h []
    let (p, s) := s.alloc (.trc q d)
    let s ← s.free h
    pure ({ s with tvars := upd s.tvars y (some p) }, .unit)
  | .moveT y z leftH leftD => do
    let o ← inScope (s.tvars z)
    let (oh, d) ← s.loadT o
    let (h, s) ← s.moveHdr oh leftH
    let s ← s.storeT o leftD
    let (q, s) ← s.moveHdr h []
    let (p, s) := s.alloc (.trc q d)
    let s ← s.free h
    pure ({ s with tvars := upd s.tvars y (some p) }, .unit)
  | .assignT y z => do
    let p ← inScope (s.tvars y)
    let o ← inScope (s.tvars z)
    if y = z then pure (s, .unit)
    else
      let (ph, _) ← s.loadT p
      let (oh, d) ← s.loadT o
      let s ← s.assignHdr ph oh false
      let s ← s.storeT p d
      pure (s, .unit)
  | .moveAssignT y z leftH leftD => do
    let p ← inScope (s.tvars y)
    let o ← inScope (s.tvars z)
    if y = z then pure (s, .unit)
    else
      let (ph, _) ← s.loadT p
      let (oh, d) ← s.loadT o
      let s ← s.moveAssignHdr ph oh false leftH
      let s ← s.storeT o leftD
      let s ← s.storeT p d
      pure (s, .unit)
  | .samples y => do
    let p ← inScope (s.tvars y)
    let (_, d) ← s.loadT p
    pure (s, .samples d)
  | .dropT y => do
    let p ← inScope (s.tvars y)
    let (q, _) ← s.loadT p
    let s ← s.free q
    let s ← s.free p
    pure ({ s with tvars := upd s.tvars y none }, .unit)

/-- A whole program with the results of its calls. -/
def Mem.run (s : Mem) : List TOp → Out (Mem × List TRes)
  | [] => pure (s, [])
  | op :: ops => do
    let (s, r) ← s.step op
    let (s, rs) ← Mem.run s ops
    pure (s, r :: rs)

end Sedaman
