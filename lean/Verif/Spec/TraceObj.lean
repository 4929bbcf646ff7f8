import Verif.Model.TraceObj

/-!
# Headers and traces as plain values

The meaning a user expects: every variable has its own value, as if the classes were plain records.
-/

namespace Sedaman.Spec

/-- The values of all headers (variables and those inside traces) and of the samples of all traces in
scope. -/
structure Vals where
  hdr : HLoc → Option Header
  smp : Nat → Option (List Dbl)

/-- No variables. -/
def Vals.start : Vals := ⟨fun _ => none, fun _ => none⟩

/-- Give header `l` the value `m`. -/
def Vals.putH (a : Vals) (l : HLoc) (m : Option Header) : Vals :=
  { a with hdr := fun k => if k = l then m else a.hdr k }

/-- Give trace `y` the header `m` and samples `d`. -/
def Vals.putT (a : Vals) (y : Nat) (m : Option Header) (d : Option (List Dbl)) : Vals :=
  { hdr := (a.putH (.inTrace y) m).hdr, smp := fun k => if k = y then d else a.smp k }

/-- One operation on values; `none` if the program is not well formed (a variable is used outside its
scope or declared twice). -/
def Vals.step (a : Vals) : TOp → Option (Vals × TRes)
  | .newH x m => if a.hdr (.var x) = none then some (a.putH (.var x) (some m), .unit) else none
  | .copyH x l => do
    let m ← a.hdr l
    if a.hdr (.var x) = none then some (a.putH (.var x) (some m), .unit) else none
  | .moveH x l left => do
    let m ← a.hdr l
    if a.hdr (.var x) = none then some ((a.putH l (some left)).putH (.var x) (some m), .unit)
    else none
  | .assignH l k => do
    let _ ← a.hdr l
    let m ← a.hdr k
    some (a.putH l (some m), .unit)
  | .moveAssignH l k left => do
    let _ ← a.hdr l
    let m ← a.hdr k
    if l = k then some (a, .unit) else some ((a.putH k (some left)).putH l (some m), .unit)
  | .set l key v => do
    let m ← a.hdr l
    some (a.putH l (some (m.set key v)), .unit)
  | .get l key => do
    let m ← a.hdr l
    some (a, .value (m.get key))
  | .dropH x => do
    let _ ← a.hdr (.var x)
    some (a.putH (.var x) none, .unit)
  | .newT y m d => if a.smp y = none then some (a.putT y (some m) (some d), .unit) else none
  | .copyT y z => do
    let m ← a.hdr (.inTrace z)
    let d ← a.smp z
    if a.smp y = none then some (a.putT y (some m) (some d), .unit) else none
  | .moveT y z leftH leftD => do
    let m ← a.hdr (.inTrace z)
    let d ← a.smp z
    if a.smp y = none then
      some ((a.putT z (some leftH) (some leftD)).putT y (some m) (some d), .unit)
    else none
  | .assignT y z => do
    let _ ← a.smp y
    let m ← a.hdr (.inTrace z)
    let d ← a.smp z
    some (a.putT y (some m) (some d), .unit)
  | .moveAssignT y z leftH leftD => do
    let _ ← a.smp y
    let m ← a.hdr (.inTrace z)
    let d ← a.smp z
    if y = z then some (a, .unit)
    else some ((a.putT z (some leftH) (some leftD)).putT y (some m) (some d), .unit)
  | .samples y => do
    let d ← a.smp y
    some (a, .samples d)
  | .dropT y => do
    let _ ← a.smp y
    some (a.putT y none none, .unit)

/-- A whole program on values. -/
def Vals.run (a : Vals) : List TOp → Option (Vals × List TRes)
  | [] => some (a, [])
  | op :: ops => do
    let (a, r) ← a.step op
    let (a, rs) ← Vals.run a ops
    some (a, r :: rs)

end Sedaman.Spec
