import Verif.Spec.Convert
import Verif.Spec.TraceHdr

/-!
# Specification of what a trace header map makes of the bytes of a trace
-/

namespace Sedaman.Spec

/-- The value stored in the bytes of a field: an integer in the byte order of the file (an unsigned one
of 64 bits shows as the signed number with the same bits), or the number of the sample format that
corresponds to the type. -/
def FieldValue (bo : ByteOrder) (ty : VType) (bs : Bytes) (v : Value) : Prop :=
  bs.length = ty.size ∧
  match intKind ty with
  | some k => v = .int (if k.signed ∨ k = .u64 then decInt bo bs else decNat bo bs)
  | none => ∃ fmt x, floatFormat ty = some fmt ∧ SampleOf fmt bo bs x ∧ v = .dbl x

/-- Number of header blocks of 240 bytes in front of the samples of each trace. -/
def headerBlocks (bh : BinHeader) : Nat := (bh.maxNumAddTrHeaders + 1).toNat

/-- The fields of a map for the first `n` header blocks in the order of the map, each with its offset
from the start of the trace. -/
def placed (m : HdrMap) (n : Nat) : List (Nat × HField) :=
  (List.range n).flatMap fun i => match m[i]? with
    | some b => b.fields.map fun f => (240 * i + f.off, f)
    | none => []

/-- The last field with a name. -/
def lastNamed (k : String) (l : List (Nat × HField)) : Option (Nat × HField) :=
  l.reverse.find? fun p => p.2.name = k

/-- The header is what the map makes of the bytes from `p` on: for each name the value of the last field
of that name, and no other names but those in `extra`. -/
def ShowsHeader (bo : ByteOrder) (m : HdrMap) (n : Nat) (data : Bytes) (p : Nat) (extra : List (String × Value))
    (h : Header) : Prop :=
  ∀ k, match lastNamed k (placed m n) with
    | some (o, f) => ∃ v, h.get k = some v ∧ FieldValue bo f.ty ((data.drop (p + o)).take f.ty.size) v
    | none => h.get k = (extra.find? (·.1 = k)).map (·.2)

end Sedaman.Spec
