import Verif.Spec.MapView
import Verif.Spec.E2E
import Verif.Spec.SEGY

/-!
# Specification of files that are written again with other headers
-/

namespace Sedaman.Spec

/-- The traces show the same: the same samples, and the same value, or none, under every name. -/
def SameTrace (t u : Trace) : Prop := u.samples = t.samples ∧ ∀ n, u.header.get n = t.header.get n

/-- A file of traces of different lengths is opened with a map that has a field for the number of samples. -/
def CountMapped (bh : BinHeader) (fields : List HField) : Prop :=
  bh.fixedTrLength ≠ 0 ∨ bh.revMajor = 0 ∨ "SAMP_NUM" ∈ fields.map (·.name)

instance (bh : BinHeader) (fields : List HField) : Decidable (CountMapped bh fields) := by
  unfold CountMapped; infer_instance

/-- The integers that a field of a type shows: an unsigned one of 64 bits shows as a signed one. -/
def Shown (k : IntKind) (v : Int) : Prop := IntKind.InRange (if k = .u64 then .i64 else k) v

/-- The second list of fields has the same names, at any places, as integers of types that hold all values
of the types in the first list. -/
structure Holds (fields fields' : List HField) : Prop where
  names : ∀ n, n ∈ fields.map (·.name) ↔ n ∈ fields'.map (·.name)
  types : ∀ f ∈ fields, ∀ f' ∈ fields', f'.name = f.name →
    ∃ k k', intKind f.ty = some k ∧ intKind f'.ty = some k' ∧ ∀ v, Shown k v → Shown k' v

/-- The file `data`, of any content and revision, is opened with a header map and read to its end as `ts`.
The first block `b` of the map has different names, and no other block of the map is used: either there is none,
or the file has no additional trace headers. -/
structure ReadOut (data : Bytes) (ub : Option BinHeader) (m : HdrMap) (b : HBlock) (r : Reader) (ts : List Trace) :
    Prop where
  opened : openReader data ub m = .ok r
  all : Visits r ts
  head : m.head? = some b
  one : m.length = 1 ∧ 0 ≤ r.bh.maxNumAddTrHeaders ∨ r.bh.maxNumAddTrHeaders = 0
  names : (b.fields.map (·.name)).Nodup
  count : CountMapped r.bh b.fields
  size : data.length < 2 ^ 60

end Sedaman.Spec
