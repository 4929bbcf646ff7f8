import Verif.Spec.MultiSort
import Verif.Spec.RawIO
import Verif.Spec.Rewrite

/-!
# Specification: editing trace headers of a file
-/

namespace Sedaman.Spec

/-- An edit: a field of the map and the new value. -/
abbrev Edit := HField × Int

/-- The edit of a trace that was read: the value is set under the name of the field. -/
def editTrace (t : Trace) (e : Edit) : Trace := { t with header := t.header.set e.1.name (.int e.2) }

/-- The edit of the bytes of a trace: the bytes of the field are replaced by those of the value. -/
def editBytes (bo : ByteOrder) (c : Bytes) (e : Edit) : Bytes :=
  c.take e.1.off ++ encInt bo e.1.ty.size e.2 ++ c.drop (e.1.off + e.1.ty.size)

/-- The value fits the field: it comes back as it is. -/
def EditFits (fields : List HField) (e : Edit) : Prop :=
  e.1 ∈ fields ∧ ∃ k, intKind e.1.ty = some k ∧ Reduced k e.2 e.2

end Sedaman.Spec
