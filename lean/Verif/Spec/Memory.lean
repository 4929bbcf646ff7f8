import Verif.Spec.ISEGYFail
import Verif.Model.SegdReader

/-!
# Specification of the memory a reader takes
-/

namespace Sedaman.Spec

/-- The bytes an open `ISEGY` keeps: text headers, trailer stanzas and the buffer for samples. (What it keeps
besides does not depend on the file.) -/
def held (r : Reader) : Nat := r.texts.flatten.length + r.trailers.flatten.length + r.bufLen

/-- A reader after calls that may throw; the program catches and goes on. -/
def afterAsks : RS → List Ask → RS
  | s, [] => s
  | s, a :: as => afterAsks (askIO s a).2 as

/-- The number of samples in a trace header, wherever the map finds it, is stored in at most two bytes. -/
def ShortCounts (m : HdrMap) : Prop := ∀ b ∈ m, ∀ f ∈ b.fields, f.name = "SAMP_NUM" → f.ty.size ≤ 2

/-- The bytes an open `ISEGD` keeps of a record: extended and external headers. -/
def heldSegd (s : ISegd) : Nat := s.extended.flatten.length + s.external.flatten.length

end Sedaman.Spec
