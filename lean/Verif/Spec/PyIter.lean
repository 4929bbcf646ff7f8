import Verif.Model.PyIter
import Verif.Spec.Sorted1D
import Verif.Spec.SegdIO

/-!
# Vocabulary for iteration in Python
-/

namespace Sedaman.Spec

/-- `for t in reader` runs its body for exactly these traces and ends without an exception; `e` is the
reader afterwards. -/
def PyFor {σ : Type} (next : σ → Out (Option Trace × σ)) : σ → List Trace → σ → Prop
  | s, [], e => next s = .ok (none, e)
  | s, t :: ts, e => ∃ s', next s = .ok (some t, s') ∧ PyFor next s' ts e

/-- The C++ loop `while (r.has_trace()) r.read_trace()` of a SEG-D reader meets exactly these traces. -/
def LoopD (pw : Dbl → Dbl) : ISegd → List Trace → ISegd → Prop
  | s, [], e => s.hasTrace = false ∧ e = s
  | s, t :: ts, e => s.hasTrace = true ∧ ∃ s', readTraceD pw s = .ok (t, s') ∧ LoopD pw s' ts e

/-- The C++ loop `while (r.has_trace()) r.read_trace()` of a SEG-Y reader. -/
def LoopY : Reader → List Trace → Reader → Prop
  | r, [], e => hasTrace r = false ∧ e = r
  | r, t :: ts, e => hasTrace r = true ∧ ∃ r', readTrace r = .ok (t, r') ∧ LoopY r' ts e

/-- The C++ loop `while (s.has_trace()) s.read_trace()` of a sorted reader. -/
def LoopS : Sorted1D → List Trace → Sorted1D → Prop
  | s, [], e => s.hasTrace = false ∧ e = s
  | s, t :: ts, e => s.hasTrace = true ∧ ∃ s', s.readTrace = .ok (t, s') ∧ LoopS s' ts e

/-- No record of the file announces zero traces. -/
def NoEmptyRecord (pw : Dbl → Dbl) (data : Bytes) (m : ExtMap) : Prop :=
  ∀ s p, ReachableD pw data m s → AtRecord p s → 0 < announced s.chSets

end Sedaman.Spec
