import Verif.Model.Sorted1D
import Verif.Model.SegdReader

/-!
# Iteration over readers in Python

The lambdas bound to `__next__`. `__iter__` returns the reader itself (pybind.cpp:210, 240, 1217), so
that a `for` loop calls `__next__` of the reader until `StopIteration` is raised.
-/

namespace Sedaman

/-- `has ? read : throw py::stop_iteration()`; no trace stands for the exception that ends a loop. -/
def pyNext {σ : Type} (has : Bool) (read : Out (Trace × σ)) (s : σ) : Out (Option Trace × σ) :=
  if has then do
    let (t, s) ← read
    pure (some t, s)
  else .ok (none, s)

/-- `ISEGY.__next__`. pybind.cpp:207-209 -/
def pyNextSegy (r : Reader) : Out (Option Trace × Reader) := pyNext (hasTrace r) (readTrace r) r

/-- `ISEGYSorted1D.__next__`. pybind.cpp:237-239 -/
def pyNextSorted (s : Sorted1D) : Out (Option Trace × Sorted1D) := pyNext s.hasTrace s.readTrace s

/-- `ISEGD.__next__`, which asks `has_record`, not `has_trace`. pybind.cpp:1214-1216 -/
def pyNextSegd (pw : Dbl → Dbl) (s : ISegd) : Out (Option Trace × ISegd) :=
  pyNext s.hasRecord (readTraceD pw s) s

end Sedaman
