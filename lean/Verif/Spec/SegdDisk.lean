import Verif.Spec.SegdE2E
import Verif.Spec.SegdIO

/-!
# Specification of SEG-D programs that are stopped while they write
-/

namespace Sedaman.Spec

/-- `while (has_trace()) read_trace()` reads these traces (perhaps not to the end) and then the reader
is like this. -/
def IteratesD (pw : Dbl → Dbl) : ISegd → List Trace → ISegd → Prop
  | s, [], s' => s' = s
  | s, t :: ts, s' => s.hasTrace = true ∧ ∃ s1, readTraceD pw s = .ok (t, s1) ∧ IteratesD pw s1 ts s'

/-- The number of bytes handed over to the operating system when the calls of `write_trace` for these
traces have returned. -/
def handedOverD (H : Host) (w : OSegd) (ts : List Trace) : Nat := (Spec.writeAll H ts w).2.out.length

/-- What is left of the traces `ts` when their program is stopped after `k` bytes and `disk` is on disk.
The file opens, shows the headers, and gives exactly the traces that were complete. After them it offers
another trace just when fewer were complete than the channel sets announce, and reading that one throws. -/
def RescuedD (H : Host) (a : OSegdArgs) (ns : List GenHdrN) (w : OSegd) (disk : Bytes)
    (back : Trace → Trace → Prop) (ts : List Trace) (k : Nat) : Prop :=
  ∃ done todo, ts = done ++ todo ∧ handedOverD H w done ≤ k ∧
    (∀ t rest, todo = t :: rest → k < handedOverD H w (done ++ [t])) ∧
    ∃ f backs e, openSegd disk a.extMap = .ok f ∧ HeadersBack a ns f ∧ List.Forall₂ back done backs ∧
      IteratesD H.pw f backs e ∧ e.hasTrace = decide (done.length < announced a.chSets) ∧
      (e.hasTrace = true → readTraceD H.pw e = throwExn .iosFailure) ∧
      (e.hasTrace = false → e.hasRecord = false)

/-- The same when a part of the headers is missing and the file opens all the same. -/
def OnlyHeadersD (H : Host) (a : OSegdArgs) (ns : List GenHdrN) (disk : Bytes) : Prop :=
  ∃ f, openSegd disk a.extMap = .ok f ∧ HeadersBack a ns f ∧
    f.hasTrace = decide (0 < announced a.chSets) ∧
    (f.hasTrace = true → readTraceD H.pw f = throwExn .iosFailure)

end Sedaman.Spec
