import Verif.Spec.MultiSort
import Verif.Spec.SEGY

/-!
# Specification: replacing the samples of a file
-/

namespace Sedaman.Spec

/-- The trace with other samples and the header it had. -/
def resample (t : Trace) (xs : List Dbl) : Trace := { t with samples := xs }

/-- The bytes of a trace with other bytes after the 240 bytes of its header. -/
def resampleBytes (c : Bytes) (ps : List Bytes) : Bytes := c.take 240 ++ ps.flatten

/-- New samples for a trace: as many as it had, each of them a value the sample format can store, rounded or not. -/
def Replaces (est : LogEst) (fmt : Int) (bo : ByteOrder) (t : Trace) (xs : List Dbl) : Prop :=
  xs.length = t.samples.length ∧ ∀ x ∈ xs, ∃ y, ComesBack est fmt bo x y

/-- The trace as it is read again: every sample, in order, is what the sample format makes of it, and under every name
there is the same value, or none. -/
def StoredTrace (est : LogEst) (fmt : Int) (bo : ByteOrder) (t u : Trace) : Prop :=
  List.Forall₂ (ComesBack est fmt bo) t.samples u.samples ∧ ∀ n, u.header.get n = t.header.get n

end Sedaman.Spec
