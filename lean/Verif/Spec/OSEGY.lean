import Verif.Model.OSEGY
import Verif.Spec.Float
import Mathlib.Data.List.Forall2

/-!
# Specification of writing histories
-/

namespace Sedaman.Spec

/-- The three writer classes. -/
inductive Rev where | r0 | r1 | r2
  deriving DecidableEq, Repr

/-- `write_trace` of each class. -/
def Rev.write (est : LogEst) : Rev → Writer → Trace → Out Writer
  | .r0 => writeTraceRev0 est
  | .r1 => writeTraceRev1 est
  | .r2 => writeTraceRev2 est

/-- The writers just opened, with any arguments. 65537 text headers and more would overflow the
count of extended text headers and are left out. -/
def Opens : Rev → Writer → Prop
  | .r0, w => ∃ text bh m, openRev0 text bh m = .ok w
  | .r1, w => ∃ texts bh m, texts.length ≤ 65536 ∧ openRev1 texts bh m = .ok w
  | .r2, w => ∃ texts bh trailers m, texts.length ≤ 65536 ∧ openRev2 texts bh trailers m = .ok w

/-- The states of a writer after any number of `write_trace` calls. -/
inductive Written (step : Writer → Trace → Out Writer) (w0 : Writer) : List Trace → Writer → Prop where
  | opened : Written step w0 [] w0
  | wrote {ts : List Trace} {t : Trace} {w w' : Writer} :
      Written step w0 ts w → step w t = .ok w' → Written step w0 (ts ++ [t]) w'

/-- The number of samples the file announces for a trace: the (unsigned) count of the binary header
in a file of fixed length traces, the SAMP_NUM of the trace otherwise. Revision 0 files have fixed
length traces only. -/
def Announced (rev : Rev) (bh : BinHeader) (t : Trace) (n : Nat) : Prop :=
  if rev = .r0 ∨ bh.fixedTrLength ≠ 0 then (n : Int) = bh.sampPerTr % 65536
  else t.header.get "SAMP_NUM" = some (.int n)

instance (rev : Rev) (bh : BinHeader) (t : Trace) (n : Nat) : Decidable (Announced rev bh t n) := by
  unfold Announced; infer_instance

/-- The encodings of the samples, one per sample. -/
def EncodedBy (est : LogEst) (fmt : Int) (bo : ByteOrder) (xs : List Dbl) (ps : List Bytes) : Prop :=
  ∃ enc, sampleWriter est fmt = .ok enc ∧ List.Forall₂ (fun x p => enc bo x = .ok p) xs ps

/-- Writers opened without a binary header (that is, with the default one, all zero) and with at
most one text header. -/
def OpensAuto : Rev → Writer → Prop
  | .r0, w => ∃ text m, openRev0 text {} m = .ok w
  | .r1, w => ∃ texts m, texts.length ≤ 1 ∧ openRev1 texts {} m = .ok w
  | .r2, w => ∃ texts trailers m, texts.length ≤ 1 ∧ openRev2 texts {} trailers m = .ok w

/-- The sample format of files written without a binary header: IBM floats in revision 0, IEEE
floats from then on. -/
def Rev.defaultFormat : Rev → Int
  | .r0 => 1
  | _ => 5

/-- The number held by a header value; integers beyond 2^53 are left out. -/
def HeaderNum (hdr : Header) (name : String) (x : ℚ) : Prop :=
  (∃ n : Int, hdr.get name = some (.int n) ∧ n.natAbs ≤ 2 ^ 53 ∧ x = n) ∨
  ∃ d, hdr.get name = some (.dbl d) ∧ dblRat d = some x

end Sedaman.Spec
