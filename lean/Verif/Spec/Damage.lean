import Verif.Spec.MapView
import Verif.Spec.SegyCut

/-!
# Specification: what a damaged byte of a SEG-Y file can change
-/

namespace Sedaman.Spec

/-- Two files agree in `n` bytes from `p` on. -/
def Agree (a b : Bytes) (p n : Nat) : Prop := ∀ j, p ≤ j → j < p + n → a[j]? = b[j]?

/-- Where the text number `k` is: the first one in front of the binary header, the others behind it. -/
def textPlace (k : Nat) : Nat := if k = 0 then 0 else 400 + 3200 * k

/-- What two files hold of the trace at position `p` differs only in values of which bytes differ: a
header value is the same if the files agree in the bytes of all fields of its name, and a sample is the
same if they agree in its bytes. -/
structure SameBut (r : Reader) (a b : Bytes) (p : Nat) (t t' : Trace) : Prop where
  value : ∀ k, (∀ q ∈ placed r.map (headerBlocks r.bh), q.2.name = k → Agree a b (p + q.1) q.2.ty.size) →
    t.header.get k = t'.header.get k
  count : t'.samples.length = t.samples.length
  sample : ∀ k, Agree a b (p + 240 * headerBlocks r.bh + k * r.bps) r.bps → t.samples[k]? = t'.samples[k]?

/-- The places where the lengths of traces are stored are not damaged: traces have a fixed length, or the
files agree in all fields with the number of samples, in every trace that is read. -/
def LengthsKept (r : Reader) (b : Bytes) : Prop :=
  fixedLength r.bh = true ∨ ∀ us r1 t r2, ReadsTraces r us r1 → readTrace r1 = .ok (t, r2) →
    ∀ q ∈ placed r.map (headerBlocks r.bh), q.2.name = "SAMP_NUM" →
      Agree r.file.data b (r1.file.pos + q.1) q.2.ty.size

end Sedaman.Spec
