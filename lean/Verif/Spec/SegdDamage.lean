import Verif.Spec.Damage
import Verif.Spec.SegdLocality

/-!
# Specification: what a damaged byte of a SEG-D file can change
-/

namespace Sedaman.Spec

/-- Extension blocks of the trace at position `p`: byte 9 of its header. -/
def extCount (a : Bytes) (p : Nat) : Nat := ((a[p + 9]?).getD 0).toNat

/-- Bytes of a sample in formats that use whole bytes. -/
def sampleWidth (format : Int) : Nat := segdBits format / 8

/-- Where the samples of the trace at position `p` begin. -/
def samplesAt (a : Bytes) (p : Nat) : Nat := p + 20 + 32 * extCount a p

/-- Of the trace `t` at position `p`, the bytes are not damaged that tell how much there is to read: the
numbers of scan type and channel set, the number of extension blocks and these blocks. Between this trace
and the next, which is at `q`, nothing is damaged either; this matters when headers of another record are
there. -/
structure FormKept (format : Int) (a b : Bytes) (p : Nat) (t : Trace) (q : Nat) : Prop where
  chSet : Agree a b (p + 2) 2
  wideChSet : Agree a b (p + 15) 2
  blocks : Agree a b (p + 9) 1
  ext : Agree a b (p + 20) (32 * extCount a p)
  next : ∀ j, samplesAt a p + t.samples.length * sampleWidth format ≤ j → j < q → a[j]? = b[j]?

/-- The same for all traces that can be read. -/
def FormsKept (pw : Dbl → Dbl) (s : ISegd) (b : Bytes) : Prop :=
  ∀ n us s1 t s2, readManyD pw n s = .ok (us, s1) → readTraceD pw s1 = .ok (t, s2) →
    FormKept s1.gh1.formatCode s.file.data b s1.file.pos t s2.file.pos

/-- What two files hold of the trace at position `p` differs only in values of which bytes differ. -/
structure SameButD (format : Int) (a b : Bytes) (p : Nat) (t t' : Trace) : Prop where
  value : ∀ k, (∀ q ∈ segdPlaces, q.1 = k → Agree a b (p + q.2.1) q.2.2) → t.header.get k = t'.header.get k
  count : t'.samples.length = t.samples.length
  sample : ∀ k : Nat, Agree a b (samplesAt a p + k * sampleWidth format) (sampleWidth format) →
    t.samples[k]? = t'.samples[k]?

end Sedaman.Spec
