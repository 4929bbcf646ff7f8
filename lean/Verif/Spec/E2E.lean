import Verif.Spec.SEGY
import Verif.Spec.OSEGY
import Verif.Spec.BinHeader
import Verif.Spec.Samples

/-!
# Specification of files that are written and read back
-/

namespace Sedaman.Spec

/-- A map the library accepts, whose first block `b` describes disjoint fields inside the 240 byte
header, with different names. -/
structure MapOk (bh : BinHeader) (m : HdrMap) (b : HBlock) : Prop where
  head : m.head? = some b
  accepted : checkMap bh m = .ok ()
  safe : SafeFields b.fields
  names : (b.fields.map (·.name)).Nodup

/-- A trace that can be stored: header values are integers (or missing) for all names of the map, and
the writers of IBM fields and of the sample format do not fail on the values (they may round). -/
structure Storable (est : LogEst) (fmt : Int) (bo : ByteOrder) (fields : List HField) (t : Trace) :
    Prop where
  ints : ∀ f ∈ fields, ∃ v, headerInt t.header f.name v ∧ FieldStorable est bo f.ty v
  samples : ∀ x ∈ t.samples, ∃ y, ComesBack est fmt bo x y
  size : t.samples.length < 2 ^ 60

/-- The byte order a marker stands for. -/
def orderOfMarker (e : Int) : ByteOrder := if e = 0x01020304 then .le else .be

/-- A binary header in the range of its types, with a marker that is absent or native, and a sample
format the library supports. -/
structure HeaderOk (bh : BinHeader) : Prop where
  range : BinHeader.WF bh
  marker : bh.endianness = 0 ∨ bh.endianness = 0x01020304
  format : bh.formatCode ∈ supportedFormats

/-- The number of samples of the trace is the one of the binary header in a fixed length file;
otherwise it is stored in the trace header, in a field wide enough for it. -/
def LengthKnown (bh : BinHeader) (fields : List HField) (t : Trace) : Prop :=
  if bh.fixedTrLength ≠ 0 then (t.samples.length : Int) = bh.sampPerTr % 65536
  else t.header.get "SAMP_NUM" = some (.int t.samples.length) ∧
    ∃ f ∈ fields, f.name = "SAMP_NUM" ∧ ∃ k, intKind f.ty = some k ∧
      IntKind.InRange (if k = .u64 then .i64 else k) t.samples.length

/-- The extended number of samples is absent or agrees with the 16 bit one; in variable length files
it only has to be sensible. -/
def ExtendedOk (bh : BinHeader) : Prop :=
  if bh.fixedTrLength ≠ 0 then bh.extSampPerTr = 0 ∨ bh.extSampPerTr = bh.sampPerTr % 65536
  else 0 ≤ bh.extSampPerTr ∧ bh.extSampPerTr < 2 ^ 28

/-- The binary header announces the extended text headers: their number, or -1 when the last one,
and no other, is the end stanza. -/
def TextsDeclared (bh : BinHeader) (exts : List Bytes) : Prop :=
  bh.extTextHeadersNum = exts.length ∨
  bh.extTextHeadersNum = -1 ∧ ∃ init last, exts = init ++ [last] ∧
    (∀ x ∈ init, isEndText x = false) ∧ isEndText last = true

end Sedaman.Spec
