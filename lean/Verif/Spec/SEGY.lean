import Verif.Model.ISEGY
import Verif.Spec.TraceHdr
import Verif.Spec.Float

/-!
# Specification of SEG-Y reading and writing histories
-/

namespace Sedaman.Spec

/-- The states a reader can be in: after opening, after any number of successful `read_header` and
`read_trace` calls, and after the derived classes have moved the file position. -/
inductive Reachable (data : Bytes) (ub : Option BinHeader) (m : HdrMap) : Reader → Prop where
  | opened {r : Reader} : openReader data ub m = .ok r → Reachable data ub m r
  | header {r r' : Reader} {h : Header} :
      Reachable data ub m r → readHeader r = .ok (h, r') → Reachable data ub m r'
  | trace {r r' : Reader} {t : Trace} :
      Reachable data ub m r → readTrace r = .ok (t, r') → Reachable data ub m r'
  | moved {r : Reader} (p : Nat) :
      Reachable data ub m r → Reachable data ub m { r with file := ⟨r.file.data, p⟩ }

/-- The loop `while (has_trace()) read...()` meets exactly these traces, whichever of `read_trace`
and `read_header` is called at each step: `has_trace` is true before each and false at the end. -/
def Visits : Reader → List Trace → Prop
  | r, [] => hasTrace r = false
  | r, t :: ts => hasTrace r = true ∧
      (∃ r', readTrace r = .ok (t, r') ∧ Visits r' ts) ∧
      (∃ r', readHeader r = .ok (t.header, r') ∧ Visits r' ts)

/-- `c` are the bytes of one trace, `t`: alone in a file they are read as `t`, to their end. -/
def IsTrace (r : Reader) (c : Bytes) (t : Trace) : Prop :=
  c ≠ [] ∧ ∃ r', readTrace { r with file := ⟨c, 0⟩ } = .ok (t, r') ∧ r'.file.pos = c.length

/-- All fields of all blocks of the map lie inside their 240 byte block. -/
def MapInBounds (m : HdrMap) : Prop := ∀ b ∈ m, ∀ f ∈ b.fields, f.off + f.ty.size ≤ 240

instance (m : HdrMap) : Decidable (MapInBounds m) := by unfold MapInBounds; infer_instance

/-- A value `x` written in a sample format and read back becomes `y`: the writer of the format
succeeds and the reader of the format decodes its bytes to `y`. -/
def ComesBack (est : LogEst) (fmt : Int) (bo : ByteOrder) (x y : Dbl) : Prop :=
  ∃ w r bs, sampleWriter est fmt = .ok w ∧ sampleReader fmt = .ok r ∧ w bo x = .ok bs ∧
    ∀ rest, r bo (bs ++ rest) = .ok (y, rest)

/-- A sample keeps its value when it is written in a format and read back. -/
def Survives (est : LogEst) (fmt : Int) (bo : ByteOrder) (x : Dbl) : Prop := ComesBack est fmt bo x x

/-- The sample format that stores values like a floating point header field of this type. -/
def floatFormat : VType → Option Int
  | .ibm => some 1
  | .ieeeSingle => some 5
  | .ieeeDouble => some 6
  | _ => none

/-- The header value `v` can be stored in a field of the type: IBM floats are the only fields whose
writer can fail. -/
def FieldStorable (est : LogEst) (bo : ByteOrder) (ty : VType) (v : Int) : Prop :=
  ty = .ibm → ∃ y, ComesBack est 1 bo (dblOfInt v) y

/-- `s` is the single nearest to the integer `v`; if another one is equally near, the last bit of `s` is
even. -/
def NearestSingle (v : Int) (s : Sgl) : Prop :=
  ∃ x : ℚ, sglRat s = some x ∧ ∀ (u : Sgl) (y : ℚ), sglRat u = some y →
    |(v : ℚ) - x| ≤ |(v : ℚ) - y| ∧ (|(v : ℚ) - x| = |(v : ℚ) - y| → y ≠ x → s.toNat % 2 = 0)

/-- What an integer becomes in a floating point field: in an IBM or double precision field what becomes of
it, as a `double`, in the format of the field; in a single precision field the nearest single (if it is a
64-bit integer). -/
def FloatBack (est : LogEst) (bo : ByteOrder) : VType → Int → Dbl → Prop
  | .ieeeSingle, v, y => ∃ s : Sgl, y = sglToDbl s ∧ (-2 ^ 63 ≤ v → v < 2 ^ 63 → NearestSingle v s)
  | ty, v, y => ∃ fmt, floatFormat ty = some fmt ∧ ComesBack est fmt bo (dblOfInt v) y

/-- What reading gives of a header that was written through a block map: the names of the map; for
each integer field the value set (zero when not set) reduced to the width of the field; for each
floating point field what becomes of that value in the format of the field. -/
def HeaderBack (est : LogEst) (bo : ByteOrder) (fields : List HField) (orig back : Header) : Prop :=
  (∀ n, n ∈ back.keys ↔ n ∈ fields.map (·.name)) ∧
  (∀ f ∈ fields, ∀ k, intKind f.ty = some k → ∀ v, headerInt orig f.name v →
    ∃ r, Reduced k v r ∧ back.get f.name = some (.int r)) ∧
  ∀ f ∈ fields, ∀ fmt, floatFormat f.ty = some fmt → ∀ v, headerInt orig f.name v →
    ∃ y, FloatBack est bo f.ty v y ∧ back.get f.name = some (.dbl y)

/-- A trace that was read back: every sample as it comes back in the sample format, one for one and
in order, and the header as above. -/
def TraceBack (est : LogEst) (fmt : Int) (bo : ByteOrder) (fields : List HField) (orig back : Trace) : Prop :=
  List.Forall₂ (ComesBack est fmt bo) orig.samples back.samples ∧
  HeaderBack est bo fields orig.header back.header

end Sedaman.Spec
