import Verif.Spec.Safe
import Verif.Spec.SegdIO

/-!
# Defined behaviour of the SEG-D reader: what a file must not contain
-/

namespace Sedaman.Spec

/-- The number of blocks behind general header 3 the reader takes from a revision 3 record that starts
at byte `p`: the announced number (the high half of byte 11, or bytes 18 and 19 of general header 2
if it is 15) less two, in 16 bits. -/
def blocksBehind3 (data : Bytes) (p : Nat) : Nat :=
  let byte := fun i => ((data[p + i]?).getD 0).toNat
  let n := if byte 11 / 16 = 15 then 256 * byte 50 + byte 51 else byte 11 / 16
  (n + 65534) % 65536

/-- The general headers of the record at `p` do not contain a sensor block (type 0x41) of
revision 3. -/
def NoSensorBlock (data : Bytes) (p : Nat) : Prop :=
  ((data[p + 42]?).getD 0).toNat < 3 ∨
  ∀ k < blocksBehind3 data p, data[p + 96 + 32 * k + 31]? ≠ some 0x41

/-- An extension map whose fields lie inside 32 bytes, with at most four unsigned 64-bit fields in a
block. -/
def ExtMapSafe (m : ExtMap) : Prop :=
  ∀ fs ∈ m, (∀ f ∈ fs, f.off + f.ty.size ≤ 32) ∧ fs.countP (·.ty = .u64) ≤ 4

/-- The header of the next trace, with its extensions, as the reader decodes it. -/
def nextHeader (s : ISegd) : Out (Header × ISegd) := do
  let (b, s) ← s.fill 20
  let (h, _) ← readTraceHdrD b
  s.onRest (readExt s.gh2.segdRevMajor s.extMap h)

/-- The trace header names scan type `i` and channel set `j` of the current record, counted from 1. -/
def Refers (s : ISegd) (h : Header) (i j : Int) (c : ChSet) : Prop :=
  (Header.at h "SCAN_TYPE_NUM").1 = .int i ∧ (Header.at h "CH_SET_NUM").1 = .int j ∧
    1 ≤ i ∧ 1 ≤ j ∧ ∃ sets, s.chSets[(i - 1).toNat]? = some sets ∧ sets[(j - 1).toNat]? = some c

/-- Formats whose samples have whole bytes and whose decoder keeps its pointer. -/
def plainFormats : List (Int × Nat) :=
  [(8022, 8), (8036, 24), (8038, 32), (8042, 8), (8058, 32), (8080, 64), (9036, 24), (9038, 32),
   (9058, 32), (9080, 64)]

end Sedaman.Spec
