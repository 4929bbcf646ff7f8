import Verif.Model.TraceHdr
import Verif.Spec.RawIO
import Verif.Spec.Float

/-!
# Specification of trace header maps and blocks
-/

namespace Sedaman.Spec

/-- A `std::map` keyed by `uint32_t`: keys are distinct, iterated in increasing order, and below
2^32. -/
def IsStdMap (fs : List HField) : Prop :=
  fs.Pairwise (fun a b => a.off < b.off) ∧ ∀ f ∈ fs, f.off < 2 ^ 32

instance (fs : List HField) : Decidable (IsStdMap fs) := by unfold IsStdMap; infer_instance

/-- Every field lies inside the 240 byte block and no two fields share a byte. -/
def SafeFields (fs : List HField) : Prop :=
  (∀ f ∈ fs, f.off + f.ty.size ≤ 240) ∧
  fs.Pairwise fun a b => a.off + a.ty.size ≤ b.off ∨ b.off + b.ty.size ≤ a.off

instance (fs : List HField) : Decidable (SafeFields fs) := by unfold SafeFields; infer_instance

/-- A byte position of the block belongs to a field. -/
def Covered (fs : List HField) (i : Nat) : Prop :=
  ∃ f ∈ fs, f.off ≤ i ∧ i < f.off + f.ty.size

instance (fs : List HField) (i : Nat) : Decidable (Covered fs i) := by
  unfold Covered; infer_instance

/-- The integer type of a field, when it is not a floating point one. -/
def intKind : VType → Option IntKind
  | .i8 => some .i8 | .u8 => some .u8
  | .i16 => some .i16 | .u16 => some .u16
  | .i24 => some .i24 | .u24 => some .u24
  | .i32 => some .i32 | .u32 => some .u32
  | .i64 => some .i64 | .u64 => some .u64
  | .ibm => none | .ieeeSingle => none | .ieeeDouble => none

/-- `r` is `v` reduced to the width of the field type: the representative of `v` modulo
`2^(8 * width)` in the range of the type. Header values are `int64_t`, so an unsigned 64 bit field
shows as the signed number with the same bits. -/
def Reduced (k : IntKind) (v r : Int) : Prop :=
  (match k with | .u64 => IntKind.i64.InRange r | k => k.InRange r) ∧
  (r - v) % (2 ^ (8 * k.size)) = 0

/-- The integer a trace header carries under a name: the value set, or zero when it was not set. -/
def headerInt (hdr : Header) (n : String) (v : Int) : Prop :=
  hdr.get n = some (.int v) ∨ (hdr.get n = none ∧ v = 0)

end Sedaman.Spec
