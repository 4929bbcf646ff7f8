import Verif.Model.SegdExt
import Verif.Spec.SegdTrace
import Verif.Spec.SEGY

/-!
# Vocabulary for the SEG-D trace header extension properties
-/

namespace Sedaman.Spec

/-- Every field lies inside the 32 byte extension block and no two fields share a byte. -/
def SafeExt (fs : List HField) : Prop :=
  (∀ f ∈ fs, f.off + f.ty.size ≤ 32) ∧
  fs.Pairwise fun a b => a.off + a.ty.size ≤ b.off ∨ b.off + b.ty.size ≤ a.off

instance (fs : List HField) : Decidable (SafeExt fs) := by unfold SafeExt; infer_instance

/-- A written value `v` comes back from a field of type `ty` as `w`: integers reduced to the width
of the field, floating point numbers unchanged. -/
def ExtBack (ty : VType) (v w : Value) : Prop :=
  match intKind ty, v with
  | some k, .int a => ∃ r, Reduced k a r ∧ w = .int r
  | some _, .dbl _ => False
  | none, v => w = v

/-- The value a trace header has for an extension field can be written to it: the alternative is
that of the field type, and single precision and IBM fields get numbers that keep their value in
these formats (SEG-Y format codes 5 and 1, see C11 and C12). -/
def ExtFits (est : LogEst) (hdr : Header) (f : HField) : Prop :=
  match intKind f.ty with
  | some _ => ∃ a, hdr.get f.name = some (.int a)
  | none => ∃ d, hdr.get f.name = some (.dbl d) ∧
    match f.ty with
    | .ibm => Survives est 1 .be d
    | .ieeeSingle => Survives est 5 .be d
    | _ => True

/-- The receiver line or point number `k / 2^16` a trace header carries, as `double` or as integer;
zero when not set. -/
def headerFix16 (hdr : Header) (n : String) (k : Nat) : Prop :=
  hdr.get n = some (.dbl (dyadic k 16)) ∨ (∃ i : Nat, hdr.get n = some (.int i) ∧ k = i * 2 ^ 16) ∨
  (hdr.get n = none ∧ k = 0)

/-- How the reader represents the receiver line or point number `k / 2^16`: zero stays an
integer. -/
def fix16Back (k : Nat) : Value := if k = 0 then .int 0 else .dbl (dyadic k 16)

end Sedaman.Spec
