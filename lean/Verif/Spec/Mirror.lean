import Verif.Spec.MapView
import Verif.Spec.BinHeader
import Verif.Spec.SEGY

/-!
# Specification of a file in the other byte order
-/

namespace Sedaman.Spec

/-- The `w` bytes at offset `o` stand in the opposite order in the other file. -/
def Mirrored (o w : Nat) (b b' : Bytes) : Prop := (b'.drop o).take w = ((b.drop o).take w).reverse

instance (o w : Nat) (b b' : Bytes) : Decidable (Mirrored o w b b') := by unfold Mirrored; infer_instance

/-- Two binary headers with the same fields, `big` in big and `little` in little endian order. A big endian
file has the marker bytes 1 2 3 4 or none, a little endian one has 4 3 2 1. Bytes that belong to no field
do not matter. -/
structure MirrorBin (big little : Bytes) : Prop where
  big400 : big.length = 400
  little400 : little.length = 400
  fields : ∀ f ∈ binLayout, f.byte ≠ 3297 → Mirrored (f.byte - 3201) f.width big little
  bigMarker : (big.drop 96).take 4 = [1, 2, 3, 4] ∨ (big.drop 96).take 4 = [0, 0, 0, 0]
  littleMarker : (little.drop 96).take 4 = [4, 3, 2, 1]

/-- The bytes of a trace in both byte orders: `n` header blocks of 240 bytes in which the fields of the map
are reversed, and samples of `w` bytes each that are reversed. -/
def MirrorTrace (m : HdrMap) (n w : Nat) (c c' : Bytes) : Prop :=
  ∃ (hd hd' : Bytes) (ps : List Bytes), c = hd ++ ps.flatten ∧ c' = hd' ++ (ps.map List.reverse).flatten ∧
    hd.length = 240 * n ∧ hd'.length = 240 * n ∧ (∀ p ∈ ps, p.length = w) ∧
    ∀ p ∈ placed m n, Mirrored p.1 p.2.ty.size hd hd'

/-- The bytes `c` of a trace of variable length say at the places of the standard how long the trace is: bytes 115
and 116 hold the number of samples or, in files with additional trace headers, bytes 137 to 140 of the second block
hold it and bytes 157 and 158 the number of additional headers, zero for the number in the binary header. -/
def Announces (bo : ByteOrder) (maxAdd : Int) (w : Nat) (c : Bytes) : Prop :=
  if maxAdd = 0 then ∃ n : Nat, decInt bo ((c.drop 114).take 2) = n ∧ c.length = 240 + n * w
  else ∃ n k : Nat, decNat bo ((c.drop 376).take 4) = n ∧
    (decNat bo ((c.drop 396).take 2) = k ∨ decNat bo ((c.drop 396).take 2) = 0 ∧ maxAdd = k) ∧ 0 < k ∧ k < 2 ^ 16 ∧
    n * w < 2 ^ 32 ∧ c.length = 240 + 240 * k + n * w

/-- These places hold the same numbers in both byte orders. -/
def MirrorCount (maxAdd : Int) (c c' : Bytes) : Prop :=
  if maxAdd = 0 then Mirrored 114 2 c c' else Mirrored 376 4 c c' ∧ Mirrored 396 2 c c'

end Sedaman.Spec
