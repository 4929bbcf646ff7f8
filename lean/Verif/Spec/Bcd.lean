import Verif.Model.Basic

/-!
# Specification of packed decimals

Independent of the model of util.hpp: a buffer is a list of nibbles (high nibble first),
a packed number is a run of nibbles read as a base-10 numeral.
-/

namespace Sedaman.Spec

/-- The half-bytes of a buffer, high half first. -/
def nibbles : Bytes → List Nat
  | [] => []
  | b :: bs => (b.toNat / 16) :: (b.toNat % 16) :: nibbles bs

/-- Positional value of a digit list in base 10, most significant digit first. -/
def decVal (ds : List Nat) : Nat := ds.foldl (fun a d => a * 10 + d) 0

/-- The `num` low-order decimal digits of `v`, most significant first. -/
def decDigits : Nat → Nat → List Nat
  | 0, _ => []
  | num + 1, v => decDigits num (v / 10) ++ [v % 10]

end Sedaman.Spec
