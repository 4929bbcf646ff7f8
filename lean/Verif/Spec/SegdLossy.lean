import Verif.Spec.SegdE2E

/-!
# Specification of the precision of SEG-D samples

A channel set has a descale factor `2^k`. Samples are divided by it when written and multiplied by it when
read.
-/

namespace Sedaman.Spec

/-- The sample `v` is in the range of a format for the descale factor `2^k`. -/
def InFormat (fmt k : Int) (v : ℚ) : Prop :=
  let u := v / 2 ^ k
  (v = 0 ∨ (2 : ℚ) ^ (-1022 : Int) ≤ |u|) ∧
  match fmt with
  | 8080 | 9080 => |u| < 2 ^ 1024
  | 8058 | 9058 => (v = 0 ∨ (2 : ℚ) ^ (-126 : Int) ≤ |u|) ∧ |u| < 2 ^ 127
  | 8036 => -1 < u ∧ u < 2 ^ 23
  | 8038 => -1 < u ∧ u < 2 ^ 31
  | 9038 => |u| < 2 ^ 31
  | _ => False

/-- What a format keeps of a sample `v`: double precision all of it, single precision 24 binary digits, and the
integer formats the part in front of the point of the quotient. -/
def KeptAs (fmt k : Int) (v v' : ℚ) : Prop :=
  match fmt with
  | 8080 | 9080 => v' = v
  | 8058 | 9058 => |v' - v| ≤ |v| / 2 ^ 24
  | _ => ∃ n : Int, Truncates (v / 2 ^ k) n ∧ v' = n * 2 ^ k

/-- A sample and what is read for it. -/
def SampleLike (fmt k : Int) (x x' : Dbl) : Prop :=
  ∃ v v', dblRat x = some v ∧ dblRat x' = some v' ∧ KeptAs fmt k v v'

end Sedaman.Spec
