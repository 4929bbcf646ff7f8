import Verif.Model.Float
import Mathlib.Algebra.Order.Field.Rat
import Mathlib.Algebra.Order.Field.Power

/-!
# Rational value of floating point patterns

The specification of floating point statements: the rational number a value denotes.
-/

namespace Sedaman.Spec

/-- The rational number denoted by a finite value. -/
def ratOf : FVal → Option ℚ
  | .fin s m e => some ((if s then -1 else 1) * (m : ℚ) * (2 : ℚ) ^ e)
  | _ => none

/-- Rational number held by a `double`, if finite. -/
def dblRat (d : Dbl) : Option ℚ := ratOf d.val

/-- Rational number held by a `float`, if finite. -/
def sglRat (d : Sgl) : Option ℚ := ratOf d.val

/-- `n` is `x` without its fractional part. -/
def Truncates (x : ℚ) (n : Int) : Prop :=
  (0 ≤ x → (n : ℚ) ≤ x ∧ x < n + 1) ∧ (x ≤ 0 → (n : ℚ) - 1 < x ∧ x ≤ n)

end Sedaman.Spec
