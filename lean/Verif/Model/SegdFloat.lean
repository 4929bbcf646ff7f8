import Verif.Model.Float

/-!
# Further floating point operations used by the SEG-D code

Addition, subtraction and division of `double`: exact arithmetic followed by rounding to
nearest even, as in `Verif.Model.Float`.
-/

namespace Sedaman

/-- Signed integer `±m * 2^k`. -/
def scaled (s : Bool) (m k : Nat) : Int := if s then -((m * 2 ^ k : Nat) : Int) else (m * 2 ^ k : Nat)

/-- Exact sum. An exact zero is `-0` only if both operands are negative. -/
def FVal.add : FVal → FVal → FVal
  | .nan, _ => .nan
  | _, .nan => .nan
  | .inf s, .inf t => if s = t then .inf s else .nan
  | .inf s, .fin _ _ _ => .inf s
  | .fin _ _ _, .inf t => .inf t
  | .fin s m e, .fin t n g =>
    let q := min e g
    let x := scaled s m (e - q).toNat + scaled t n (g - q).toNat
    .fin (if x = 0 then s && t else decide (x < 0)) x.natAbs q

/-- Change of sign. -/
def FVal.neg : FVal → FVal
  | .nan => .nan
  | .inf s => .inf !s
  | .fin s m e => .fin (!s) m e

/-- `a + b` on doubles. -/
def dadd (a b : Dbl) : Dbl := toDbl (a.val.add b.val)

/-- `a - b` on doubles. -/
def dsub (a b : Dbl) : Dbl := toDbl (a.val.add b.val.neg)

/-- Quotient. The significand is computed to at least 64 bits and the lowest bit records whether
anything non-zero follows, so that rounding the result to `double` rounds the exact
quotient. -/
def FVal.div : FVal → FVal → FVal
  | .nan, _ => .nan
  | _, .nan => .nan
  | .inf _, .inf _ => .nan
  | .inf s, .fin t _ _ => .inf (s != t)
  | .fin s _ _, .inf t => .fin (s != t) 0 0
  | .fin s m e, .fin t n g =>
    if n = 0 then if m = 0 then .nan else .inf (s != t)
    else
      let k := n.log2 + 65
      let q := m * 2 ^ k / n
      .fin (s != t) (2 * q + if m * 2 ^ k % n = 0 then 0 else 1) (e - g - k - 1)

/-- `a / b` on doubles. -/
def ddiv (a b : Dbl) : Dbl := toDbl (a.val.div b.val)

end Sedaman
