import Verif.Model.SegdFloat

/-!
# The exponent estimate of the IBM writer

`Verif.Model.Samples` takes the estimate of the exponent as a parameter. Here it is computed from the
logarithm of the C library, step by step in `double`.
-/

namespace Sedaman

/-- `q / 4 + 1 + 64`, truncated to an integer: what is made of the quotient `q` of the two logarithms.
Each operation rounds to `double`. OSEGY.cpp:150-151 -/
def exponentFrom (q : FVal) : Int :=
  (dadd (dadd (ddiv (toDbl q) (dblOfInt 4)) (dblOfInt 1)) (dblOfInt 64)).val.trunc.getD 0

/-- `log(abs_val) / log(2) / 4 + 1 + 64`, truncated to an integer. Where the sum is not finite the
number 0 is a placeholder; for the finite positive arguments the theorems are about this does not happen.
OSEGY.cpp:150-151 -/
def ibmEstimate (log : Dbl → Dbl) (a : Dbl) : Int :=
  exponentFrom ((log a).val.div (log (dblOfInt 2)).val)

end Sedaman
