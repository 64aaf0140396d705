import Verif.Py.Num
import Mathlib.Data.Int.Log
import Mathlib.Algebra.Order.Field.Rat
import Mathlib.Data.Rat.Floor
/-!
# Binary floating point

`double q` is the IEEE 754 binary64 number nearest to `q`, ties to even (Python's `float`), with unbounded exponents: overflow, underflow and signed zeros are left out.
The result of `+`, `-`, `*`, `/` and of `float(text)` on finite numbers in the normal range is the exact result rounded with `double`.
-/
namespace Verif.Py

/-- the binary64 number nearest to `q` -/
def double (q : Rat) : Rat :=
  if q = 0 then 0 else (roundHalfEven (q / (2 : Rat) ^ (Int.log 2 |q| - 52)) : Rat) * (2 : Rat) ^ (Int.log 2 |q| - 52)

end Verif.Py
