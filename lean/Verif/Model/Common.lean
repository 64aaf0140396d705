import Verif.Py.Date
import Verif.Py.Dict
/-!
# `/repo/tecs/rinex/common.py`
-/
namespace Verif.Model
open Verif.Py

/-- Python's `range(start, stop, step)` (e.g. `/repo/tecs/rinex/header.py:112`) for natural arguments, `step > 0`. -/
def pyRange (start stop step : Nat) : List Nat :=
  (List.range ((stop - start + (step - 1)) / step)).map fun k => start + step * k

/-- two-digit years, `/repo/tecs/rinex/common.py:53-58` -/
def fullYear (y : Int) : Int :=
  if y < 100 then
    if y ≥ 89 then y + 1900 else y + 2000
  else y

/-- One turn of the loop of `validate_epoch`, `/repo/tecs/rinex/common.py:64-68`: `k` counts from the end of the list (`epoch[-k]`), `ier` is the multiplier.
Returns the changed list and the seconds added to `delta`. -/
def fixComponent (epoch : List Int) (k : Nat) (ier : Int) : List Int × Int :=
  let i := epoch.length - k
  let v := epoch.getD i 0
  if 60 ≤ v ∧ v ≤ 120 then (epoch.set i 59, (v - 59) * ier) else (epoch, 0)

/-- `validate_epoch(epoch)`, `/repo/tecs/rinex/common.py:32-72`.  Lists with fewer than three components raise IndexError. -/
def validateEpoch (epoch : List Int) : Except PyErr DateTime :=
  if epoch.length < 3 then .error .index
  else do
    let epoch := epoch.set 0 (fullYear (epoch.getD 0 0))
    let (epoch, d1) := fixComponent epoch 2 1
    let (epoch, d2) := fixComponent epoch 3 60
    let t ← mkDateTime epoch
    t.add ((d1 + d2) * 1000000)

/-- `sec2sec_ms`, `/repo/tecs/rinex/common.py:75-90`, with the floating point product `(sec - int(sec)) * 1e+6` as a parameter `mul` and
the number of decimals of the `"%.kf"` as a parameter (`common.py` uses 1, `/repo/tecs/rinex/v2/o.py:375-380` uses 5). -/
def secSplitWith (mul : Rat → Rat) (k : Nat) (sec : PyFloat) : Except PyErr (Int × Int) :=
  match sec with
  | .fin q =>
    let whole := truncRat q
    let us := roundDec k (mul (q - whole))
    .ok (whole, truncRat us)
  | .inf _ => .error .overflow      -- int(inf)
  | .nan => .error .value           -- int(nan)

/-- `sec2sec_ms`, `/repo/tecs/rinex/common.py:75-90`, in exact arithmetic. -/
def sec2secMs (sec : PyFloat) : Except PyErr (Int × Int) := secSplitWith (· * 1000000) 1 sec

end Verif.Model
