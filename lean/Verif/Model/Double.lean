import Verif.Py.Double
import Verif.Model.Common
import Verif.Model.Writer
import Verif.Model.Tec
import Verif.Model.NmUtils
/-!
# The same code with binary floating point
-/
namespace Verif.Model
open Verif.Py

/-- `sec2sec_ms(float(text))`, `/repo/tecs/rinex/common.py:75-90` with `k = 1`, and `/repo/tecs/rinex/v2/o.py:375-380` with `k = 5`, in floating point; `q` is the number written -/
def secSplitDouble (k : Nat) (q : Rat) : Int × Int :=
  let sec := double q
  let microsec := double (double (sec - truncRat sec) * 1000000)
  (truncRat sec, truncRat (double (roundDec k microsec)))

/-- `tsn`, `/repo/tecs/dio/text.py:175-187`, in floating point, for an interval other than 0 (`cur_time.microsecond * 1e-06`: the literal is rounded as well) -/
def tsnDouble (epoch : DateTime) (interval : Rat) : Int :=
  let sec := double (((epoch.hour * 3600 + epoch.minute * 60 + epoch.second : Nat) : Rat) + double ((epoch.micro : Rat) * double (1 / 1000000)))
  let tsn := double (sec / interval)
  let frac := double (tsn - truncRat tsn)
  if frac ≠ 0 then
    if frac > 1 / 2 then tsn.ceil else tsn.floor
  else truncRat tsn

/-- `get_week_sec`, `/repo/tecs/rinex/nmutils.py:49-69`, in floating point: `/ 7.`, the difference, the product and the sum are rounded -/
def getWeekSecDouble (epoch start : DateTime) : Rat :=
  let delta := epoch.sub start
  let days := delta / 86400000000
  let seconds := (delta - days * 86400000000) / 1000000
  let week := double ((days : Rat) / 7)
  double (double (double (week - (truncRat week : Rat)) * (7 * 24 * 60 * 60)) + (seconds : Rat))

/-! ## TEC; `sq` is Python's `** 2` on floats (the `pow` of the C library) -/

/-- `tec_factor`, `/repo/tecs/gtb/tec.py:53-68`, in floating point (`f1 ** 2 - f2 ** 2` not zero) -/
def tecFactorDouble (sq : Rat → Rat) (f1 f2 : Rat) : Rat :=
  double (double (double (double (1 / double (40308 / 1000)) * double (sq f1 * sq f2)) / double (sq f1 - sq f2)) * double (1 / 10 ^ 16))

/-- the value of `compute_via_p`, `/repo/tecs/gtb/tec.py:130-136`, in floating point, for the values `p1`, `p2` written in the file -/
def viaPDouble (sq : Rat → Rat) (p1 p2 f1 f2 : Rat) : Rat :=
  double (tecFactorDouble sq f1 f2 * double (double p2 - double p1))

/-- the value of `compute_via_l`, `/repo/tecs/gtb/tec.py:163-171`, in floating point, with `l0 = 0` as in all calls -/
def viaLDouble (sq : Rat → Rat) (l1 l2 f1 f2 : Rat) : Rat :=
  double (tecFactorDouble sq f1 f2 * double (double (double (lightSpeed / f1) * double l1) - double (double (lightSpeed / f2) * double l2)))

/-- the value of `compute_via_l1_c1`, `/repo/tecs/gtb/tec.py:191-199`, in floating point -/
def viaLCDouble (sq : Rat → Rat) (l c f : Rat) : Rat :=
  double (double (double (double (1 / 2 * sq f) / double (40308 / 1000)) * double (double c - double (double (double l * lightSpeed) / f))) * double (1 / 10 ^ 16))

/-- `F1`, `F2`, `F5` of `/repo/tecs/sat/gps.py:36-38`, `/repo/tecs/sat/geo.py:30-31` and the frequencies of `/repo/tecs/__main__.py:485-498` in floating point: `mhz * 1e6` -/
def mhzDouble (mhz : Rat) : Rat := double (double mhz * 1000000)

/-- `glonass.F1(k)`, `/repo/tecs/sat/glonass.py:34-35`, in floating point -/
def gloF1Double (k : Int) : Rat := double (double (double (1602 / 1000) * 10 ^ 9) + double (double (k * double (5625 / 10)) * 1000))

/-- `glonass.F2(k)`, `/repo/tecs/sat/glonass.py:39-40`, in floating point -/
def gloF2Double (k : Int) : Rat := double (double (double (1246 / 1000) * 10 ^ 9) + double (double (k * double (4375 / 10)) * 1000))

/-- the frequencies of `/repo/tecs/__main__.py:456-502` in floating point (as `freqsOf`) -/
def freqsDouble (system : Char) (glo : Rat × Rat) : Option (Freqs Rat) :=
  if system = 'R' then some { f1 := some glo.1, f2 := some glo.2, f5 := none, f6 := none, f7 := none, f8 := none }
  else if system = 'G' then
    some { f1 := some (mhzDouble (157542 / 100)), f2 := some (mhzDouble (122760 / 100)), f5 := some (mhzDouble (117645 / 100)), f6 := none, f7 := none, f8 := none }
  else if system = 'S' then
    some { f1 := some (mhzDouble (157542 / 100)), f2 := none, f5 := some (mhzDouble (117645 / 100)), f6 := none, f7 := none, f8 := none }
  else if system = 'C' then
    some { f1 := none, f2 := some (mhzDouble (1561098 / 1000)), f5 := none, f6 := some (mhzDouble (126852 / 100)), f7 := some (mhzDouble (120714 / 100)), f8 := none }
  else if system = 'E' then
    some { f1 := some (mhzDouble (157542 / 100)), f2 := none, f5 := some (mhzDouble (117645 / 100)), f6 := some (mhzDouble (127875 / 100)),
           f7 := some (mhzDouble (120714 / 100)), f8 := some (mhzDouble (1191795 / 1000)) }
  else none

end Verif.Model
