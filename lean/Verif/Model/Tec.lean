import Mathlib.Algebra.Field.Basic
import Verif.Py.Err
import Verif.Py.Str
import Verif.Model.Label
/-!
# `/repo/tecs/gtb/tec.py`, the frequencies of `/repo/tecs/__main__.py` and `/repo/tecs/sat/*.py`

Floats are elements of a field `K` (exact arithmetic).  `None` is `none`; a float is true iff it is not zero.
-/
namespace Verif.Model
open Verif.Py

/-! ## column names, `/repo/tecs/label.py` -/

namespace R
/-- `R_TEC_L1L2`, `/repo/tecs/label.py:35`; below the other TEC columns -/
def L1L2 : Str := c% "tec.l1l2"
/-- `/repo/tecs/label.py:38` -/ def L1L5 : Str := c% "tec.l1l5"
/-- `/repo/tecs/label.py:41` -/ def L2L5 : Str := c% "tec.l2l5"
/-- `/repo/tecs/label.py:44` -/ def P1P2 : Str := c% "tec.p1p2"
/-- `/repo/tecs/label.py:47` -/ def C1P2 : Str := c% "tec.c1p2"
/-- `/repo/tecs/label.py:50` -/ def C1C2 : Str := c% "tec.c1c2"
/-- `/repo/tecs/label.py:53` -/ def C1C5 : Str := c% "tec.c1c5"
/-- `/repo/tecs/label.py:56` -/ def C2C5 : Str := c% "tec.c2c5"
/-- `/repo/tecs/label.py:59` -/ def L1C1 : Str := c% "tec.l1c1"
/-- `/repo/tecs/label.py:62` -/ def L2C2 : Str := c% "tec.l2c2"
/-- `/repo/tecs/label.py:65` -/ def L8C8 : Str := c% "tec.l8c8"
/-- `/repo/tecs/label.py:68` -/ def L2L6 : Str := c% "tec.l2l6"
/-- `/repo/tecs/label.py:71` -/ def L2L7 : Str := c% "tec.l2l7"
/-- `/repo/tecs/label.py:74` -/ def L6L7 : Str := c% "tec.l6l7"
/-- `/repo/tecs/label.py:77` -/ def C2C6 : Str := c% "tec.c2c6"
/-- `/repo/tecs/label.py:80` -/ def C2C7 : Str := c% "tec.c2c7"
/-- `/repo/tecs/label.py:83` -/ def C6C7 : Str := c% "tec.c6c7"
/-- `R_TEC_ALL`, `/repo/tecs/label.py:33-86` (the appends, in order) -/
def TEC_ALL : List Str := [L1L2, L1L5, L2L5, P1P2, C1P2, C1C2, C1C5, C2C5, L1C1, L2C2, L8C8, L2L6, L2L7, L6L7, C2C6, C2C7, C6C7]
/-- `TEC_P`, `/repo/tecs/gtb/tec.py:46-47` -/
def TEC_P : List Str := [P1P2, C1P2, C1C5, C1C2, C2C5, C2C6, C2C7, C6C7]
/-- `TEC_L`, `/repo/tecs/gtb/tec.py:49-50` -/
def TEC_L : List Str := [L1L2, L1L5, L2L5, L2L6, L2L7, L6L7]
end R

/-- `TEC2CALC`, `/repo/tecs/gtb/tec.py:43` -/
def tec2calc (recFields : List Str) : List Str := recFields.filter (· ∈ R.TEC_ALL)

/-- condition of `compute_on_demand_p`, `/repo/tecs/gtb/tec.py:76-83`: is the real function used (and not `plug_func`)? -/
def onDemandP (textMode : Bool) (recFields : List Str) : Bool :=
  textMode && !(R.TEC_P.filter (· ∈ tec2calc recFields)).isEmpty

/-- condition of `compute_on_demand_l`, `/repo/tecs/gtb/tec.py:86-92` -/
def onDemandL (textMode : Bool) (recFields : List Str) : Bool :=
  textMode && !(R.TEC_L.filter (· ∈ tec2calc recFields)).isEmpty

/-- condition of `compute_on_demand_l1_c1`, `/repo/tecs/gtb/tec.py:95-103` -/
def onDemandLC (textMode : Bool) (recFields : List Str) : Bool :=
  textMode && (decide (R.L1C1 ∈ tec2calc recFields) || decide (R.L2C2 ∈ tec2calc recFields))

section
variable {K : Type} [Field K] [DecidableEq K]

/-- `C`, `/repo/tecs/gtb/tec.py:38` -/
def lightSpeed : K := 299792458

/-- `tec_factor(f1, f2)`, `/repo/tecs/gtb/tec.py:53-68`.  Division by zero raises. -/
def tecFactor (f1 f2 : K) : Except PyErr K :=
  if f1 ^ 2 - f2 ^ 2 = 0 then .error .zeroDiv
  else .ok (1 / (40308 / 1000) * (f1 ^ 2 * f2 ^ 2) / (f1 ^ 2 - f2 ^ 2) * (1 / 10 ^ 16))

/-- the body of `compute_via_p`, `/repo/tecs/gtb/tec.py:106-136` -/
def viaP (p1 p2 f1 f2 : Option K) : Except PyErr (Option K) :=
  match f1 with
  | none => .ok none
  | some g1 =>
    if g1 = 0 then .ok none
    else
      match f2 with
      | none => .ok none
      | some g2 =>
        if g2 = 0 then .ok none
        else
          match p1, p2 with
          | some q1, some q2 =>
            if q1 = 0 then .ok none
            else if q2 = 0 then .ok none
            else
              match tecFactor g1 g2 with
              | .error e => .error e
              | .ok t => .ok (some (t * (q2 - q1)))
          | _, _ => .ok none

/-- the body of `compute_via_l`, `/repo/tecs/gtb/tec.py:139-171` -/
def viaL (l1 l2 f1 f2 : Option K) (l0 : K) : Except PyErr (Option K) :=
  match f1 with
  | none => .ok none
  | some g1 =>
    if g1 = 0 then .ok none
    else
      match f2 with
      | none => .ok none
      | some g2 =>
        if g2 = 0 then .ok none
        else
          match l1, l2 with
          | some q1, some q2 =>
            if q1 = 0 then .ok none
            else if q2 = 0 then .ok none
            else
              match tecFactor g1 g2 with
              | .error e => .error e
              | .ok t => .ok (some (t * (lightSpeed / g1 * q1 - lightSpeed / g2 * q2) - l0))
          | _, _ => .ok none

/-- the body of `compute_via_l1_c1`, `/repo/tecs/gtb/tec.py:174-199` (the divisions are by `40.308` and `f1 ≠ 0`: they cannot fail) -/
def viaLC (l1 c1 f1 : Option K) : Option K :=
  match f1 with
  | none => none
  | some g1 =>
    if g1 = 0 then none
    else
      match c1, l1 with
      | some p, some l =>
        if p = 0 then none
        else if l = 0 then none
        else some (1 / 2 * g1 ^ 2 / (40308 / 1000) * (p - l * lightSpeed / g1) * (1 / 10 ^ 16))
      | _, _ => none

/-- `compute_via_p` after decoration, `/repo/tecs/gtb/tec.py:106`; `on` is `onDemandP` -/
def computeViaP (on : Bool) (p1 p2 f1 f2 : Option K) : Except PyErr (Option K) :=
  if on then viaP p1 p2 f1 f2 else .ok none

/-- `compute_via_l` after decoration, `/repo/tecs/gtb/tec.py:139`; `on` is `onDemandL` -/
def computeViaL (on : Bool) (l1 l2 f1 f2 : Option K) (l0 : K) : Except PyErr (Option K) :=
  if on then viaL l1 l2 f1 f2 l0 else .ok none

/-- `compute_via_l1_c1` after decoration, `/repo/tecs/gtb/tec.py:174`; `on` is `onDemandLC` -/
def computeViaLC (on : Bool) (l1 c1 f1 : Option K) : Option K :=
  if on then viaLC l1 c1 f1 else none

/-! ## frequencies -/

/-- `glonass.F1(k)`, `/repo/tecs/sat/glonass.py:34-35` -/
def gloF1 (k : K) : K := 1602 / 1000 * 10 ^ 9 + k * (5625 / 10) * 10 ^ 3

/-- `glonass.F2(k)`, `/repo/tecs/sat/glonass.py:39-40` -/
def gloF2 (k : K) : K := 1246 / 1000 * 10 ^ 9 + k * (4375 / 10) * 10 ^ 3

/-- the variables `f1, f2, f5, f6, f7, f8` of `/repo/tecs/__main__.py:456` -/
structure Freqs (K : Type) where
  f1 : Option K
  f2 : Option K
  f5 : Option K
  f6 : Option K
  f7 : Option K
  f8 : Option K

/-- `f1, f2, f5, f6, f7, f8 = (None,) * 6` and the branches on the system, `/repo/tecs/__main__.py:456-502`.  `glo` is `(f1, f2)` of the satellite, read in the
GLONASS branch only; other systems give `none` (the final `else` branch: the record is skipped). -/
def freqsOf (system : Char) (glo : K × K) : Option (Freqs K) :=
  if system = 'R' then some { f1 := some glo.1, f2 := some glo.2, f5 := none, f6 := none, f7 := none, f8 := none }
  else if system = 'G' then
    some { f1 := some (157542 / 100 * 10 ^ 6), f2 := some (122760 / 100 * 10 ^ 6), f5 := some (117645 / 100 * 10 ^ 6), f6 := none, f7 := none, f8 := none }
  else if system = 'S' then
    some { f1 := some (157542 / 100 * 10 ^ 6), f2 := none, f5 := some (117645 / 100 * 10 ^ 6), f6 := none, f7 := none, f8 := none }
  else if system = 'C' then
    some { f1 := none, f2 := some (1561098 / 1000 * 10 ^ 6), f5 := none, f6 := some (126852 / 100 * 10 ^ 6), f7 := some (120714 / 100 * 10 ^ 6), f8 := none }
  else if system = 'E' then
    some { f1 := some (157542 / 100 * 10 ^ 6), f2 := none, f5 := some (117645 / 100 * 10 ^ 6), f6 := some (127875 / 100 * 10 ^ 6),
           f7 := some (120714 / 100 * 10 ^ 6), f8 := some (1191795 / 1000 * 10 ^ 6) }
  else none

/-- the 17 assignments `tec_... = tec.compute_via_...`, `/repo/tecs/__main__.py:509-593`; `v F` is `ds[F][0]` -/
def tecSteps (onP onL onLC : Bool) (f : Freqs K) (v : Fam → Option K) : List (Str × Except PyErr (Option K)) := [
  (R.L1L2, computeViaL onL (v Lbl.L1) (v Lbl.L2) f.f1 f.f2 0),
  (R.L1L5, computeViaL onL (v Lbl.L1) (v Lbl.L5) f.f1 f.f5 0),
  (R.L2L5, computeViaL onL (v Lbl.L2) (v Lbl.L5) f.f2 f.f5 0),
  (R.L2L6, computeViaL onL (v Lbl.L2) (v Lbl.L6) f.f2 f.f6 0),
  (R.L2L7, computeViaL onL (v Lbl.L2) (v Lbl.L7) f.f2 f.f7 0),
  (R.L6L7, computeViaL onL (v Lbl.L6) (v Lbl.L7) f.f6 f.f7 0),
  (R.P1P2, computeViaP onP (v Lbl.P1) (v Lbl.P2) f.f1 f.f2),
  (R.C1P2, computeViaP onP (v Lbl.C1) (v Lbl.P2) f.f1 f.f2),
  (R.L1C1, .ok (computeViaLC onLC (v Lbl.L1) (v Lbl.C1) f.f1)),
  (R.L2C2, .ok (computeViaLC onLC (v Lbl.L2) (v Lbl.C2) f.f2)),
  (R.L8C8, .ok (computeViaLC onLC (v Lbl.L8) (v Lbl.C8) f.f8)),
  (R.C1C5, computeViaP onP (v Lbl.C1) (v Lbl.C5) f.f1 f.f5),
  (R.C1C2, computeViaP onP (v Lbl.C1) (v Lbl.C2) f.f1 f.f2),
  (R.C2C5, computeViaP onP (v Lbl.C2) (v Lbl.C5) f.f2 f.f5),
  (R.C2C6, computeViaP onP (v Lbl.C2) (v Lbl.C6) f.f2 f.f6),
  (R.C2C7, computeViaP onP (v Lbl.C2) (v Lbl.C7) f.f2 f.f7),
  (R.C6C7, computeViaP onP (v Lbl.C6) (v Lbl.C7) f.f6 f.f7)]

/-- executing the assignments one after the other, `/repo/tecs/__main__.py:507-593`: the first exception escapes -/
def runSteps {α : Type} : List (Str × Except PyErr α) → Except PyErr (Dict Str α)
  | [] => .ok []
  | (n, r) :: rest =>
    match r with
    | .error e => .error e
    | .ok x =>
      match runSteps rest with
      | .error e => .error e
      | .ok d => .ok ((n, x) :: d)

/-- all TEC values of a record, `/repo/tecs/__main__.py:509-593` -/
def tecAll (onP onL onLC : Bool) (f : Freqs K) (v : Fam → Option K) : Except PyErr (Dict Str (Option K)) :=
  runSteps (tecSteps onP onL onLC f v)

end

end Verif.Model
