import Verif.Model.Common
/-!
# `/repo/tecs/rinex/header.py` and `ObservationData._parse_header` (`/repo/tecs/rinex/basic.py`)

Class constants `VERSION` (2.0, 2.1, 2.11, 3.0, ...) are modelled as hundredths (200, 210, 211, 300, ...).
-/
namespace Verif.Model
open Verif.Py

/-- `line[60:].rstrip()`, `/repo/tecs/rinex/basic.py:55`, `133`, `153`; `/repo/tecs/rinex/v2/o.py:232` -/
def headerLabel (line : Str) : Str := rstrip (line.drop 60)

/-- `/repo/tecs/rinex/header.py:73` -/
def lblVersion : Str := c% "RINEX VERSION / TYPE"
/-- `/repo/tecs/rinex/header.py:104` -/
def lblTofo : Str := c% "TIME OF FIRST OBS"
/-- `/repo/tecs/rinex/header.py:147` -/
def lblXyz : Str := c% "APPROX POSITION XYZ"
/-- `/repo/tecs/rinex/header.py:172` -/
def lblInterval : Str := c% "INTERVAL"
/-- `/repo/tecs/rinex/header.py:196` -/
def lblSysNObs : Str := c% "SYS / # / OBS TYPES"
/-- `/repo/tecs/rinex/header.py:67`, `/repo/tecs/rinex/basic.py:56`, `/repo/tecs/rinex/v2/o.py:69` -/
def lblEnd : Str := c% "END OF HEADER"

/-- Python's `s[i]` with IndexError (`/repo/tecs/rinex/header.py:83-84`) -/
def charAt (s : Str) (i : Nat) : Except PyErr Char :=
  match s[i]? with
  | some c => .ok c
  | none => .error .index

/-- `RinexVersionType.value` setter, `/repo/tecs/rinex/header.py:80-90` -/
def parseVerType (version : Nat) (line : Str) : Except PyErr (PyFloat × Char × Char) := do
  let v ← pyFloat (line.take 9)
  let ft ← charAt line 20
  let sys ← charAt line 40
  let sys := if version < 300 then (if sys = ' ' then 'G' else sys) else sys
  pure (v, ft, sys)

/-- `list(map(int, l))` (`/repo/tecs/rinex/header.py:113`) -/
def mapInt : List Str → Except PyErr (List Int)
  | [] => .ok []
  | s :: r => do
    let v ← pyInt s
    let t ← mapInt r
    pure (v :: t)

/-- `list(map(float, l))` (`/repo/tecs/rinex/header.py:157`) -/
def mapFloat : List Str → Except PyErr (List PyFloat)
  | [] => .ok []
  | s :: r => do
    let v ← pyFloat s
    let t ← mapFloat r
    pure (v :: t)

/-- `TimeOfFirstObs.value` setter, `/repo/tecs/rinex/header.py:110-133` -/
def parseTofo (version : Nat) (line : Str) : Except PyErr (DateTime × Str) := do
  let epoch ← mapInt ((pyRange 0 30 6).map fun i => slice line i (i + 6))
  let sec ← pyFloat (slice line 30 (if version = 200 then 43 else 44))
  let (s, us) ← sec2secMs sec
  let epoch ← validateEpoch (epoch ++ [s, us])
  let ts := slice line 48 51
  let ts := if ts = c% "   " then c% "GPS" else ts
  pure (epoch, ts)

/-- a position: the tuple built by `ApproxPositionXYX.value` (`/repo/tecs/rinex/header.py:159`), always three numbers -/
abbrev Xyz := List PyFloat

/-- `ApproxPositionXYX.value` setter, `/repo/tecs/rinex/header.py:154-159` -/
def parseXyz (line : Str) : Except PyErr Xyz :=
  mapFloat ((pyRange 0 42 14).map fun i => slice line i (i + 14))

/-- `Interval.value` setter, `/repo/tecs/rinex/header.py:178-183` (the `int` of version 2.0 is stored as a float) -/
def parseInterval (version : Nat) (line : Str) : Except PyErr PyFloat :=
  if version = 200 then do
    let i ← pyInt (line.take 6)
    pure (.fin (i : Rat))
  else pyFloat (line.take 10)

/-- The values of the four header labels of `ObservationData` (`/repo/tecs/rinex/basic.py:122-130`). -/
structure HeaderVals where
  verType : Option (PyFloat × Char × Char)
  tofo : Option (DateTime × Str)
  xyz : Xyz
  interval : Option PyFloat
  deriving DecidableEq

/-- values right after construction of the labels: `None` (`/repo/tecs/rinex/header.py:52`), `(0., 0., 0.)` (`/repo/tecs/rinex/header.py:148`) -/
def HeaderVals.empty : HeaderVals := ⟨none, none, [.fin 0, .fin 0, .fin 0], none⟩

/-- the labels looked for (`items`, `/repo/tecs/rinex/basic.py:130`) -/
inductive HItem where
  | verType | tofo | xyz | interval
  deriving DecidableEq, Repr

/-- the `label` attribute of the item (`/repo/tecs/rinex/header.py:73`, `104`, `147`, `172`) -/
def HItem.label : HItem → Str
  | .verType => lblVersion
  | .tofo => lblTofo
  | .xyz => lblXyz
  | .interval => lblInterval

/-- `i.value = line`, `/repo/tecs/rinex/basic.py:136` -/
def HItem.assign (version : Nat) (i : HItem) (line : Str) (h : HeaderVals) : Except PyErr HeaderVals :=
  match i with
  | .verType => do let v ← parseVerType version line; pure { h with verType := some v }
  | .tofo => do let v ← parseTofo version line; pure { h with tofo := some v }
  | .xyz => do let v ← parseXyz line; pure { h with xyz := v }
  | .interval => do let v ← parseInterval version line; pure { h with interval := some v }

/-- the loops of `_parse_header`, `/repo/tecs/rinex/basic.py:132-138` -/
def parseHeaderGo (version : Nat) : List Str → List HItem → HeaderVals → Except PyErr HeaderVals
  | [], _, h => .ok h
  | line :: rest, items, h =>
    match items.find? (fun i => i.label = headerLabel line) with
    | none => parseHeaderGo version rest items h
    | some i => do
      let h ← i.assign version line h
      parseHeaderGo version rest (items.erase i) h

/-- `ObservationData._parse_header`, `/repo/tecs/rinex/basic.py:129-138` -/
def parseHeader (version : Nat) (header : List Str) (h : HeaderVals) : Except PyErr HeaderVals :=
  parseHeaderGo version header [.verType, .tofo, .xyz, .interval] h

/-- `NavigationMessage._parse_header`, `/repo/tecs/rinex/basic.py:149-158`: only the version label -/
def parseNavHeader (version : Nat) (header : List Str) : Except PyErr (Option (PyFloat × Char × Char)) := do
  let h ← parseHeaderGo version header [.verType] .empty
  pure h.verType

/-! ## `SYS / # / OBS TYPES` -/

/-- first loop of `SysNObsTypes.value`, `/repo/tecs/rinex/header.py:208-214`: join continuation lines; the accumulator is reversed -/
def joinSysLines : List Str → List Str → Except PyErr (List Str)
  | [], acc => .ok acc.reverse
  | line :: rest, acc =>
    if line = [] then joinSysLines rest acc
    else if isSpaceStr (slice line 0 6) then
      match acc with
      | [] => .error .index
      | a :: acc => joinSysLines rest ((a ++ slice line 7 60) :: acc)
    else joinSysLines rest (slice line 0 60 :: acc)

/-- the BeiDou band correction, `/repo/tecs/rinex/header.py:223-230` -/
def bdsFix : List Str → Except PyErr (List Str)
  | [] => .ok []
  | t :: ts => do
    let c ← charAt t 1
    let t := if c = '1' then replaceChar '1' '2' t else t
    let ts ← bdsFix ts
    pure (t :: ts)

/-- `{sat_sys: (obs_types,)}`, `/repo/tecs/rinex/header.py:192-197` -/
abbrev SysMap := Dict Str (List Str)

/-- second loop of `SysNObsTypes.value`, `/repo/tecs/rinex/header.py:216-241` -/
def addSystems (version : Nat) : List Str → SysMap → Except PyErr SysMap
  | [], m => .ok m
  | sno :: rest, m =>
    match splitWs sno with
    | [] => .error .index
    | [_] => .error .index
    | sys :: num :: types =>
      match pyInt num with
      | .error e => .error e
      | .ok n =>
        match (if version ≥ 302 ∧ sys = c% "C" then bdsFix types else .ok types) with
        | .error e => .error e
        | .ok types =>
          if (types.length : Int) ≠ n then .error .assertion
          else if m.has sys then .error .header
          else addSystems version rest (m.set sys types)

/-- `SysNObsTypes.value` setter, `/repo/tecs/rinex/header.py:203-241` -/
def assignSysNObs (version : Nat) (text : Str) (m : SysMap) : Except PyErr SysMap := do
  let joined ← joinSysLines (splitOn '\n' text) []
  addSystems version joined m

end Verif.Model
