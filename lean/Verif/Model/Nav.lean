import Verif.Model.Obs3
import Verif.Model.FUtils
/-!
# `/repo/tecs/rinex/v2/n.py`, `/repo/tecs/rinex/v3/n.py`, `/repo/tecs/rinex/nmsg.py`: navigation files
-/
namespace Verif.Model
open Verif.Py

/-- `lower().replace('d', 'e')` (`/repo/tecs/rinex/v2/n.py:150`, `178`; `/repo/tecs/rinex/v3/n.py:84`) -/
def fixExp (s : Str) : Str := replaceChar 'd' 'e' (lower s)

/-- `vals_per_orbit` of GPS, Galileo, BeiDou, QZSS and IRNSS messages, `/repo/tecs/rinex/nmsg.py:53-55`, `71-72`, `79-84`, `91-92` -/
def valsGps : List Nat := [4, 4, 4, 4, 4, 4, 2]
/-- `vals_per_orbit` of GLONASS and SBAS messages, `/repo/tecs/rinex/nmsg.py:66-68`, `75-76` -/
def valsGlo : List Nat := [4, 4, 4]

/-- the layout constants of a reader class: v2 (`/repo/tecs/rinex/v2/n.py:46-52`) or v3 (`/repo/tecs/rinex/v3/n.py:45-50`) -/
structure NavCfg where
  version : Nat
  /-- RINEX 3 epoch record layout -/
  v3 : Bool
  orbitStart : Nat
  orbitEnd : Nat
  spaces : Nat
  deriving DecidableEq

/-- `rec_len`, `/repo/tecs/rinex/v2/n.py:48` -/
def recLenN : Nat := 19

/-- `Nav2`, `Nav21`, `Nav211`, `/repo/tecs/rinex/v2/n.py:46-52`, `200`, `214` -/
def navCfg2 (version : Nat) : NavCfg := ⟨version, false, 3, 75, 3⟩
/-- `Nav3`, `Nav301`, `Nav302`, `Nav303`, `/repo/tecs/rinex/v3/n.py:45-50`, `98-111` -/
def navCfg3 (version : Nat) : NavCfg := ⟨version, true, 4, 76, 1⟩

/-- `file_types`: `/repo/tecs/rinex/v2/n.py:55-58` (version 2.0), `/repo/tecs/rinex/v2/n.py:202-206` (2.1, 2.11) -/
def fileTypes (version : Nat) (c : Char) : Option Char :=
  if c = 'N' then some 'G'
  else if c = 'G' then some 'R'
  else if c = 'H' then (if version = 200 then none else some 'S')
  else none

/-- `msg_reader[system].vals_per_orbit`: the systems of the class (`/repo/tecs/rinex/v2/n.py:54`, `201`, `/repo/tecs/rinex/v3/n.py:52-60`) -/
def msgVals (c : NavCfg) (system : Char) : Option (List Nat) :=
  if c.v3 then
    if system = 'G' ∨ system = 'E' ∨ system = 'C' ∨ system = 'J' ∨ system = 'I' then some valsGps
    else if system = 'R' ∨ system = 'S' then some valsGlo
    else none
  else
    if system = 'G' then some valsGps
    else if system = 'R' then some valsGlo
    else if system = 'S' ∧ c.version ≠ 200 then some valsGlo
    else none

/-- `_parse_epoch_record` of RINEX 2, `/repo/tecs/rinex/v2/n.py:169-192`.  `ft` = `self.ver_type.value` (its second entry); `None[1]` is a
TypeError.  The satellite clock values are read (they must be numbers) but not used. -/
def parseNavEpoch2 (version : Nat) (ft : Option Char) (rec : Str) : Except PyErr (Char × Int × DateTime) :=
  match ft with
  | none => .error .type
  | some ft =>
    catching (do
      let system ← match fileTypes version ft with
        | some s => pure s
        | none => throw PyErr.key
      let number ← pyInt (slice rec 0 2)
      let sec ← pyFloat (slice rec 17 22)
      let (s, us) ← sec2secMs sec
      let epoch ← mapInt ((pyRange 2 17 3).map fun i => slice rec i (i + 3))
      let t ← validateEpoch (epoch ++ [s, us])
      let _ ← mapFloat ([22, 41, 60].map fun i => fixExp (slice rec i (i + 19)))
      pure (system, number, t)) [.value, .key] (.error .rinex)

/-- `_parse_epoch_record` of RINEX 3, `/repo/tecs/rinex/v3/n.py:64-95`: six epoch components -/
def parseNavEpoch3 (rec : Str) : Except PyErr (Char × Int × DateTime) := do
  let system ← charAt rec 0
  catching (do
    let number ← pyInt (slice rec 1 3)
    let epoch ← mapInt (slice rec 4 9 :: (pyRange 8 23 3).map fun i => slice rec i (i + 3))
    let t ← validateEpoch epoch
    let _ ← mapFloat ([23, 42, 61].map fun i => fixExp (slice rec i (i + 19)))
    pure (system, number, t)) [.value] (.error .rinex)

/-- `s and float(s) or 0.`, `/repo/tecs/rinex/v2/n.py:160` -/
def orbitValue (s : Str) : Except PyErr PyFloat :=
  if s = [] then .ok (.fin 0)
  else do
    let v ← pyFloat s
    pure (if v.truthy then v else .fin 0)

/-- the list comprehension of `/repo/tecs/rinex/v2/n.py:160` -/
def mapOrbit : List Str → Except PyErr (List PyFloat)
  | [] => .ok []
  | s :: r => do
    let v ← orbitValue s
    let t ← mapOrbit r
    pure (v :: t)

/-- the values of one orbit line, `/repo/tecs/rinex/v2/n.py:147-163` (`n` = `vals_per_orbit[orbit_num]`) -/
def orbitLine (c : NavCfg) (line : Str) (n : Nat) : Except PyErr (List PyFloat) :=
  let line := rstrip line
  let values := (pyRange c.orbitStart c.orbitEnd recLenN).map fun i => fixExp (rstrip (slice line i (i + recLenN)))
  catching (mapOrbit (values.take n)) [.value, .index] (.error .rinex)

/-- `_read_orbits`, `/repo/tecs/rinex/v2/n.py:142-167`: IndexError (more lines than announced) becomes RinexError -/
def readOrbits (c : NavCfg) : List Str → List Nat → Except PyErr (List PyFloat)
  | [], _ => .ok []
  | _ :: _, [] => .error .rinex
  | l :: ls, n :: ns => do
    let v ← orbitLine c l n
    let r ← readOrbits c ls ns
    pure (v ++ r)

/-- time of day, in microseconds (`datetime.time`, `/repo/tecs/rinex/v2/n.py:137`) -/
abbrev TimeOfDay := Nat
/-- `epoch.time()`, `/repo/tecs/rinex/v2/n.py:137` -/
def _root_.Verif.Py.DateTime.time (t : DateTime) : TimeOfDay :=
  ((t.hour * 60 + t.minute) * 60 + t.second) * 1000000 + t.micro

/-- calendar date (`epoch.date()`, `/repo/tecs/rinex/v2/n.py:115`) -/
def _root_.Verif.Py.DateTime.date (t : DateTime) : Date := ⟨t.year, t.month, t.day⟩

/-- `self.message`, `/repo/tecs/rinex/v2/n.py:73`: system → satellite number → time of day → values -/
abbrev NavTable := Dict Char (Dict Int (Dict TimeOfDay (List PyFloat)))

/-- the current message (`reader`, `system`, `num`, `epoch`, `vals_per_orbit`, `/repo/tecs/rinex/v2/n.py:91-101`) -/
structure NavCur where
  system : Char
  num : Int
  epoch : DateTime
  vals : List Nat
  deriving DecidableEq

/-- local variables of `_read_message`, `/repo/tecs/rinex/v2/n.py:83-86`.  `last` keeps `system`, `num`, `epoch`, `vals_per_orbit` (never
reset), `reader` tells whether `reader` is not `None`. -/
structure NavLoc where
  orbits : List Str
  left : Nat
  last : Option NavCur
  reader : Bool
  deriving DecidableEq

/-- `/repo/tecs/rinex/v2/n.py:83-86` -/
def NavLoc.init : NavLoc := ⟨[], 0, none, false⟩

/-- `self.message[system][num][time] = values`, `/repo/tecs/rinex/v2/n.py:132-137` -/
def navStore (m : NavTable) (k : NavCur) (v : List PyFloat) : NavTable :=
  let bySat := (m.get? k.system).getD []
  let byTime := (bySat.get? k.num).getD []
  m.set k.system (bySat.set k.num (byTime.set k.epoch.time v))

/-- one turn of the loop of `_read_message`, `/repo/tecs/rinex/v2/n.py:88-140` -/
def navStep (c : NavCfg) (ft : Option Char) (date : Option Date) (line : Str) (l : NavLoc) (m : NavTable) :
    Except PyErr (NavLoc × NavTable) := do
  if !isSpaceStr (slice line 0 c.spaces) then
    let (system, num, epoch) ← if c.v3 then parseNavEpoch3 line else parseNavEpoch2 c.version ft line
    match msgVals c system with
    | none => throw .rinex
    | some vals => pure ({ l with left := vals.length, last := some ⟨system, num, epoch, vals⟩, reader := true }, m)
  else
    let (orbits, left, go) :=
      if l.left ≠ 0 then (l.orbits ++ [line], l.left - 1, decide (l.left - 1 ≠ 0)) else (l.orbits, l.left, false)
    let l : NavLoc := { l with orbits := orbits, left := left }
    if go then pure (l, m)
    else
      match l.reader, l.last with
      | true, some k =>
        if date ≠ some k.epoch.date then pure ({ l with orbits := [], reader := false }, m)
        else
          let v ← readOrbits c l.orbits k.vals
          pure ({ l with orbits := [], reader := false }, navStore m k v)
      | _, _ => throw .rinex

/-- `_read_message`, `/repo/tecs/rinex/v2/n.py:79-140` -/
def navLoop (c : NavCfg) (ft : Option Char) (date : Option Date) :
    List Str → NavLoc → NavTable → Except PyErr NavTable
  | [], _, m => .ok m
  | line :: ls, l, m => do
    let (l, m) ← navStep c ft date line l m
    navLoop c ft date ls l m

/-- `Nav2.__init__`, `/repo/tecs/rinex/v2/n.py:60-77`: the table of messages of a navigation file, `date` = date of the file name -/
def loadNav (c : NavCfg) (date : Option Date) (file : List Str) : Except PyErr NavTable := do
  let (header, body) := splitHeader3 file
  let vt ← parseNavHeader c.version header
  navLoop c (vt.map fun v => v.2.1) date body .init []

end Verif.Model
