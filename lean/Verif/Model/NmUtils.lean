import Verif.Model.Nav
/-!
# `/repo/tecs/rinex/nmutils.py`: navigation files and ephemerides
-/
namespace Verif.Model
open Verif.Py

/-! ## Second of the week -/

/-- `get_week_sec`, `/repo/tecs/rinex/nmutils.py:49-69` (exact arithmetic): `timedelta.days` is the floor, `timedelta.seconds` the whole seconds of
the rest -/
def getWeekSec (epoch start : DateTime) : Rat :=
  let delta := epoch.sub start
  let days := delta / 86400000000
  let seconds := (delta - days * 86400000000) / 1000000
  let week : Rat := (days : Rat) / 7
  (week - (truncRat week : Rat)) * (7 * 24 * 60 * 60) + (seconds : Rat)

/-- `gps.epoch_start`, `/repo/tecs/sat/gps.py:33`, `/repo/tecs/rinex/nmutils.py:239` -/
def gpsStart : DateTime := ⟨1980, 1, 6, 0, 0, 0, 0⟩
/-- `/repo/tecs/rinex/nmutils.py:243` -/
def bdsStart : DateTime := ⟨2006, 1, 1, 0, 0, 0, 0⟩
/-- `/repo/tecs/rinex/nmutils.py:248` -/
def galStart : DateTime := ⟨1999, 8, 22, 0, 0, 13, 0⟩

/-! ## Names of navigation files -/

/-- the number printed by `strftime('%j')` (`/repo/tecs/rinex/nmutils.py:107`, `112`) -/
def yday (t : DateTime) : Nat := ymd2ord t.year t.month t.day - daysBeforeYear t.year
/-- `strftime('%j')` (`/repo/tecs/rinex/nmutils.py:107`, `112`) -/
def strfJ (t : DateTime) : Str := zfill 3 (natStr (yday t))
/-- `strftime('%y')` (`/repo/tecs/rinex/nmutils.py:113`) -/
def strfy (t : DateTime) : Str := zfill 2 (natStr (t.year % 100))
/-- `strftime('%Y')` (`/repo/tecs/rinex/nmutils.py:106`); glibc prints the year without padding -/
def strfY (t : DateTime) : Str := natStr t.year

/-- `nav_id`, `/repo/tecs/rinex/nmutils.py:86-92` -/
def navId (system : Char) : Option Char :=
  if system = 'G' then some 'n' else if system = 'R' then some 'g' else if system = 'S' then some 'h'
  else if system = 'E' then some 'l' else if system = 'M' then some 'p' else none

/-- `classic_nav_tmpl`, `/repo/tecs/rinex/nmutils.py:94`, `112-114` -/
def reClassicNav (t : DateTime) (id : Char) : Re :=
  reSeq [.grp 1 (reRep reW 4), reLit (strfJ t), reW, reC '.', reLit (strfy t), reC id]

/-- `modern_nav_tmpl`, `/repo/tecs/rinex/nmutils.py:96-108` -/
def reModernNav (t : DateTime) (system : Char) : Re :=
  reSeq [.grp 1 (reRep reW 4), reRep reW 5, reC '_', reW, reC '_', reLit (strfY t), reLit (strfJ t), reRep reD 4, reC '_', reRep reW 3,
    reOpt (.grp 2 (reSeq [reC '_', reRep reW 3])), reC '_', reC system, reC 'N', reC '.', reC 'r', reC 'n', reC 'x']

/-- `compose_navigation_re`, `/repo/tecs/rinex/nmutils.py:72-122` -/
def composeNavRe (system : Char) (t : DateTime) : Re :=
  match navId system with
  | some id => .alt (reClassicNav t id) (reModernNav t system)
  | none => reModernNav t system

/-! ## Choice of the file -/

/-- `re.compile(q, re.I).search(f)` (`/repo/tecs/rinex/nmutils.py:129-132`) for a query of plain letters and digits: `q` occurs in `f`, in any case -/
def searchCI (q f : Str) : Bool := contains (lower q) (lower f)

/-- `get_prior_file`, `/repo/tecs/rinex/nmutils.py:125-135` -/
def getPriorFile : List Str → List Str → Option Str
  | [], _ => none
  | f :: _, [] => some f
  | f :: fs, q :: qs =>
    match (f :: fs).find? (searchCI q) with
    | some g => some g
    | none => getPriorFile (f :: fs) qs

/-- `find_nav_files`, `/repo/tecs/rinex/nmutils.py:183-186` -/
def findNavFiles (dirs : List (Str × List Str)) (epoch : DateTime) (system : Char) : List Str :=
  findFiles dirs (composeNavRe system epoch)

/-- the file chosen by `load_navigation_message`, `/repo/tecs/rinex/nmutils.py:157-170`; `priority` is `None` or a list (an empty list is falsy) -/
def chooseNavFile (dirs : List (Str × List Str)) (epoch : DateTime) (system : Char) (priority : List Str) : Except PyErr Str :=
  let own := findNavFiles dirs epoch system
  let files := if own = [] then findNavFiles dirs epoch 'M' else own
  match files with
  | [] => .error .nm
  | f :: fs => if priority = [] then .ok f else
    match getPriorFile (f :: fs) priority with
    | some g => .ok g
    | none => .error .type

/-- `load_navigation_message`, `/repo/tecs/rinex/nmutils.py:138-180`; `navFile` is `nav_file` (reads the file of the given name) -/
def loadNavigationMessage (navFile : Str → Except PyErr NavTable) (dirs : List (Str × List Str)) (epoch : DateTime) (system : Char)
    (priority : List Str) : Except PyErr NavTable :=
  match chooseNavFile dirs epoch system priority with
  | .error e => .error e
  | .ok f =>
    match navFile f with
    | .error e => .error e
    | .ok m => if m.has system then .ok m else .error .nm

/-! ## Choice of the message -/

/-- insertion, for `sorted(keys)`, `/repo/tecs/rinex/nmutils.py:259` -/
def insertNat (x : Nat) : List Nat → List Nat
  | [] => [x]
  | y :: l => if x ≤ y then x :: y :: l else y :: insertNat x l
/-- `sorted(keys)`, `/repo/tecs/rinex/nmutils.py:259` -/
def sortNat : List Nat → List Nat
  | [] => []
  | x :: l => insertNat x (sortNat l)

/-- whole seconds of a time of day, `/repo/tecs/rinex/nmutils.py:255-257`, `295-297` -/
def daySeconds (t : TimeOfDay) : Int := (t / 1000000 : Nat)

/-- `gps_way`, `/repo/tecs/rinex/nmutils.py:232` -/
def gpsWay (system : Char) : Bool := system = 'G' || system = 'C' || system = 'E'

/-- `epoch_start` and `week_second`, `/repo/tecs/rinex/nmutils.py:235-251` -/
def weekSecond (epoch : DateTime) (system : Char) : Rat :=
  getWeekSec epoch (if system = 'G' then gpsStart else if system = 'C' then bdsStart else galStart)

/-- the loop over the message times, `/repo/tecs/rinex/nmutils.py:294-311` -/
def scanTimes (obs dt : Int) : List TimeOfDay → Option (TimeOfDay × Int)
  | [] => none
  | mt :: rest =>
    let m := daySeconds mt
    let (diff, ier) := if obs > m then (obs - m, (1 : Int)) else (m - obs, -1)
    if diff ≤ dt then some (mt, diff * ier) else scanTimes obs dt rest

/-- `select_navigation_message`, `/repo/tecs/rinex/nmutils.py:189-311`: the time argument and the ephemeris -/
def selectMessage (epoch : DateTime) (system : Char) (number : Int) (message : NavTable) (firstMsg : Bool) :
    Except PyErr (Option (Rat × List PyFloat)) :=
  match message.get? system with
  | none => .ok none
  | some bySat =>
    if bySat = [] then .ok none
    else match bySat.get? number with
      | none => .ok none
      | some byTime =>
        let week := weekSecond epoch system
        let time := epoch.time
        let obs := daySeconds time
        let times := sortNat byTime.keys
        match byTime.get? time with
        | some v => .ok (some (if gpsWay system then week else 0, v))
        | none =>
          let search := fun (dt : Int) =>
            match scanTimes obs dt times with
            | none => (.ok none : Except PyErr (Option (Rat × List PyFloat)))
            | some (mt, diff) =>
              match byTime.get? mt with
              | none => .error .key
              | some v => .ok (some (if gpsWay system then week else (diff : Rat), v))
          if system = 'G' ∨ system = 'C' then
            if firstMsg then
              match times with
              | [] => .error .index
              | mt :: _ =>
                match byTime.get? mt with
                | none => .error .key
                | some v => .ok (some (week, v))
            else search 7200
          else if system = 'E' then search 10800
          else if system = 'R' then search 900
          else if system = 'S' then search 256
          else .error .exc

end Verif.Model
