import Verif.Py.Re
import Verif.Py.Date
import Verif.Py.Dict
/-!
# `/repo/tecs/rinex/futils.py`, `/repo/tecs/rinex/__init__.py`: file names, versions
-/
namespace Verif.Model
open Verif.Py

/-! ## Patterns -/

/-- `RE_VER`, `/repo/tecs/rinex/futils.py:47`: `^\s*(\d+\.?\d*).*RINEX VERSION / TYPE$`, `re.I` -/
def reVer : Re := reSeq [reSpaces,
  .grp 1 (reSeq [reD, .many isDigit, reOpt (reC '.'), .many isDigit]), reAnys, reLit (c% "RINEX VERSION / TYPE"), .eol]

/-- `RE_MODERN_RINEX`, `/repo/tecs/rinex/futils.py:49`: `^(\w{4})\w{5}_[RSU]_(\d{4})(\d{3})\d{4}`, `re.I` -/
def reModern : Re := reSeq [.grp 1 (reRep reW 4), reRep reW 5, reC '_', reOneOf (c% "RSU"), reC '_', .grp 2 (reRep reD 4),
  .grp 3 (reRep reD 3), reRep reD 4]

/-- `\w{1,3}` (greedy), part of `/repo/tecs/rinex/futils.py:50` -/
def reW13 : Re := reSeq [reW, reOpt (reSeq [reW, reOpt reW])]

/-- `RE_CLASSIC_RINEX`, `/repo/tecs/rinex/futils.py:50-51`: `^(\w{4})(\d{3})\w{1,3}\.(\d{2})([odnmglphbc])`, `re.I` -/
def reClassic : Re := reSeq [.grp 1 (reRep reW 4), .grp 2 (reRep reD 3), reW13, reC '.', .grp 3 (reRep reD 2),
  .grp 4 (reOneOf (c% "odnmglphbc"))]

/-- `RE_Z`, `/repo/tecs/rinex/futils.py:56`: `(.*)\.(z|gz)$`, `re.I` -/
def reZ : Re := reSeq [.grp 1 reAnys, reC '.', .grp 2 (.alt (reC 'z') (reLit (c% "gz"))), .eol]

/-- `RE_CRX`, `/repo/tecs/rinex/futils.py:57`: `(.*)\.(\d{2}d|crx)`, `re.I` -/
def reCrx : Re := reSeq [.grp 1 reAnys, reC '.', .grp 2 (.alt (reSeq [reRep reD 2, reC 'd']) (reLit (c% "crx")))]

/-- `RE_RNX`, `/repo/tecs/rinex/futils.py:58`: `(.*)\.(\d{2}o|rnx)`, `re.I` -/
def reRnx : Re := reSeq [.grp 1 reAnys, reC '.', .grp 2 (.alt (reSeq [reRep reD 2, reC 'o']) (reLit (c% "rnx")))]

/-- a letter `[a-x]` under `re.I`, part of `/repo/tecs/rinex/futils.py:76` -/
def isAX (c : Char) : Bool := 97 ≤ (lowerC c).toNat && (lowerC c).toNat ≤ 120

/-- `classic_fnmin_obs`, `/repo/tecs/rinex/futils.py:76`: `^\w{4}\d{3}[a-x](00|15|30|45)\.\d{2}[od]` -/
def reClassicMin : Re := reSeq [reRep reW 4, reRep reD 3, .chr isAX,
  reAlt [reLit (c% "00"), reLit (c% "15"), reLit (c% "30"), reLit (c% "45")], reC '.', reRep reD 2, reOneOf (c% "od")]

/-- `classic_daily_obs`, `/repo/tecs/rinex/futils.py:75`: `^\w{4}\d{3}\w\.\d{2}[od]` -/
def reClassicDay : Re := reSeq [reRep reW 4, reRep reD 3, reW, reC '.', reRep reD 2, reOneOf (c% "od")]

/-- `modern_obs`, `/repo/tecs/rinex/futils.py:78`: `\w{9}_[RSU]_\d{11}_\w{3}_\w{3}_\wo\.(crx|rnx)` -/
def reModernObs : Re := reSeq [reRep reW 9, reC '_', reOneOf (c% "RSU"), reC '_', reRep reD 11, reC '_', reRep reW 3, reC '_',
  reRep reW 3, reC '_', reW, reC 'o', reC '.', .alt (reLit (c% "crx")) (reLit (c% "rnx"))]

/-- `obs_ext`, `/repo/tecs/rinex/futils.py:53`, `73`: `(\.z|\.gz|)$` -/
def reObsExt : Re := reSeq [reAlt [reLit (c% ".z"), reLit (c% ".gz"), .eps], .eol]

/-- `RE_OBS`, `/repo/tecs/rinex/futils.py:80-95` -/
def reObs : Re := reAlt [.seq reClassicMin reObsExt, .seq reClassicDay reObsExt, .seq reModernObs reObsExt]

/-- `CRD_EXT` inside a pattern, `/repo/tecs/rinex/futils.py:54`, `86`: `.xyz` (the dot is any character) -/
def reXyzExt : Re := reSeq [reAny, reC 'x', reC 'y', reC 'z']

/-- `RE_XYZ`, `/repo/tecs/rinex/futils.py:86`, `95` -/
def reXyz : Re := reAlt [.seq reClassicMin reXyzExt, .seq reClassicDay reXyzExt, .seq reModernObs reXyzExt]

/-- `RE_OBS_WO_EXT`, `/repo/tecs/rinex/futils.py:88-95` -/
def reObsWoExt : Re := .grp 1 (reAlt [reClassicMin, reClassicDay, reModernObs])

/-! ## Paths (POSIX) -/

/-- the part after the last slash: `os.path.basename` (`/repo/tecs/rinex/futils.py:174`, `267`, `356`) -/
def basename : Str → Str
  | [] => []
  | c :: cs => if '/' ∈ cs then basename cs else if c = '/' then cs else c :: cs

/-- `os.path.dirname` (`/repo/tecs/rinex/futils.py:357`), up to trailing slashes of the directory part (`posixpath.split` strips them unless there is nothing
else) -/
def dirname (s : Str) : Str :=
  let head := s.take (s.length - (basename s).length)
  let r := head.reverse.dropWhile (· = '/')
  if r = [] then head else r.reverse

/-- `os.path.join(d, f)` for a relative `f` (`/repo/tecs/rinex/futils.py:316`, `366`) -/
def joinPath (d f : Str) : Str :=
  if d = [] then f else if d.getLast? = some '/' then d ++ f else d ++ '/' :: f

/-! ## Observation files -/

/-- how the contents of a file are obtained: observation files as ASCII text, decompressed, run through `crx2rnx`; `empty` is the
temporary file left empty (`/repo/tecs/rinex/futils.py:180-246`); `text` is `open(filename)` (`/repo/tecs/rinex/futils.py:137`, `397`) -/
inductive Fetch where
  | plain | gunzip | gunzipCrx | crx | empty | text
  deriving DecidableEq

/-- `expand_obs`, `/repo/tecs/rinex/futils.py:157-250`: which programs are run (their failures are not modelled) -/
def expandObs (filename : Str) : Except PyErr Fetch :=
  if reObs.accepts (basename filename) = false then .error .uncompress
  else if reZ.accepts filename then
    if reRnx.accepts filename then .ok .gunzip
    else if reCrx.accepts filename then .ok .gunzipCrx
    else .ok .empty
  else if reCrx.accepts filename then .ok .crx
  else if reRnx.accepts filename then .ok .plain
  else .error .uncompress

/-! ## Dates -/

/-- `datetime.date` (`/repo/tecs/rinex/futils.py:300`) -/
structure Date where
  year : Nat
  month : Nat
  day : Nat
  deriving DecidableEq

/-- `strptime('%y')` (`/repo/tecs/rinex/futils.py:277`, `293`), POSIX window -/
def posixYear (y : Nat) : Nat := if y ≤ 68 then 2000 + y else 1900 + y

/-- value of decimal digits (given that all characters are digits), for the groups used in `/repo/tecs/rinex/futils.py:275-293` -/
def digitsVal (s : Str) : Nat := s.foldl (fun a c => a * 10 + digitVal c) 0

/-- `datetime.strptime('<year>-<day>', '%Y-%j')` (`/repo/tecs/rinex/futils.py:290-298`): three digits, days 001..366; the day of the year is added to January 1st
(`_strptime.py`), `date(year, 1, 1)` and `fromordinal` raise ValueError outside the years 1..9999 -/
def yearDay (year day : Nat) : Option Date :=
  if 1 ≤ day ∧ day ≤ 366 ∧ 1 ≤ year then
    let ord := ymd2ord year 1 1 + (day - 1)
    if ord ≤ 3652059 then
      let (y, m, d) := ord2ymd ord
      some ⟨y, m, d⟩
    else none
  else none

/-- `get_rinex_date`, `/repo/tecs/rinex/futils.py:253-300` -/
def getRinexDate (filename : Str) : Option Date :=
  let base := basename filename
  match reClassic.match1 base with
  | some h => yearDay (posixYear (digitsVal (h.group 3))) (digitsVal (h.group 2))
  | none =>
    match reModern.match1 base with
    | some h => yearDay (digitsVal (h.group 2)) (digitsVal (h.group 3))
    | none => none

/-! ## Versions, `rinex/__init__.py` -/

/-- the reader class, by its version in hundredths (`/repo/tecs/rinex/__init__.py:65-73`) -/
def obsClass (v : Rat) : Option Nat :=
  if v = 2 then some 200 else if v = 21/10 then some 210 else if v = 211/100 then some 211
  else if v = 3 then some 300 else if v = 301/100 then some 301 else if v = 302/100 then some 302
  else if v = 303/100 then some 303 else none

/-- the version part of `obs_file`, `/repo/tecs/rinex/__init__.py:51-79` -/
def obsVersion (firstLine : Str) : Except PyErr Nat :=
  match reVer.match1 (rstrip firstLine) with
  | none => .error .rinex
  | some h =>
    match parseFloat (h.group 1) with
    | some (.fin v) => match obsClass v with
      | some c => .ok c
      | none => .error .rinex
    | some _ => .error .rinex
    | none => .error .value

/-- `nav_cls`, `/repo/tecs/rinex/__init__.py:105-115` -/
def navClass (v : Rat) : Option Nat :=
  if v = 2 then some 200 else if v = 201/100 then some 200 else if v = 21/10 then some 210 else if v = 211/100 then some 211
  else if v = 3 then some 300 else if v = 301/100 then some 301 else if v = 302/100 then some 302
  else if v = 303/100 then some 303 else if v = 304/100 then some 303 else none

/-- the version part of `nav_file`, `/repo/tecs/rinex/__init__.py:95-121` -/
def navVersion (firstLine : Str) : Except PyErr Nat :=
  match parseFloat (firstLine.take 9) with
  | none => .error .rinex
  | some (.fin v) => match navClass v with
    | some c => .ok c
    | none => .error .rinex
  | some _ => .error .rinex

/-! ## Coordinate files -/

/-- `re.search` (`/repo/tecs/rinex/futils.py:359`): leftmost -/
def searchFrom (r : Re) : Str → Option Hit
  | [] => r.match1 []
  | c :: s => match r.match1 (c :: s) with
    | some h => some h
    | none => searchFrom r s

/-- `find_xyz_file`, `/repo/tecs/rinex/futils.py:339-375`: the name looked for (before the test of existence). The alternatives with `^` can only
match at the start. -/
def xyzName (fname : Str) : Option Str :=
  let base := basename fname
  let hit := match reObsWoExt.match1 base with
    | some h => some (h.group 1)
    | none => (searchFrom (.grp 1 reModernObs) (base.drop 1)).map (fun h : Hit => h.group 1)
  hit.map fun n => joinPath (dirname fname) n ++ c% ".xyz"

/-- `^\s*#.*` (`/repo/tecs/rinex/futils.py:400`) on a line without trailing white space -/
def reComment : Re := reSeq [reSpaces, reC '#', reAnys]

/-- `re.split(r'\s+', s)`, `/repo/tecs/rinex/futils.py:405` -/
def splitSpaces : Str → List Str
  | [] => [[]]
  | c :: s =>
    if isSpace c then
      match s with
      | [] => [[], []]
      | d :: _ => if isSpace d then splitSpaces s else [] :: splitSpaces s
    else match splitSpaces s with
      | [] => [[c]]
      | w :: ws => (c :: w) :: ws

/-- a character between two others (`/repo/tecs/rinex/futils.py:392`, the pattern of `_strptime`) -/
def reRange (a b : Char) : Re := .chr fun c => a.toNat ≤ c.toNat && c.toNat ≤ b.toNat

/-- the pattern of `_strptime` for `%Y-%m-%d%H:%M:%S` (`/repo/tecs/rinex/futils.py:392`) -/
def reXyzTime : Re := reSeq [.grp 1 (reRep reD 4), reC '-',
  .grp 2 (reAlt [reSeq [reC '1', reRange '0' '2'], reSeq [reC '0', reRange '1' '9'], reRange '1' '9']), reC '-',
  .grp 3 (reAlt [reSeq [reC '3', reRange '0' '1'], reSeq [reRange '1' '2', reD], reSeq [reC '0', reRange '1' '9'],
    reRange '1' '9', reSeq [reC ' ', reRange '1' '9']]),
  .grp 4 (reAlt [reSeq [reC '2', reRange '0' '3'], reSeq [reRange '0' '1', reD], reD]), reC ':',
  .grp 5 (reAlt [reSeq [reRange '0' '5', reD], reD]), reC ':',
  .grp 6 (reAlt [reSeq [reC '6', reRange '0' '1'], reSeq [reRange '0' '5', reD], reD])]

/-- `datetime.strptime(s, '%Y-%m-%d%H:%M:%S')`, `/repo/tecs/rinex/futils.py:406` -/
def strptimeXyz (s : Str) : Except PyErr DateTime :=
  match reXyzTime.match1 s with
  | none => .error .value
  | some h =>
    if h.rest ≠ [] then .error .value
    else mkDateTime7 (digitsVal (h.group 1)) (digitsVal (h.group 2))
      (digitsVal ((h.group 3).filter isDigit)) (digitsVal (h.group 4)) (digitsVal (h.group 5)) (digitsVal (h.group 6)) 0

/-- one line of `load_xyz_file`, `/repo/tecs/rinex/futils.py:398-421`; `none` = nothing to store. -/
def xyzLine (line : Str) : Except PyErr (Option (DateTime × List PyFloat)) :=
  let r := rstrip line
  if reComment.accepts r then .ok none
  else if r = [] then .ok none
  else match splitSpaces r with
    | [cdate, ctime, x, y, z] =>
      match strptimeXyz (cdate ++ ctime) with
      | .error e => .error e
      | .ok t =>
        match parseFloat x, parseFloat y, parseFloat z with
        | some a, some b, some c => .ok (some (t, [a, b, c]))
        | _, _, _ => .error .exit
    | _ => .error .value

/-- `load_xyz_file`, `/repo/tecs/rinex/futils.py:378-425` -/
def loadXyz : List Str → Dict DateTime (List PyFloat) → Except PyErr (Dict DateTime (List PyFloat))
  | [], d => .ok d
  | l :: ls, d =>
    match xyzLine l with
    | .error e => .error e
    | .ok none => loadXyz ls d
    | .ok (some (t, p)) => loadXyz ls (d.set t p)

/-! ## Directories -/

/-- `find_files`, `/repo/tecs/rinex/futils.py:303-319`; a directory is its path and its entries -/
def findFiles (dirs : List (Str × List Str)) (test : Re) : List Str :=
  (dirs.map fun d => (d.2.filter test.accepts).map (joinPath d.1)).flatten

/-- `get_dir_list`, `/repo/tecs/rinex/futils.py:322-336` -/
def getDirList (line : Str) : List Str := (splitOn ',' line).map strip

end Verif.Model
