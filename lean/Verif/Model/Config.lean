import Verif.Model.Common
import Verif.Model.Header
import Verif.Model.Label
import Verif.Model.FUtils
import Verif.Py.Format
/-!
# `/repo/tecs/config.py`, `/repo/tecs/gtb/config.py`, `/repo/tecs/rec.py`
-/
namespace Verif.Model
open Verif.Py

/-! ## `rec.py` -/

/-- an entry of `formatDef`, `/repo/tecs/rec.py:37-308` (the unused `type` is left out) -/
structure ColDef where
  fmt : Str
  fortran : Str
  deriving DecidableEq

/-- `Rec.formatDef`, `/repo/tecs/rec.py:37-308`, with `formatDef['datetime']['fortran']` as set by `/repo/tecs/gtb/config.py:170-172` (`dtLen` is the length of a formatted date) -/
def formatDef (dtLen : Nat) : Dict Str ColDef := [
  (c% "tsn", ⟨c% "{0:11d}", c% "I11"⟩),
  (c% "hour", ⟨c% "{1:14.11f}", c% "F14.11"⟩),
  (c% "datetime", ⟨c% "{2}", (c% "A") ++ natStr dtLen⟩),
  (c% "el", ⟨c% "{3: 10.5f}", c% "F10.5"⟩),
  (c% "az", ⟨c% "{4: 11.5f}", c% "F11.5"⟩),
  (c% "p1", ⟨c% "{5: 16.3f}", c% "F16.3"⟩),
  (c% "p1.lli", ⟨c% "{6:1d}", c% "I1"⟩),
  (c% "p2", ⟨c% "{7: 16.3f}", c% "F16.3"⟩),
  (c% "p2.lli", ⟨c% "{8:1d}", c% "I1"⟩),
  (c% "tec.p1p2", ⟨c% "{9: 10.3f}", c% "F10.3"⟩),
  (c% "l1", ⟨c% "{10: 16.3f}", c% "F16.3"⟩),
  (c% "l1.lli", ⟨c% "{11:1d}", c% "I1"⟩),
  (c% "l2", ⟨c% "{12: 16.3f}", c% "F16.3"⟩),
  (c% "l2.lli", ⟨c% "{13:1d}", c% "I1"⟩),
  (c% "tec.l1l2", ⟨c% "{14: 21.3f}", c% "F21.3"⟩),
  (c% "validity", ⟨c% "{15:7d}", c% "I7"⟩),
  (c% "s1", ⟨c% "{16: 16.3f}", c% "F16.3"⟩),
  (c% "s1.lli", ⟨c% "{17:1d}", c% "I1"⟩),
  (c% "s2", ⟨c% "{18: 16.3f}", c% "F16.3"⟩),
  (c% "s2.lli", ⟨c% "{19:1d}", c% "I1"⟩),
  (c% "s5", ⟨c% "{20: 16.3f}", c% "F16.3"⟩),
  (c% "s5.lli", ⟨c% "{21:1d}", c% "I1"⟩),
  (c% "c1", ⟨c% "{22: 16.3f}", c% "F16.3"⟩),
  (c% "c1.lli", ⟨c% "{23:1d}", c% "I1"⟩),
  (c% "c2", ⟨c% "{24: 16.3f}", c% "F16.3"⟩),
  (c% "c2.lli", ⟨c% "{25:1d}", c% "I1"⟩),
  (c% "tec.c1p2", ⟨c% "{26: 10.3f}", c% "F10.3"⟩),
  (c% "tec.l1c1", ⟨c% "{27: 21.3f}", c% "F21.3"⟩),
  (c% "l5", ⟨c% "{28: 16.3f}", c% "F16.3"⟩),
  (c% "l5.lli", ⟨c% "{29:1d}", c% "I1"⟩),
  (c% "tec.l1l5", ⟨c% "{30: 21.3f}", c% "F21.3"⟩),
  (c% "c5", ⟨c% "{31: 16.3f}", c% "F16.3"⟩),
  (c% "c5.lli", ⟨c% "{32:1d}", c% "I1"⟩),
  (c% "tec.c1c5", ⟨c% "{33: 10.3f}", c% "F10.3"⟩),
  (c% "tec.l2l5", ⟨c% "{34: 21.3f}", c% "F21.3"⟩),
  (c% "tec.c1c2", ⟨c% "{35: 10.3f}", c% "F10.3"⟩),
  (c% "tec.c2c5", ⟨c% "{36: 10.3f}", c% "F10.3"⟩),
  (c% "sat.x", ⟨c% "{37: 23.12f}", c% "F23.12"⟩),
  (c% "sat.y", ⟨c% "{38: 23.12f}", c% "F23.12"⟩),
  (c% "sat.z", ⟨c% "{39: 23.12f}", c% "F23.12"⟩),
  (c% "site.x", ⟨c% "{40: 23.12f}", c% "F23.12"⟩),
  (c% "site.y", ⟨c% "{41: 23.12f}", c% "F23.12"⟩),
  (c% "site.z", ⟨c% "{42: 23.12f}", c% "F23.12"⟩),
  (c% "site.l", ⟨c% "{43: 17.12f}", c% "F23.12"⟩),
  (c% "site.b", ⟨c% "{44: 16.12f}", c% "F23.12"⟩),
  (c% "site.h", ⟨c% "{45: 18.12f}", c% "F23.12"⟩),
  (c% "tec.l2l6", ⟨c% "{46: 21.3f}", c% "F21.3"⟩),
  (c% "tec.l2l7", ⟨c% "{47: 21.3f}", c% "F21.3"⟩),
  (c% "tec.l6l7", ⟨c% "{48: 21.3f}", c% "F21.3"⟩),
  (c% "tec.c2c6", ⟨c% "{49: 10.3f}", c% "F10.3"⟩),
  (c% "tec.c2c7", ⟨c% "{50: 10.3f}", c% "F10.3"⟩),
  (c% "tec.c6c7", ⟨c% "{51: 10.3f}", c% "F10.3"⟩),
  (c% "tec.l2c2", ⟨c% "{52: 21.3f}", c% "F21.3"⟩),
  (c% "tec.l8c8", ⟨c% "{53: 21.3f}", c% "F21.3"⟩)]

/-! ## `config.py` -/

/-- a setting: text from the file (`/repo/tecs/config.py:155-167`), or one of the non-text defaults (`/repo/tecs/gtb/config.py:52-69`) -/
inductive CfgVal where
  | str (s : Str)
  | emptyList
  | num (q : Rat)
  | bool (b : Bool)
  deriving DecidableEq

/-- `DEFAULTS`, `/repo/tecs/gtb/config.py:48-69`; `DRF` is `datetime, el, az, tec.l1l2, validity` -/
def DEFAULTS : Dict Str CfgVal := [
  (c% "cfg_file", .str (c% "./tecs.cfg")),
  (c% "obsDir", .str (c% "./obs")),
  (c% "navDir", .str (c% "./nav")),
  (c% "outDir", .str (c% "./out")),
  (c% "navPriorityGPS", .emptyList),
  (c% "navPriorityGLO", .emptyList),
  (c% "navPriorityGEO", .emptyList),
  (c% "samplingInterval", .num 0),
  (c% "navIgnoreAbsence", .bool false),
  (c% "elNanValue", .num (-9999)),
  (c% "azNanValue", .num (-9999)),
  (c% "outFileMode", .str (c% "text")),
  (c% "recFields", .str (c% "datetime, el, az, tec.l1l2, validity")),
  (c% "datetimeFormat", .str (c% "%Y-%j %H:%M:%S")),
  (c% "logLevel", .str (c% "DEBUG")),
  (c% "logFile", .str (c% "tecs.log"))]

/-- `re.sub(r'#.*', '', line)`, `/repo/tecs/config.py:145`, for a line without interior newlines -/
def dropComment (s : Str) : Str := s.takeWhile (· != '#')

/-- `re.sub(r'\s+', '', s)`, `/repo/tecs/config.py:153-156` -/
def removeSpaces (s : Str) : Str := s.filter fun c => !isSpace c

/-- One line, `/repo/tecs/config.py:144-156`: `none` is an ignored line, otherwise name and value.  `re.split('=', line, 2)` has two parts iff there is exactly one `=`;
unpacking anything else is a ValueError. -/
def cfgLine (line : Str) : Except PyErr (Option (Str × Str)) :=
  let line := dropComment (rstrip line)
  if line.length = 0 then .ok none
  else
    match splitOn '=' line with
    | [name, val] => .ok (some (removeSpaces name, strip val))
    | _ => .error .value

/-- The loop of `Configuration.read_cfg`, `/repo/tecs/config.py:142-167`.  Attributes and `settings` are always updated together and are one dictionary here. -/
def cfgLoop : List Str → Dict Str CfgVal → Except PyErr (Dict Str CfgVal)
  | [], d => .ok d
  | l :: ls, d =>
    match cfgLine l with
    | .error e => .error e
    | .ok none => cfgLoop ls d
    | .ok (some (name, val)) =>
      if val.length ≠ 0 then
        if d.has name then cfgLoop ls (d.set name (.str val)) else cfgLoop ls d
      else cfgLoop ls d

/-- `Configuration.read_cfg`, `/repo/tecs/config.py:130-169`, preceded by `self.__init__(self.defaults)`, `/repo/tecs/gtb/config.py:143-144`.  `content` is `none` if the file
cannot be opened.  (`self.cfg_file = filename` is set before the loop; the entry `cfg_file` of the dictionary stands for that attribute.) -/
def readSettings (filename : Str) (content : Option (List Str)) : Except PyErr (Dict Str CfgVal) :=
  match content with
  | none => .error .cfg
  | some lines => cfgLoop lines (DEFAULTS.set (c% "cfg_file") (.str filename))

/-- a quotation mark of `_re_q`, `/repo/tecs/config.py:73` -/
def isQuote (c : Char) : Bool := c == '\'' || c == '"'

/-- `_re_q.match(s)`, `/repo/tecs/config.py:73,89-104`: a quotation mark at the beginning and another one later -/
def isQuoted : Str → Bool
  | [] => false
  | c :: cs => isQuote c && cs.any isQuote

/-- `_get_str`, `/repo/tecs/config.py:89-97`; `ev` is `eval` of a string literal -/
def getStr (ev : Str → Except PyErr Str) (s : Str) : Except PyErr Str :=
  if isQuoted s then ev ('r' :: s) else .ok s

/-- `_get_path`, `/repo/tecs/config.py:99-104` -/
def getPath (ev : Str → Except PyErr Str) (s : Str) : Except PyErr Str := getStr ev (replaceChar '\\' '/' s)

/-- `_get_bool`, `/repo/tecs/config.py:80-87`: `re.match('True', s, re.I)`; a value that is not a string is a TypeError -/
def getBool : CfgVal → Except PyErr Bool
  | .str s => .ok (decide (lower (s.take 4) = c% "true"))
  | _ => .error .type

/-! ## `gtb/config.py` -/

/-- `get_log_level`, `/repo/tecs/gtb/config.py:207-227` -/
def getLogLevel (s : Str) : Except PyErr Str :=
  if upper s ∈ [c% "DEBUG", c% "INFO", c% "WARNING", c% "ERROR", c% "CRITICAL"] then .ok (upper s) else .error .cfg

/-- the loop over the columns after the first, `/repo/tecs/gtb/config.py:255-261` -/
def composeRest (fd : Dict Str ColDef) : List Str → Str → Str → Except PyErr (Str × Str)
  | [], r, f => .ok (r, f)
  | i :: is, r, f =>
    match fd.get? i with
    | none => .error .cfg
    | some c => composeRest fd is (r ++ ' ' :: c.fmt) (f ++ (c% ",1X,") ++ c.fortran)

/-- `compose_rec_format(fields)`, `/repo/tecs/gtb/config.py:229-269`: the columns (`recFields`), `recFormat` and `recFortranFormat` -/
def composeRecFormat (fd : Dict Str ColDef) (fields : List Str) : Except PyErr (List Str × Str × Str) :=
  let tmp := if c% "all" ∈ fields then sortStr fd.keys else fields
  match tmp with
  | [] => .error .index
  | first :: rest =>
    match fd.get? first with
    | none => .error .cfg
    | some c =>
      match composeRest fd rest c.fmt c.fortran with
      | .error e => .error e
      | .ok (r, f) => .ok (tmp, r ++ ['\n'], '(' :: f ++ [')'])

/-- the configuration after `read_cfg`, `/repo/tecs/gtb/config.py:83-205` -/
structure Cfg where
  cfgFile : Str
  logLevel : Str
  recFields : List Str
  obsDir : List Str
  navDir : List Str
  outDir : Str
  datetimeFormat : Str
  outFileModeText : Bool
  recFormat : Str
  recFortranFormat : Str
  navPriority : Dict Char (List Str)
  navIgnoreAbsence : Bool
  logFile : Str
  /-- a positive number of microseconds, or `None` (negative values occur with a negative setting) -/
  samplingInterval : Option Int
  deriving DecidableEq

/-- the text of a setting as used in `/repo/tecs/gtb/config.py:132-205`; the settings used this way have text defaults, so nothing else occurs -/
def textOf (d : Dict Str CfgVal) (name : Str) : Str :=
  match d.get? name with
  | some (.str s) => s
  | _ => []

/-- `navPriorityXXX`, `/repo/tecs/gtb/config.py:177-190` -/
def priorityOf (d : Dict Str CfgVal) (name : Str) : List Str :=
  match d.get? name with
  | some (.str s) => if s.length = 0 then [] else splitOn ',' (removeSpaces s)
  | _ => []

/-- `float(self.samplingInterval)` and the timedelta, `/repo/tecs/gtb/config.py:196-205`; a non-text value is the number itself.  `timedelta` normalises seconds and
microseconds, so it is one number of microseconds (the range check of `timedelta` is not modelled). -/
def samplingOf (v : Option CfgVal) : Except PyErr (Option Int) :=
  let f : Except PyErr PyFloat := match v with
    | some (.str s) => pyFloat s
    | some (.num q) => .ok (.fin q)
    | _ => .error .type
  match f with
  | .error e => .error e
  | .ok si =>
    match sec2secMs si with
    | .error e => .error e
    | .ok (s, us) => if si.truthy then .ok (some (s * 1000000 + us)) else .ok none

/-- `os.path.join(d, f)`, `/repo/tecs/gtb/config.py:132-205` -/
def osJoin (d f : Str) : Str := if f.head? = some '/' then f else joinPath d f

/-- `Cfg.read_cfg(filename)`, `/repo/tecs/gtb/config.py:132-205`.  `ev` is `eval` on string literals, `dtLen` the length of the current date in a given date format. -/
def readCfg (ev : Str → Except PyErr Str) (dtLen : Str → Nat) (filename : Str) (content : Option (List Str)) : Except PyErr Cfg :=
  match readSettings filename content with
  | .error e => .error e
  | .ok d =>
  match getLogLevel (textOf d (c% "logLevel")) with
  | .error e => .error e
  | .ok logLevel =>
  match getStr ev (textOf d (c% "recFields")) with
  | .error e => .error e
  | .ok rf =>
  let fields := splitOn ',' (removeSpaces (lower rf))
  match getPath ev (textOf d (c% "outDir")) with
  | .error e => .error e
  | .ok outDir =>
  match getStr ev (textOf d (c% "datetimeFormat")) with
  | .error e => .error e
  | .ok dtf =>
  if lower (textOf d (c% "outFileMode")) ≠ c% "text" then .error .cfg
  else
  match composeRecFormat (formatDef (dtLen dtf)) fields with
  | .error e => .error e
  | .ok (recFields, recFormat, recFortran) =>
  match getBool ((d.get? (c% "navIgnoreAbsence")).getD .emptyList) with
  | .error e => .error e
  | .ok ignore =>
  match samplingOf (d.get? (c% "samplingInterval")) with
  | .error e => .error e
  | .ok sampling =>
  .ok { cfgFile := textOf d (c% "cfg_file"), logLevel := logLevel, recFields := recFields,
        obsDir := getDirList (textOf d (c% "obsDir")), navDir := getDirList (textOf d (c% "navDir")), outDir := outDir,
        datetimeFormat := dtf, outFileModeText := true, recFormat := recFormat, recFortranFormat := recFortran,
        navPriority := [('G', priorityOf d (c% "navPriorityGPS")), ('R', priorityOf d (c% "navPriorityGLO")),
                        ('S', priorityOf d (c% "navPriorityGEO")), ('C', []), ('E', [])],
        navIgnoreAbsence := ignore, logFile := osJoin outDir (textOf d (c% "logFile")), samplingInterval := sampling }

end Verif.Model
