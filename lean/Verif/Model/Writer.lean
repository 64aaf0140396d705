import Verif.Model.Config
import Verif.Model.NmUtils
/-!
# `/repo/tecs/dio/text.py`: the writer of text files

The file system is a dictionary from paths to contents.  A file object is the path it writes to (buffering, permissions and the creation of directories are
not modelled).  The current time, `str` of a float and `strftime` with the configured format are parameters.
-/
namespace Verif.Model
open Verif.Py

/-- the files written so far, by path (the `open(..., 'wt')` of `/repo/tecs/dio/text.py:120-124`) -/
abbrev FS := Dict Str Str

/-- `f.write(text)` on the file at `path`, `/repo/tecs/dio/text.py:158,201` -/
def writeTo (fs : FS) (path text : Str) : FS := fs.set path ((fs.get? path).getD [] ++ text)

/-- coordinates, the triples of `/repo/tecs/dio/text.py:245-267` -/
structure Pos where
  x : Rat
  y : Rat
  z : Rat
  deriving DecidableEq

/-- what is not modelled of `/repo/tecs/dio/text.py:87-201`: `datetime.now().strftime(...)` when a file is opened (it may depend on the satellite and the epoch), `'%s' % x` of a float,
`epoch.strftime(fmt)` -/
structure WEnv where
  now : Str → DateTime → Str
  repr : Rat → Str
  strft : Str → DateTime → Str

/-- an entry of `self.satellite`, `/repo/tecs/dio/text.py:76-82` -/
structure SatInfo where
  satDef : Option Str
  nav : Option Str
  fout : Option Str
  fobj : Option Str
  deriving DecidableEq

/-- `Text.__init__`, `/repo/tecs/dio/text.py:60-85`: the attributes that change -/
structure Writer where
  xyz : Dict DateTime Pos
  lbh : Dict DateTime Pos
  satellite : Dict Str SatInfo
  path : Option Str
  deriving DecidableEq

/-- `Text(cfg, obs)`, `/repo/tecs/dio/text.py:60-85` -/
def Writer.new : Writer := ⟨[], [], [], none⟩

/-- `self.sampling_interval` as printed, `/repo/tecs/dio/text.py:68-74` -/
def samplingText (env : WEnv) (cfg : Cfg) (interval : Rat) : Str :=
  let s : Rat := match cfg.samplingInterval with
    | none => 0
    | some us => (us : Rat) / 1000000
  if interval > s then env.repr s ++ c% " (not used)." else env.repr s

/-- the last element of a sorted list: `sorted(d)[-1]` (a maximal key), `/repo/tecs/dio/text.py:299-311` -/
def latestKey : List DateTime → Option DateTime
  | [] => none
  | t :: ts =>
    match latestKey ts with
    | none => some t
    | some u => if u.toMicros ≤ t.toMicros then some t else some u

/-- `xyz_latest`, `lbh_latest`, `/repo/tecs/dio/text.py:299-311`: IndexError on an empty dictionary -/
def latest (d : Dict DateTime Pos) : Except PyErr Pos :=
  match latestKey d.keys with
  | none => .error .index
  | some t =>
    match d.get? t with
    | none => .error .key
    | some p => .ok p

/-- `update_xyz`, `update_lbh`, `/repo/tecs/dio/text.py:245-267` -/
def Writer.updateXyz (w : Writer) (epoch : DateTime) (p : Pos) : Writer := { w with xyz := w.xyz.set epoch p }
/-- `update_lbh`, `/repo/tecs/dio/text.py:257-267` -/
def Writer.updateLbh (w : Writer) (epoch : DateTime) (p : Pos) : Writer := { w with lbh := w.lbh.set epoch p }

/-- `update_satellite(sat, sat_def=..., nav=...)`, `/repo/tecs/dio/text.py:225-243` -/
def Writer.addSatellite (w : Writer) (sat satDef : Str) (nav : Option Str) : Writer :=
  let i := (w.satellite.get? sat).getD ⟨none, none, none, none⟩
  { w with satellite := w.satellite.set sat { i with satDef := some satDef, nav := nav } }

/-- `update_satellite(sat, fout=f); update_satellite(sat, fobj=...)`, `/repo/tecs/dio/text.py:123-124` -/
def Writer.setFile (w : Writer) (sat f : Str) : Writer :=
  let i := (w.satellite.get? sat).getD ⟨none, none, none, none⟩
  { w with satellite := w.satellite.set sat { i with fout := some f, fobj := some f } }

/-- `marker`, `/repo/tecs/dio/text.py:102` -/
def markerOf (filename : Str) : Str := (basename filename).take 4

/-- `path`, `/repo/tecs/dio/text.py:109` -/
def outDirOf (outDir filename : Str) (epoch : DateTime) : Str :=
  osJoin (osJoin (osJoin outDir (strfY epoch)) (strfJ epoch)) (markerOf filename)

/-- `f_out`, `/repo/tecs/dio/text.py:116-117` -/
def outName (path filename sat : Str) (epoch : DateTime) : Str :=
  osJoin path (markerOf filename ++ '_' :: sat ++ '_' :: strfJ epoch ++ '_' :: (strfY epoch).drop 2 ++ c% ".dat")

/-- `'%s' % None` is `None`, for `/repo/tecs/dio/text.py:126-156` -/
def optText : Option Str → Str
  | none => c% "None"
  | some s => s

/-- `str` of a tuple of names, `/repo/tecs/dio/text.py:134` (`repr` of a text without apostrophes, backslashes and unprintable characters; column names have none) -/
def tupleStr (names : List Str) : Str :=
  '(' :: List.intercalate (c% ", ") (names.map fun n => '\'' :: (n ++ ['\''])) ++ (if names.length = 1 then [','] else []) ++ [')']

/-- `re.sub(r"\(|\)|u'|'", '', s)`, `/repo/tecs/dio/text.py:134`: the apostrophe after a removed `u` is removed in the next step -/
def dropMarks : Str → Str
  | [] => []
  | c :: s =>
    if c = '(' ∨ c = ')' ∨ c = '\'' ∨ (c = 'u' ∧ s.head? = some '\'') then dropMarks s else c :: dropMarks s

/-- the comment at the beginning of a file, `/repo/tecs/dio/text.py:126-156` (`cfg.recFields` is a tuple, `/repo/tecs/gtb/config.py:153`, `281`) -/
def comment (env : WEnv) (cfg : Cfg) (filename : Str) (interval : Rat) (sat : Str) (epoch : DateTime) (info : SatInfo) (xyz lbh : Pos) : Str :=
  (c% "# Created on ") ++ env.now sat epoch ++ '\n' ::
  (c% "# Sources: ") ++ filename ++ (c% ", ") ++ (match info.nav with | some [] => c% "None" | some s => s | none => c% "None") ++ '\n' ::
  (c% "# Satellite: ") ++ optText info.satDef ++ '\n' ::
  (c% "# Interval: ") ++ env.repr interval ++ '\n' ::
  (c% "# Sampling interval: ") ++ samplingText env cfg interval ++ '\n' ::
  (c% "# Site: ") ++ markerOf filename ++ '\n' ::
  (c% "# Position (L, B, H): ") ++ env.repr lbh.x ++ (c% ", ") ++ env.repr lbh.y ++ (c% ", ") ++ env.repr lbh.z ++ '\n' ::
  (c% "# Position (X, Y, Z): ") ++ env.repr xyz.x ++ (c% ", ") ++ env.repr xyz.y ++ (c% ", ") ++ env.repr xyz.z ++ '\n' ::
  (c% "# datetime format: ") ++ cfg.datetimeFormat ++ '\n' ::
  (c% "# Columns: ") ++ dropMarks (tupleStr cfg.recFields) ++ '\n' ::
  (c% "# ") ++ cfg.recFortranFormat ++ ['\n']

/-- `tsn`, `/repo/tecs/dio/text.py:175-187` (exact division) -/
def tsnOf (epoch : DateTime) (interval : Rat) : Except PyErr Int :=
  if interval = 0 then .error .zeroDiv
  else
    let tsn : Rat := ((epoch.hour * 3600 + epoch.minute * 60 + epoch.second : Nat) + (epoch.micro : Rat) / 1000000) / interval
    let frac := tsn - (truncRat tsn : Rat)
    if frac ≠ 0 then
      if frac > 1 / 2 then .ok tsn.ceil else .ok tsn.floor
    else .ok (truncRat tsn)

/-- `hour`, `/repo/tecs/dio/text.py:189-192` -/
def hourOf (epoch : DateTime) : Rat :=
  (((epoch.micro : Rat) / 1000000 + epoch.second) / 60 + epoch.minute) / 60 + epoch.hour

/-- `vals`, `/repo/tecs/dio/text.py:163-167`: `None` becomes `0` -/
def zeroNones (vals : List (Option FVal)) : List FVal := vals.map fun v => v.getD (.int 0)

/-- the formatted record, `/repo/tecs/dio/text.py:168-199`; ValueError is caught and gives `None` -/
def recordText (env : WEnv) (cfg : Cfg) (interval : Rat) (epoch : DateTime) (vals : List (Option FVal)) : Except PyErr (Option Str) :=
  match tsnOf epoch interval with
  | .error e => .error e
  | .ok tsn =>
    match strFormat cfg.recFormat (.int tsn :: .flt (.fin (hourOf epoch)) :: .str (env.strft cfg.datetimeFormat epoch) :: zeroNones vals) with
    | .ok s => .ok (some s)
    | .error .value => .ok none
    | .error e => .error e

/-- the state after a call of a method of `/repo/tecs/dio/text.py:87-267`, and the exception if one was raised -/
structure WOut where
  w : Writer
  fs : FS
  err : Option PyErr

/-- opening the file and writing the comment, `/repo/tecs/dio/text.py:119-158` -/
def openOut (env : WEnv) (cfg : Cfg) (filename : Str) (interval : Rat) (sat : Str) (epoch : DateTime) (fOut : Str) (w : Writer) (fs : FS) : WOut :=
  let fs := fs.set fOut []
  let w := w.setFile sat fOut
  match latest w.xyz with
  | .error e => ⟨w, fs, some e⟩
  | .ok xyz =>
    match latest w.lbh with
    | .error e => ⟨w, fs, some e⟩
    | .ok lbh =>
      let info := (w.satellite.get? sat).getD ⟨none, none, none, none⟩
      ⟨w, writeTo fs fOut (comment env cfg filename interval sat epoch info xyz lbh), none⟩

/-- writing the record, `/repo/tecs/dio/text.py:160-201`; `write(None)` is a TypeError -/
def writeRecord (env : WEnv) (cfg : Cfg) (interval : Rat) (sat : Str) (epoch : DateTime) (vals : List (Option FVal)) (w : Writer) (fs : FS) : WOut :=
  match recordText env cfg interval epoch vals with
  | .error e => ⟨w, fs, some e⟩
  | .ok none => ⟨w, fs, some .type⟩
  | .ok (some s) =>
    match w.satellite.get? sat with
    | none => ⟨w, fs, some .key⟩
    | some i =>
      match i.fobj with
      | none => ⟨w, fs, some .attribute⟩
      | some f => ⟨w, writeTo fs f s, none⟩

/-- `write_data(sat, chunk)`, `/repo/tecs/dio/text.py:87-201`; the chunk is the epoch and the values -/
def writeData (env : WEnv) (cfg : Cfg) (filename : Str) (interval : Rat) (sat : Str) (epoch : DateTime) (vals : List (Option FVal))
    (w : Writer) (fs : FS) : WOut :=
  let path := w.path.getD (outDirOf cfg.outDir filename epoch)
  let w := { w with path := some path }
  let fOut := outName path filename sat epoch
  match w.satellite.get? sat with
  | none => ⟨w, fs, some .key⟩
  | some i =>
    match i.fobj with
    | some _ => writeRecord env cfg interval sat epoch vals w fs
    | none =>
      let o := openOut env cfg filename interval sat epoch fOut w fs
      match o.err with
      | some e => ⟨o.w, o.fs, some e⟩
      | none => writeRecord env cfg interval sat epoch vals o.w o.fs

/-- `end_up()`, `/repo/tecs/dio/text.py:203-223`: the writer afterwards and the files on which `close` is called, in order -/
def Writer.endUp (w : Writer) : Writer × List Str := ({ w with satellite := [] }, w.satellite.filterMap fun s => s.2.fobj)

/-- the file objects held by the writer (`fobj` in `self.satellite`, `/repo/tecs/dio/text.py:76-82`, `119-124`) -/
def Writer.openFiles (w : Writer) : List Str := w.satellite.filterMap fun s => s.2.fobj

/-! ## sequences of calls (what the main loop does with the writer) -/

/-- a call of the writer: `/repo/tecs/__main__.py:272-273` and `420-422` (positions), `689-693` (satellite), `696` (record) -/
inductive WOp where
  | satellite (sat satDef : Str) (nav : Option Str)
  | position (epoch : DateTime) (p : Pos)
  | geodetic (epoch : DateTime) (p : Pos)
  | write (sat : Str) (epoch : DateTime) (vals : List (Option FVal))

/-- one call: the methods of `/repo/tecs/dio/text.py:87-267` -/
def applyOp (env : WEnv) (cfg : Cfg) (filename : Str) (interval : Rat) (op : WOp) (w : Writer) (fs : FS) : WOut :=
  match op with
  | .satellite s d n => ⟨w.addSatellite s d n, fs, none⟩
  | .position t p => ⟨w.updateXyz t p, fs, none⟩
  | .geodetic t p => ⟨w.updateLbh t p, fs, none⟩
  | .write s e v => writeData env cfg filename interval s e v w fs

/-- calls one after the other, up to the first exception: the calls made by `/repo/tecs/__main__.py:272-696` -/
def runOps (env : WEnv) (cfg : Cfg) (filename : Str) (interval : Rat) : List WOp → Writer → FS → WOut
  | [], w, fs => ⟨w, fs, none⟩
  | op :: ops, w, fs =>
    let o := applyOp env cfg filename interval op w fs
    match o.err with
    | some e => ⟨o.w, o.fs, some e⟩
    | none => runOps env cfg filename interval ops o.w o.fs

end Verif.Model
