import Verif.Model.Main
import Verif.Model.Obs2
import Verif.Model.Obs3
/-!
# `/repo/tecs/__main__.py`: the whole run, from the directories to the output files

The disk is what the program can see of it: the directory listings, the lines of the files after the treatment by `gzip` and `crx2rnx` (programs that
are not modelled), and which paths exist.  It does not change during the run (the outputs are kept apart from the inputs).  `none` as a result means: outside of the model, i.e. an
observed value, coordinate or interval that is `nan` or `inf`, or a RINEX 3 file on which the detection of the interval does not end within `fuel` turns.
Files are opened one after another in the program and all at once here; opening has no effect on anything else.
-/
namespace Verif.Model
open Verif.Py

/-- what can be read: `os.listdir` (`/repo/tecs/rinex/futils.py:314`), the lines of a file after decompression (`/repo/tecs/rinex/futils.py:111-250`), `os.path.exists`
(`/repo/tecs/rinex/futils.py:369`) -/
structure Disk where
  listing : Str → Except PyErr (List Str)
  lines : Fetch → Str → Except PyErr (List Str)
  present : Str → Bool

/-- the listings used by `find_files`, `/repo/tecs/rinex/futils.py:313-314` -/
def listDirs (D : Disk) : List Str → Except PyErr (List (Str × List Str))
  | [] => .ok []
  | d :: ds =>
    match D.listing d with
    | .error e => .error e
    | .ok l =>
      match listDirs D ds with
      | .error e => .error e
      | .ok r => .ok ((d, l) :: r)

/-! ## Opening observation files -/

/-- a finite number (the main loop of the model, `/repo/tecs/__main__.py:188-696`, knows no others) -/
def ratOf : PyFloat → Option Rat
  | .fin q => some q
  | _ => none

/-- `obs.xyz.value`, `/repo/tecs/__main__.py:248`, `413` -/
def posOf : Xyz → Option Pos
  | [.fin a, .fin b, .fin c] => some ⟨a, b, c⟩
  | _ => none

/-- `rec` of a RINEX 2 file, `/repo/tecs/__main__.py:287` -/
def recOf2 : ObsDict → Option ObsRec
  | [] => some []
  | (t, none, i, j) :: d => (recOf2 d).map fun r => (t, none, i, j) :: r
  | (t, some v, i, j) :: d => (ratOf v).bind fun q => (recOf2 d).map fun r => (t, some q, i, j) :: r

/-- `rec` of a RINEX 3 file, `/repo/tecs/__main__.py:287` -/
def recOf3 : ObsDict3 → Option ObsRec
  | [] => some []
  | (t, v, i, j) :: d => (ratOf v).bind fun q => (recOf3 d).map fun r => (t, some q, i, j) :: r

/-- an item of a RINEX 2 file, `/repo/tecs/__main__.py:287`, with `obs.properties['obs types']` -/
def itemOf2 (types : List Str) (y : Rec2 × St2) : Option ObsItem :=
  (recOf2 y.1.data).bind fun r => (posOf y.2.hdr.xyz).map fun p => ⟨some y.1.epoch, y.1.sat, r, p, fun _ => some types⟩

/-- an item of a RINEX 3 file, `/repo/tecs/__main__.py:287`, with `obs.sys_n_obs.value[system]` -/
def itemOf3 (y : Rec3 × Obj3) : Option ObsItem :=
  (recOf3 y.1.data).bind fun r => (posOf y.2.hdr.xyz).map fun p => ⟨y.1.epoch, y.1.sat, r, p, fun c => y.2.sys.get? [c]⟩

/-- all or nothing (how `/repo/tecs/__main__.py:284-294` is represented) -/
def allOf {α β : Type} (f : α → Option β) : List α → Option (List β)
  | [] => some []
  | a :: l => (f a).bind fun b => (allOf f l).map fun r => b :: r

/-- what the main loop needs of a header, `/repo/tecs/__main__.py:229-282`: `ver_type.value[2]` of a missing label is a TypeError -/
def obsIn (filename : Str) (h : HeaderVals) (items : List ObsItem) (stop : Except PyErr Unit) : Option (Except PyErr ObsIn) :=
  match h.verType with
  | none => some (.error .type)
  | some (_, _, sys) =>
    (posOf h.xyz).bind fun p => (h.interval.bind ratOf).map fun i =>
      .ok ⟨filename, getRinexDate filename, sys, h.tofo, p, i, items, stop⟩

/-- a RINEX 2 file as seen by `/repo/tecs/__main__.py:229-294` -/
def obsIn2 (filename : Str) (o : Obs2) : Option (Except PyErr ObsIn) :=
  (allOf (itemOf2 o.cfg.types) o.records.yields).bind fun items => obsIn filename o.st.hdr items (o.records.stop.map fun _ => ())

/-- a RINEX 3 file as seen by `/repo/tecs/__main__.py:229-294` -/
def obsIn3 (filename : Str) (o : Obs3) : Option (Except PyErr ObsIn) :=
  (allOf itemOf3 o.records.yields).bind fun items => obsIn filename o.obj.hdr items (o.records.stop.map fun _ => ())

/-- `f_obj.readline()`, `/repo/tecs/rinex/__init__.py:51`, `97` -/
def firstLine (ls : List Str) : Str := ls.headD []

/-- the lines handed to the reader, `/repo/tecs/rinex/__init__.py:49`, `/repo/tecs/rinex/futils.py:157-250` -/
def fetchObs (D : Disk) (filename : Str) : Except PyErr (List Str) :=
  match expandObs filename with
  | .error e => .error e
  | .ok .empty => .ok []
  | .ok f => D.lines f filename

/-- `obs_file`, `/repo/tecs/rinex/__init__.py:37-79`, and the header fields read by `/repo/tecs/__main__.py:229-282` -/
def obsFile (D : Disk) (fuel : Nat) (filename : Str) : Option (Except PyErr ObsIn) :=
  match fetchObs D filename with
  | .error e => some (.error e)
  | .ok ls =>
    match obsVersion (firstLine ls) with
    | .error e => some (.error e)
    | .ok v =>
      if v < 300 then
        match openObs2 v ls with
        | .error e => some (.error e)
        | .ok o => obsIn2 filename o
      else
        match openObs3 v fuel ls with
        | none => none
        | some (.error e) => some (.error e)
        | some (.ok o) => obsIn3 filename o

/-! ## Coordinate files -/

/-- `xyz_data`, `/repo/tecs/__main__.py:261-267`, `/repo/tecs/rinex/futils.py:369-375`; `some'` = there is a coordinate file in the observation directories -/
def xyzData (D : Disk) (some' : Bool) (filename : Str) : Option (Except PyErr (Dict DateTime Pos)) :=
  if some' = false then some (.ok [])
  else
    match xyzName filename with
    | none => some (.ok [])
    | some n =>
      if D.present n = false then some (.ok [])
      else
        match D.lines .text n with
        | .error e => some (.error e)
        | .ok ls =>
          match loadXyz ls [] with
          | .error e => some (.error e)
          | .ok d => (allOf (fun p : DateTime × List PyFloat => (posOf p.2).map fun q => (p.1, q)) d).map .ok

/-! ## Navigation files -/

/-- `expand_nav`, `/repo/tecs/rinex/futils.py:119-154` -/
def fetchNav (D : Disk) (filename : Str) : Except PyErr (List Str) :=
  if reZ.accepts filename then D.lines .gunzip filename else D.lines .text filename

/-- `nav_file`, `/repo/tecs/rinex/__init__.py:82-121` -/
def navFileOf (D : Disk) (filename : Str) : Except PyErr NavTable :=
  match fetchNav D filename with
  | .error e => .error e
  | .ok ls =>
    match navVersion (firstLine ls) with
    | .error e => .error e
    | .ok v => loadNav (if v < 300 then navCfg2 v else navCfg3 v) (getRinexDate filename) ls

/-- the day as an epoch (only the date is used, `/repo/tecs/rinex/nmutils.py:72-122`) -/
def Date.start (d : Date) : DateTime := ⟨d.year, d.month, d.day, 0, 0, 0, 0⟩

/-- `load_navigation_message(CFG.navDir, epoch, system, CFG.navPriority[system])`, `/repo/tecs/__main__.py:333-346`, `/repo/tecs/rinex/nmutils.py:138-180`:
the file and `nm.message[system]` -/
def loadFor (D : Disk) (cfg : Cfg) (date : Date) (system : Char) : Except PyErr (Str × Eph) :=
  match cfg.navPriority.get? system with
  | none => .error .key
  | some priority =>
    match listDirs D cfg.navDir with
    | .error e => .error e
    | .ok dirs =>
      match chooseNavFile dirs date.start system priority with
      | .error e => .error e
      | .ok f =>
        match loadNavigationMessage (navFileOf D) dirs date.start system priority with
        | .error e => .error e
        | .ok m =>
          match m.get? system with
          | none => .error .nm
          | some eph => .ok (f, eph)

/-! ## The run -/

/-- the numerical functions, `/repo/tecs/__main__.py:192-199`, `249`, `440`, and the environment of the writer -/
structure Ext where
  lbh : Pos → Except PyErr Pos
  satPos : Char → List PyFloat → Rat → Except PyErr Pos
  elAz : Pos → Pos → Except PyErr (Rat × Rat)
  env : WEnv
  dtLen : Nat

/-- the parameters of the main loop, `/repo/tecs/__main__.py:159-206` -/
def prmOf (X : Ext) (D : Disk) (cfg : Cfg) : Prm := ⟨cfg, X.env, X.dtLen, X.lbh, X.satPos, X.elAz, loadFor D cfg⟩

/-- a file of the list, `/repo/tecs/__main__.py:214-267` -/
def fileIn (D : Disk) (fuel : Nat) (someXyz : Bool) (filename : Str) : Option FileIn :=
  (obsFile D fuel filename).bind fun o => (xyzData D someXyz filename).map fun x => ⟨o, x⟩

/-- `obs_files`, sorted, `/repo/tecs/__main__.py:169-170` -/
def obsFiles (D : Disk) (cfg : Cfg) : Except PyErr (List Str) :=
  match listDirs D cfg.obsDir with
  | .error e => .error e
  | .ok dirs => .ok (sortStr (findFiles dirs reObs))

/-- `bool(xyz_files)`, `/repo/tecs/__main__.py:183`, `263` -/
def someXyz (D : Disk) (cfg : Cfg) : Bool :=
  match listDirs D cfg.obsDir with
  | .error _ => false
  | .ok dirs => findFiles dirs reXyz ≠ []

/-- what a run leaves: the output files, the calls of the writer by file (not in the program), the exception that ends it -/
structure Outcome where
  fs : FS
  calls : List (List WOp)
  err : Option PyErr

/-- `main()`, `/repo/tecs/__main__.py:159-711`; without observation files `SystemExit(0)` -/
def program (X : Ext) (D : Disk) (cfg : Cfg) (fuel : Nat) (fs : FS) : Option Outcome :=
  match obsFiles D cfg with
  | .error e => some ⟨fs, [], some e⟩
  | .ok [] => some ⟨fs, [], some .exit⟩
  | .ok (f :: files) =>
    (allOf (fileIn D fuel (someXyz D cfg)) (f :: files)).map fun ins =>
      let r := mainLoop (prmOf X D cfg) ins Glob.empty fs
      ⟨r.2.1, r.2.2.1, r.2.2.2⟩

end Verif.Model
