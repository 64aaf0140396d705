import Verif.Model.Program
import Verif.Model.Config
/-!
# `/repo/tecs/__main__.py`: command line, start, `--save-coordinates`, the number of errors

The log file and the creation of the output directory are left out, as is everything printed except the message on errors.
-/
namespace Verif.Model
open Verif.Py

/-! ## `logger_error_count` -/

/-- errors counted in the loop body, `/repo/tecs/__main__.py:326-445` (beside the other effects, which are those of `process`) -/
def errorsOf (P : Prm) (o : ObsIn) (xyz : Dict DateTime Pos) (it : ObsItem) (system : Char) (number : Int) (epoch : DateTime) (s : St) : Nat :=
  let a := navStage P system epoch.date s
  match a.2 with
  | .next =>
    let b := posStage P system number epoch a.1
    match b.2 with
    | .skip => 1
    | .next =>
      let c := siteStage P o xyz epoch it.xyz b.1
      match c.2 with
      | .next =>
        match c.1.g.satXyz.get? (system, number, epoch) with
        | some (some p) =>
          match P.elAz c.1.x p with
          | .error e => if e ∈ arithmetic then 1 else 0
          | .ok _ => 0
        | _ => 0
      | _ => 0
    | _ => 0
  | _ => 0

/-- errors counted in the loop over the items, `/repo/tecs/__main__.py:284-696` -/
def errorsItems (P : Prm) (o : ObsIn) (sampling : Option Int) (xyz : Dict DateTime Pos) : List ObsItem → Option DateTime → St → Nat
  | [], _, _ => 0
  | it :: its, last, s =>
    match admit o sampling last it with
    | .error _ => 0
    | .ok none => errorsItems P o sampling xyz its last s
    | .ok (some (system, number, epoch, last)) =>
      let r := process P o xyz it system number epoch s
      errorsOf P o xyz it system number epoch s +
        match r.2 with
        | some _ => 0
        | none => errorsItems P o sampling xyz its last r.1

/-- errors counted in a file, `/repo/tecs/__main__.py:214-696`: it cannot be opened (226), its time system (244), the generator ends with a `RinexError` (293), and
those of the items -/
def errorsFile (P : Prm) (f : FileIn) (g : Glob) (fs : FS) : Nat :=
  match f.opened with
  | .error e => if e = .rinex ∨ e = .uncompress then 1 else 0
  | .ok o =>
    if o.system ∉ supported ++ ['M'] then 0
    else
      match o.tofo with
      | none => 0
      | some (t, sys) =>
        if sys ≠ c% "GPS" then 1
        else
          match P.lbh o.xyz with
          | .error _ => 0
          | .ok l =>
            match f.xyzData with
            | .error _ => 0
            | .ok xyz =>
              let st := startState P o t l g fs
              errorsItems P o (samplingFor P.cfg o.interval) xyz o.items none st +
                match (runItems P o (samplingFor P.cfg o.interval) xyz o.items none st).2, o.stop with
                | none, .error e => if e = .rinex then 1 else 0
                | _, _ => 0

/-- `logger_error_count` at the end, `/repo/tecs/__main__.py:163`, `214-706` -/
def errorsLoop (P : Prm) : List FileIn → Glob → FS → Nat
  | [], _, _ => 0
  | f :: files, g, fs =>
    let r := processFile P f g fs
    errorsFile P f g fs +
      match r.err with
      | some _ => 0
      | none => errorsLoop P files r.g r.fs

/-! ## `--save-coordinates` -/

/-- `coordinates_filename`, `/repo/tecs/__main__.py:208` -/
def coordinatesFile : Str := c% "coordinates.txt"

/-- the line of a file, `/repo/tecs/__main__.py:253-257` -/
def coordinatesLine (env : WEnv) (o : ObsIn) (l : Pos) : Str :=
  (basename o.filename).take 4 ++ (c% "; ") ++ env.repr l.x ++ (c% "; ") ++ env.repr l.y ++ ['\n']

/-- the loop over the files with `--save-coordinates`, `/repo/tecs/__main__.py:214-259`: the text written, the errors counted, the exception -/
def saveLoop (X : Ext) : List (Except PyErr ObsIn) → Str × Nat × Option PyErr
  | [] => ([], 0, none)
  | .error e :: files =>
    if e = .rinex ∨ e = .uncompress then
      let r := saveLoop X files
      (r.1, r.2.1 + 1, r.2.2)
    else ([], 0, some e)
  | .ok o :: files =>
    if o.system ∉ supported ++ ['M'] then saveLoop X files
    else
      match o.tofo with
      | none => ([], 0, some .type)
      | some (_, sys) =>
        if sys ≠ c% "GPS" then
          let r := saveLoop X files
          (r.1, r.2.1 + 1, r.2.2)
        else
          match X.lbh o.xyz with
          | .error e => ([], 0, some e)
          | .ok l =>
            let r := saveLoop X files
            (coordinatesLine X.env o l ++ r.1, r.2.1, r.2.2)

/-! ## The whole program -/

/-- command line, `/repo/tecs/__main__.py:66-98` (`-y` and `-q` change nothing but what is printed) -/
structure Args where
  version : Bool
  rcfile : Option Str
  saveCoordinates : Bool

/-- what the program finds: the lines of a configuration file (`none`: it cannot be opened), and the disk as seen from a directory (`os.chdir`) -/
structure World where
  config : Str → Option (List Str)
  chdir : Str → Except PyErr Disk

/-- what a run leaves: output files, whether the message on errors is printed, exception -/
structure RunOut where
  fs : FS
  message : Bool
  err : Option PyErr

/-- `main()`, `/repo/tecs/__main__.py:159-706`, and the message of `run()`, `/repo/tecs/__main__.py:709-718` -/
def mainRun (X : Ext) (D : Disk) (cfg : Cfg) (save : Bool) (fuel : Nat) (fs : FS) : Option RunOut :=
  match obsFiles D cfg with
  | .error e => some ⟨fs, false, some e⟩
  | .ok [] => some ⟨fs, false, some .exit⟩
  | .ok (f :: files) =>
    if save then
      (allOf (obsFile D fuel) (f :: files)).map fun os =>
        let r := saveLoop X os
        ⟨fs.set coordinatesFile r.1, decide (r.2.2 = none ∧ r.2.1 ≠ 0), r.2.2⟩
    else
      (allOf (fileIn D fuel (someXyz D cfg)) (f :: files)).map fun ins =>
        let r := mainLoop (prmOf X D cfg) ins Glob.empty fs
        ⟨r.2.1, decide (r.2.2.2 = none ∧ errorsLoop (prmOf X D cfg) ins Glob.empty fs ≠ 0), r.2.2.2⟩

/-- the name of the configuration file, `/repo/tecs/__main__.py:106-109` (an empty name counts as none), `/repo/tecs/gtb/config.py:54` -/
def configName (a : Args) : Str :=
  match a.rcfile with
  | none => c% "./tecs.cfg"
  | some f => if f = [] then c% "./tecs.cfg" else f

/-- the program, `/repo/tecs/__main__.py:98-150`, `709-722`: `--version` ends with `SystemExit`; reading of the configuration; `os.chdir` to the directory of the configuration file
(`os.chdir('')` is a `FileNotFoundError`); `main()` -/
def tecsRun (ev : Str → Except PyErr Str) (dtLen : Str → Nat) (X : Ext) (W : World) (a : Args) (fuel : Nat) (fs : FS) : Option RunOut :=
  if a.version then some ⟨fs, false, some .exit⟩
  else
    match readCfg ev dtLen (configName a) (W.config (configName a)) with
    | .error e => some ⟨fs, false, some e⟩
    | .ok cfg =>
      if dirname cfg.cfgFile = [] then some ⟨fs, false, some .os⟩
      else
        match W.chdir (dirname cfg.cfgFile) with
        | .error e => some ⟨fs, false, some e⟩
        | .ok D => mainRun { X with dtLen := dtLen cfg.datetimeFormat } D cfg a.saveCoordinates fuel fs

end Verif.Model
