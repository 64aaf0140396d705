import Verif.Model.Writer
import Verif.Model.NmUtils
import Verif.Model.Label
import Verif.Model.Tec
import Mathlib.Algebra.Field.Rat
/-!
# `/repo/tecs/__main__.py`: the main loop

What the loop gets from elsewhere is a parameter: the opened observation files with the items their generators yield (a generator does not
depend on its consumer), the navigation file of a day and system (a pure function: the files do not change during the run, and the choice of the file depends
on the day only, `Verif.Props.load_by_date`), the numerical functions `xyz2lbh_deg`, `compute_sat_xyz` and `compute_el_az`, and the environment of the writer.
Observed values, coordinates and angles are rational numbers (no `nan`, `inf`).  Printing, logging and `--save-coordinates` are left out.
A dictionary keyed by `date()` and then by `time()` is a dictionary keyed by the epoch; other nested dictionaries of `sat_xyz` and `glo_freq` are
dictionaries keyed by tuples.
-/
namespace Verif.Model
open Verif.Py

/-- `rec`, `/repo/tecs/__main__.py:284`: type → (value, LLI, signal strength) -/
abbrev ObsRec := Dict Str (Option Rat × Int × Int)

/-- one item of `obs.read_records()`, `/repo/tecs/__main__.py:284-294`, with what the loop reads from `obs` at that time: `obs.xyz.value`, and for a system the list of observation types
(`properties['obs types']` or `sys_n_obs.value[system]`, `none`: KeyError) -/
structure ObsItem where
  epoch : Option DateTime
  sat : Str
  data : ObsRec
  xyz : Pos
  types : Char → Option (List Str)

/-- an opened observation file, `/repo/tecs/__main__.py:219-282`; `stop` is how the generator ends -/
structure ObsIn where
  filename : Str
  fileDate : Option Date
  system : Char
  tofo : Option (DateTime × Str)
  xyz : Pos
  interval : Rat
  items : List ObsItem
  stop : Except PyErr Unit

/-- an observation file, `/repo/tecs/__main__.py:219-267`: `obs_file(o_file)` and `load_xyz_file(find_xyz_file(...))` (`{}` if there is none) -/
structure FileIn where
  opened : Except PyErr ObsIn
  xyzData : Except PyErr (Dict DateTime Pos)

/-- the ephemerides of a system, `nav_message[system]` of `/repo/tecs/__main__.py:326-348` -/
abbrev Eph := Dict Int (Dict TimeOfDay (List PyFloat))

/-- configuration and the functions called, `/repo/tecs/__main__.py:188-453` -/
structure Prm where
  cfg : Cfg
  env : WEnv
  dtLen : Nat
  /-- `xyz2lbh_deg` -/
  lbh : Pos → Except PyErr Pos
  /-- `get_sat_xyz[system](eph, dt)` -/
  satPos : Char → List PyFloat → Rat → Except PyErr Pos
  /-- `compute_el_az` -/
  elAz : Pos → Pos → Except PyErr (Rat × Rat)
  /-- `load_navigation_message`: file name and `nm.message[system]` -/
  load : Date → Char → Except PyErr (Str × Eph)

/-- the tables shared by all files, `/repo/tecs/__main__.py:188-206` -/
structure Glob where
  navFile : Dict Date (Dict Char (Option Str))
  satXyz : Dict (Char × Int × DateTime) (Option Pos)
  gloFreq : Dict (Int × DateTime) (Rat × Rat × Rat)

/-- the variables of the loop over a file (`/repo/tecs/__main__.py:214-706`) except `last_epoch`; `ops` (not in the program) lists the calls of the writer -/
structure St where
  g : Glob
  x : Pos
  l : Pos
  navMsg : NavTable
  w : Writer
  fs : FS
  ops : List WOp

/-- how a stage of `/repo/tecs/__main__.py:284-696` ends: go on, `continue`, exception -/
inductive Flow where
  | next
  | skip
  | stop (e : PyErr)
  deriving DecidableEq

/-- `ArithmeticError` and subclasses, caught in `/repo/tecs/__main__.py:350-399` and `424-453` -/
def arithmetic : List PyErr := [.zeroDiv, .overflow]

/-- `SUPPORTED_SYSTEMS`, `/repo/tecs/__main__.py:152-156` -/
def supported : List Char := ['G', 'R', 'S', 'C', 'E']

/-- `sat[0], int(sat[1:])`, `epoch.date()`, `/repo/tecs/__main__.py:303-304` -/
def decode (it : ObsItem) : Except PyErr (Char × Int × DateTime) :=
  match it.sat with
  | [] => .error .index
  | system :: r =>
    match pyInt r with
    | .error e => .error e
    | .ok number =>
      match it.epoch with
      | none => .error .attribute
      | some epoch => .ok (system, number, epoch)

/-- `sampling_interval`, `/repo/tecs/__main__.py:275-279` -/
def samplingFor (cfg : Cfg) (interval : Rat) : Option Int :=
  match cfg.samplingInterval with
  | none => none
  | some us => if us = 0 then none else if (us : Rat) / 1000000 > interval then some us else none

/-- decimation, `/repo/tecs/__main__.py:316-324`: `none` is `continue`, otherwise the new `last_epoch` -/
def decimate (sampling : Option Int) (last : Option DateTime) (epoch : DateTime) : Option (Option DateTime) :=
  match sampling with
  | none => some last
  | some dt =>
    match last with
    | none => some (some epoch)
    | some t => if t = epoch then some last else if epoch.sub t < dt then none else some (some epoch)

/-- `nav_file[date][system] = v`, `/repo/tecs/__main__.py:326-348` -/
def Glob.setNav (g : Glob) (date : Date) (system : Char) (v : Option Str) : Glob :=
  { g with navFile := g.navFile.set date (((g.navFile.get? date).getD []).set system v) }

/-- the navigation message of the file's day, `/repo/tecs/__main__.py:326-348` (`None` in `nav_message` is `[]`) -/
def navStage (P : Prm) (system : Char) (date : Date) (s : St) : St × Flow :=
  let s := if s.g.navFile.has date then s else { s with g := { s.g with navFile := s.g.navFile.set date [] } }
  if s.navMsg.has system then (s, .next)
  else
    let s := { s with navMsg := s.navMsg.set system [], g := s.g.setNav date system none }
    match P.load date system with
    | .error e => if e = .rinex ∨ e = .nm then (s, .skip) else (s, .stop e)
    | .ok (f, m) => ({ s with navMsg := s.navMsg.set system m, g := s.g.setNav date system (some f) }, .next)

/-- the position of the satellite, `/repo/tecs/__main__.py:350-399`.  A frequency number that is `nan` or `inf` is outside of the model (`exc`). -/
def posStage (P : Prm) (system : Char) (number : Int) (epoch : DateTime) (s : St) : St × Flow :=
  if s.g.satXyz.has (system, number, epoch) then (s, .next)
  else
    let s := { s with g := { s.g with satXyz := s.g.satXyz.set (system, number, epoch) none } }
    match selectMessage epoch system number s.navMsg true with
    | .error e => (s, .stop e)
    | .ok none => (s, .next)
    | .ok (some (dt, eph)) =>
      match P.satPos system eph dt with
      | .error e => if e ∈ arithmetic then (s, .skip) else (s, .stop e)
      | .ok p =>
        let s := { s with g := { s.g with satXyz := s.g.satXyz.set (system, number, epoch) (some p) } }
        if system = 'R' then
          match (eph[7]? : Option PyFloat) with
          | none => (s, .stop .index)
          | some (.fin k) =>
            if s.g.gloFreq.has (number, epoch) then (s, .next)
            else ({ s with g := { s.g with gloFreq := s.g.gloFreq.set (number, epoch) (gloF1 k, gloF2 k, k) } }, .next)
          | some _ => (s, .stop .exc)
        else (s, .next)

/-- a call of the writer, `/repo/tecs/__main__.py:272-273,420-422,689-696` -/
def call (P : Prm) (o : ObsIn) (op : WOp) (s : St) : St × Option PyErr :=
  let r := applyOp P.env P.cfg o.filename o.interval op s.w s.fs
  ({ s with w := r.w, fs := r.fs, ops := s.ops ++ [op] }, r.err)

/-- the position of the site, `/repo/tecs/__main__.py:401-422` (`update_xyz` and `update_lbh` do not raise) -/
def siteStage (P : Prm) (o : ObsIn) (xyz : Dict DateTime Pos) (epoch : DateTime) (hdr : Pos) (s : St) : St × Flow :=
  let set := fun (p : Pos) =>
    match P.lbh p with
    | .error e => ({ s with x := p }, Flow.stop e)
    | .ok l => ({ s with x := p, l := l }, Flow.next)
  let r := match xyz.get? epoch with
    | some p => set p
    | none => if s.x ≠ hdr then set hdr else (s, .next)
  match r.2 with
  | .next =>
    match latest r.1.w.xyz with
    | .error e => (r.1, .stop e)
    | .ok p =>
      if r.1.x ≠ p then ((call P o (.geodetic epoch r.1.l) (call P o (.position epoch r.1.x) r.1).1).1, .next)
      else (r.1, .next)
  | f => (r.1, f)

/-- elevation and azimuth, `/repo/tecs/__main__.py:424-453`: the satellite position used, elevation, azimuth; `none` is `continue` -/
def angles (P : Prm) (system : Char) (x : Pos) (cached : Option Pos) : Except PyErr (Option (Pos × Rat × Rat)) :=
  let check := fun (r : Pos × Rat × Rat) => if r.2.1 < 0 then none else some r
  match cached with
  | none =>
    if P.cfg.navIgnoreAbsence = false then .ok none
    else if system = 'R' then .ok none
    else .ok (check (⟨0, 0, 0⟩, 0, 0))
  | some p =>
    match P.elAz x p with
    | .error e => if e ∈ arithmetic then .ok none else .error e
    | .ok (el, az) => .ok (check (p, el, az))

/-- `sat_def`, `/repo/tecs/__main__.py:459-481` -/
def satDefOf (P : Prm) (system : Char) (number : Int) (sat : Str) (k : Rat) : Str :=
  if system = 'R' then sat ++ (c% " (k = ") ++ P.env.repr k ++ [')']
  else if system = 'S' then sat ++ (c% " (PRN ") ++ intStr (number + 100) ++ [')']
  else sat

/-- `ds[F][0]`, with `ds` of `/repo/tecs/__main__.py:505` -/
def dsVal (r : ObsRec) (F : Fam) : Option Rat :=
  match (parseRec r).get? F with
  | some (some v) => v.1
  | _ => none
/-- `ds[F][1]`, with `ds` of `/repo/tecs/__main__.py:505` -/
def dsLli (r : ObsRec) (F : Fam) : Option Int :=
  match (parseRec r).get? F with
  | some (some v) => some v.2.1
  | _ => none

/-- `if ds[F][1]: if ds[F][1] & 1: validity_types.append(name)`, `/repo/tecs/__main__.py:607-615` -/
def lliType (r : ObsRec) (F : Fam) (name : Str) : List Str :=
  match dsLli r F with
  | none => []
  | some i => if i ≠ 0 ∧ i % 2 = 1 then [name] else []

/-- `validity_types`, `/repo/tecs/__main__.py:601-615` -/
def validityTypes (r : ObsRec) : List Str :=
  r.keys.filter (fun t => match r.get? t with | some (some v, _) => decide (v ≠ 0) | _ => false) ++
    lliType r Lbl.L1 (c% "LLI1") ++ lliType r Lbl.L2 (c% "LLI2") ++ lliType r Lbl.L5 (c% "LLI5")

/-- a float or `None` as an element of `data_chunk`, `/repo/tecs/__main__.py:624-682` -/
def fv (v : Option Rat) : Option FVal := v.map fun q => .flt (.fin q)
/-- an integer or `None` as an element of `data_chunk`, `/repo/tecs/__main__.py:624-682` -/
def iv (v : Option Int) : Option FVal := v.map .int

/-- `data_chunk` without the epoch, `/repo/tecs/__main__.py:624-682`; `t` gives the TEC values -/
def chunk (r : ObsRec) (t : Str → Option Rat) (validity : Nat) (el az : Rat) (sp x l : Pos) : List (Option FVal) := [
  fv (some el), fv (some az),
  fv (dsVal r Lbl.P1), iv (dsLli r Lbl.P1), fv (dsVal r Lbl.P2), iv (dsLli r Lbl.P2), fv (t R.P1P2),
  fv (dsVal r Lbl.L1), iv (dsLli r Lbl.L1), fv (dsVal r Lbl.L2), iv (dsLli r Lbl.L2), fv (t R.L1L2),
  iv (some (validity : Int)),
  fv (dsVal r Lbl.S1), iv (dsLli r Lbl.S1), fv (dsVal r Lbl.S2), iv (dsLli r Lbl.S2), fv (dsVal r Lbl.S5), iv (dsLli r Lbl.S5),
  fv (dsVal r Lbl.C1), iv (dsLli r Lbl.C1), fv (dsVal r Lbl.C2), iv (dsLli r Lbl.C2),
  fv (t R.C1P2), fv (t R.L1C1),
  fv (dsVal r Lbl.L5), iv (dsLli r Lbl.L5), fv (t R.L1L5),
  fv (dsVal r Lbl.C5), iv (dsLli r Lbl.C5), fv (t R.C1C5),
  fv (t R.L2L5), fv (t R.C1C2), fv (t R.C2C5),
  fv (some sp.x), fv (some sp.y), fv (some sp.z),
  fv (some x.x), fv (some x.y), fv (some x.z),
  fv (some l.x), fv (some l.y), fv (some l.z),
  fv (t R.L2L6), fv (t R.L2L7), fv (t R.L6L7),
  fv (t R.C2C6), fv (t R.C2C7), fv (t R.C6C7), fv (t R.L2C2), fv (t R.L8C8)]

/-- TEC values and validity, `/repo/tecs/__main__.py:505-622`: the values of the record; `none` is `continue` -/
def values (P : Prm) (it : ObsItem) (system : Char) (glo : Rat × Rat) (el az : Rat) (sp x l : Pos) : Except PyErr (Option (List (Option FVal))) :=
  match freqsOf system glo with
  | none => .ok none
  | some f =>
    match tecAll (onDemandP P.cfg.outFileModeText P.cfg.recFields) (onDemandL P.cfg.outFileModeText P.cfg.recFields)
        (onDemandLC P.cfg.outFileModeText P.cfg.recFields) f (dsVal it.data) with
    | .error e => .error e
    | .ok t =>
      match it.types system with
      | none => .error .key
      | some ts =>
        match evalValidity ts (validityTypes it.data) with
        | .error .label => .ok none
        | .error e => .error e
        | .ok v => .ok (some (chunk it.data (fun n => (t.get? n).getD none) v el az sp x l))

/-- announcing the satellite if necessary and writing the record, `/repo/tecs/__main__.py:684-696` -/
def outStage (P : Prm) (o : ObsIn) (it : ObsItem) (system : Char) (date : Date) (epoch : DateTime) (satDef : Str) (vals : List (Option FVal)) (s : St) :
    St × Option PyErr :=
  if vals.length + 1 ≠ (formatDef P.dtLen).length - 2 then (s, some .assertion)
  else if s.w.satellite.has it.sat then call P o (.write it.sat epoch vals) s
  else
    match s.g.navFile.get? date with
    | none => (s, some .key)
    | some row =>
      match row.get? system with
      | none => (s, some .key)
      | some nav => call P o (.write it.sat epoch vals) (call P o (.satellite it.sat satDef nav) s).1

/-- the second half of the loop body, `/repo/tecs/__main__.py:424-696` -/
def emitStage (P : Prm) (o : ObsIn) (it : ObsItem) (system : Char) (number : Int) (date : Date) (epoch : DateTime) (s : St) : St × Option PyErr :=
  match s.g.satXyz.get? (system, number, epoch) with
  | none => (s, some .key)
  | some cached =>
    match angles P system s.x cached with
    | .error e => (s, some e)
    | .ok none => (s, none)
    | .ok (some (sp, el, az)) =>
      match (if system = 'R' then s.g.gloFreq.get? (number, epoch) else some (0, 0, 0)) with
      | none => (s, some .key)
      | some (f1, f2, k) =>
        match values P it system (f1, f2) el az sp s.x s.l with
        | .error e => (s, some e)
        | .ok none => (s, none)
        | .ok (some vals) => outStage P o it system date epoch (satDefOf P system number it.sat k) vals s

/-- the loop body after the filters, `/repo/tecs/__main__.py:326-696` -/
def process (P : Prm) (o : ObsIn) (xyz : Dict DateTime Pos) (it : ObsItem) (system : Char) (number : Int) (epoch : DateTime) (s : St) : St × Option PyErr :=
  let a := navStage P system epoch.date s
  match a.2 with
  | .skip => (a.1, none)
  | .stop e => (a.1, some e)
  | .next =>
    let b := posStage P system number epoch a.1
    match b.2 with
    | .skip => (b.1, none)
    | .stop e => (b.1, some e)
    | .next =>
      let c := siteStage P o xyz epoch it.xyz b.1
      match c.2 with
      | .skip => (c.1, none)
      | .stop e => (c.1, some e)
      | .next => emitStage P o it system number epoch.date epoch c.1

/-- the filters at the beginning of the loop body, `/repo/tecs/__main__.py:303-324`: `none` is `continue`, otherwise system, number, epoch and the new `last_epoch` -/
def admit (o : ObsIn) (sampling : Option Int) (last : Option DateTime) (it : ObsItem) : Except PyErr (Option (Char × Int × DateTime × Option DateTime)) :=
  match decode it with
  | .error e => .error e
  | .ok (system, number, epoch) =>
    if system ∉ supported then .ok none
    else if some epoch.date ≠ o.fileDate then .ok none
    else
      match decimate sampling last epoch with
      | none => .ok none
      | some last => .ok (some (system, number, epoch, last))

/-- the loop over the items, `/repo/tecs/__main__.py:284-696`; `last` is `last_epoch` -/
def runItems (P : Prm) (o : ObsIn) (sampling : Option Int) (xyz : Dict DateTime Pos) : List ObsItem → Option DateTime → St → St × Option PyErr
  | [], _, s => (s, none)
  | it :: its, last, s =>
    match admit o sampling last it with
    | .error e => (s, some e)
    | .ok none => runItems P o sampling xyz its last s
    | .ok (some (system, number, epoch, last)) =>
      let r := process P o xyz it system number epoch s
      match r.2 with
      | some e => (r.1, some e)
      | none => runItems P o sampling xyz its last r.1

/-- the result of a file, `/repo/tecs/__main__.py:214-706` -/
structure FileOut where
  g : Glob
  fs : FS
  ops : List WOp
  err : Option PyErr

/-- the state at the beginning of the loop over a file, `/repo/tecs/__main__.py:247-282` -/
def startState (P : Prm) (o : ObsIn) (t : DateTime) (l : Pos) (g : Glob) (fs : FS) : St :=
  (call P o (.geodetic t l) (call P o (.position t o.xyz) ⟨g, o.xyz, l, [], Writer.new, fs, []⟩).1).1

/-- the body of the loop over the files, `/repo/tecs/__main__.py:214-706` -/
def processFile (P : Prm) (f : FileIn) (g : Glob) (fs : FS) : FileOut :=
  match f.opened with
  | .error e => if e = .rinex ∨ e = .uncompress then ⟨g, fs, [], none⟩ else ⟨g, fs, [], some e⟩
  | .ok o =>
    if o.system ∉ supported ++ ['M'] then ⟨g, fs, [], none⟩
    else
      match o.tofo with
      | none => ⟨g, fs, [], some .type⟩
      | some (t, sys) =>
        if sys ≠ c% "GPS" then ⟨g, fs, [], none⟩
        else
          match P.lbh o.xyz with
          | .error e => ⟨g, fs, [], some e⟩
          | .ok l =>
            match f.xyzData with
            | .error e => ⟨g, fs, [], some e⟩
            | .ok xyz =>
              let r := runItems P o (samplingFor P.cfg o.interval) xyz o.items none (startState P o t l g fs)
              match r.2 with
              | some e => ⟨r.1.g, r.1.fs, r.1.ops, some e⟩
              | none =>
                match o.stop with
                | .ok _ => ⟨r.1.g, r.1.fs, r.1.ops, none⟩
                | .error e => ⟨r.1.g, r.1.fs, r.1.ops, if e = .rinex then none else some e⟩

/-- the loop over the files, `/repo/tecs/__main__.py:214-706`; `outs` (not in the program) are the calls of the writer, by file -/
def mainLoop (P : Prm) : List FileIn → Glob → FS → Glob × FS × List (List WOp) × Option PyErr
  | [], g, fs => (g, fs, [], none)
  | f :: files, g, fs =>
    let r := processFile P f g fs
    match r.err with
    | some e => (r.g, r.fs, [r.ops], some e)
    | none =>
      let m := mainLoop P files r.g r.fs
      (m.1, m.2.1, r.ops :: m.2.2.1, m.2.2.2)

/-- the files closed by `writer.end_up()` at the end of a file, `/repo/tecs/__main__.py:698` (beside the other effects, which are those of `processFile`); it is not reached
when the file is skipped or an exception ends the program -/
def closedIn (P : Prm) (f : FileIn) (g : Glob) (fs : FS) : List Str :=
  match f.opened with
  | .error _ => []
  | .ok o =>
    if o.system ∉ supported ++ ['M'] then []
    else
      match o.tofo with
      | none => []
      | some (t, sys) =>
        if sys ≠ c% "GPS" then []
        else
          match P.lbh o.xyz with
          | .error _ => []
          | .ok l =>
            match f.xyzData with
            | .error _ => []
            | .ok xyz =>
              let r := runItems P o (samplingFor P.cfg o.interval) xyz o.items none (startState P o t l g fs)
              match r.2 with
              | some _ => []
              | none =>
                match o.stop with
                | .ok _ => r.1.w.endUp.2
                | .error e => if e = .rinex then r.1.w.endUp.2 else []

/-- the files closed by the run, by observation file, `/repo/tecs/__main__.py:214-706` -/
def closedLoop (P : Prm) : List FileIn → Glob → FS → List (List Str)
  | [], _, _ => []
  | f :: files, g, fs =>
    let r := processFile P f g fs
    match r.err with
    | some _ => [closedIn P f g fs]
    | none => closedIn P f g fs :: closedLoop P files r.g r.fs

/-- the tables at the beginning, `/repo/tecs/__main__.py:188-206` -/
def Glob.empty : Glob := ⟨[], [], []⟩

end Verif.Model
