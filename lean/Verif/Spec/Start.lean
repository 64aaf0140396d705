import Verif.Spec.Archive
import Verif.Spec.Bytes
import Verif.Spec.Run
import Verif.Spec.EndToEnd
import Verif.Spec.Config
/-!
# Specification: a run from the command line and the bytes on the disk
-/
namespace Verif.Spec
open Verif.Py Verif.Model

/-- the program is started (without `--version` and `--save-coordinates`) with the configuration file `dir/name`, or without one, which means `./tecs.cfg`; the file can be read, gives the
configuration `cfg` and does not set `cfg_file`; `R` is the disk as seen from `dir` -/
structure Launched (ev : Str → Except PyErr Str) (dtLen : Str → Nat) (W : World) (a : Args) (cfg : Cfg) (R : RawDisk) : Prop where
  version : a.version = false
  save : a.saveCoordinates = false
  file : ∃ dir name items lines, (a.rcfile = some (dir ++ '/' :: name) ∨ a.rcfile = none ∧ dir = c% "." ∧ name = c% "tecs.cfg") ∧ dir ≠ [] ∧ dir.getLast? ≠ some '/' ∧ '/' ∉ name ∧
    W.config (dir ++ '/' :: name) = some lines ∧ CfgWritten items lines ∧ (∀ v, ¬ LastValue items (c% "cfg_file") v) ∧
    readCfg ev dtLen (dir ++ '/' :: name) (some lines) = .ok cfg ∧ W.chdir dir = .ok (diskOf R)

/-- the observation file at `path`, in the form its name announces (plain, packed, Hatanaka, both) and with any line ends, has the lines `file` -/
def ObsHolds (R : RawDisk) (path : Str) (file : List Str) : Prop :=
  ∃ hat comp ls last, ObsPath path hat comp ∧ FormOf R hat comp path (fileBytes ls last) ∧ LinesOk ls last ∧ LinesRead ls last file

/-- the bytes at `path` are ASCII text with the lines `file` -/
def TextHolds (R : RawDisk) (path : Str) (file : List Str) : Prop :=
  ∃ ls last, R.bytes path = .ok (fileBytes ls last) ∧ (∀ x ∈ fileBytes ls last, x < 128) ∧ LinesOk ls last ∧ LinesRead ls last file

/-- the navigation file at `path`, packed or ASCII text, has the lines `file` -/
def NavHolds (R : RawDisk) (path : Str) (file : List Str) : Prop :=
  '\n' ∉ path ∧ (Packed path → ∃ ls last, R.gzip path = .ok (fileBytes ls last) ∧ LinesOk ls last ∧ LinesRead ls last file) ∧ (¬ Packed path → TextHolds R path file)

/-- the lines of the coordinate file of the observation file at `path` (none if there is no such file); compare `CoordLines` -/
def CoordHolds (R : RawDisk) (dirs : List Str) (path : Str) (xl : List XyzLine) : Prop :=
  (∀ l ∈ xl, l.Ok) ∧ ∃ stem base suffix hat comp, path = stem ++ suffix ∧ (stem = base ∨ ∃ dir, dir.getLast? ≠ some '/' ∧ stem = dir ++ '/' :: base) ∧
    ObsStem base hat ∧ ObsName (base ++ suffix) hat comp ∧
    (R.present (stem ++ c% ".xyz") = false ∧ xl = [] ∨
      R.present (stem ++ c% ".xyz") = true ∧ TextHolds R (stem ++ c% ".xyz") (xl.map XyzLine.render) ∧
        ∃ d ∈ dirs, ∃ l n, R.listing d = .ok l ∧ n ∈ l ∧ '/' ∉ n ∧ inDir d n = stem ++ c% ".xyz")

/-- an archive in bytes: well-formed observation files, coordinate files and navigation files of their days (compare `ObsArchive`, `NavArchive`) -/
structure ByteArchive (R : RawDisk) (cfg : Cfg) (paths : List Str) : Prop where
  locale : AsciiLocale R
  obs : ∀ p ∈ paths, (∃ file, ObsHolds R p file ∧ ObsText file) ∧ ∃ xl, CoordHolds R cfg.obsDir p xl
  dirs : ∀ d ∈ cfg.navDir, d ≠ [] ∧ d.getLast? ≠ some '/'
  listed : ∃ ls, Listings (diskOf R) cfg.navDir ls
  nav : ∀ path ∈ paths, ∀ c e f, NamedDay path e.date → Processed c → NavChoice (diskOf R) cfg c e f → NamedDay f e.date ∧ ∃ file w v ms, NavHolds R f file ∧ NavText file w v ms

/-- `o` is what is in a file with the lines `file` at `path` -/
inductive FileIs (path : Str) (file : List Str) (o : ObsIn) : Prop
  | ordered2 (v sys hs ts es) : File2 file v sys hs ts es → Opened2 path v sys hs ts es o → FileIs path file o
  | rinex2 (v sys hs ts items seen final i) : Any2 file v sys hs ts items seen final → IntervalIs seen i → OpenedAny2 path v sys hs ts items seen final i o → FileIs path file o
  | rinex3 (v sys es items a b) : File3 file v sys es items a b → Opened3 path v sys es items a b o → FileIs path file o
  | moved3 (v sys es items a b seen) : Moved3 file v sys es items a b seen → OpenedMoved3 path v sys es items a b o → FileIs path file o

/-- something is left out of a file that can be read: its times are not GPS times, or an item is lost to an arithmetic error -/
def Lost (P : Prm) (o : ObsIn) (xyz : Dict DateTime Pos) : Prop :=
  (∃ t s, (Processed o.system ∨ o.system = 'M') ∧ o.tofo = some (t, s) ∧ s ≠ c% "GPS") ∨
  ∃ t kept it c n e, Accepted o t ∧ Kept P.cfg o kept ∧ it ∈ kept ∧ Considered o it c n e ∧ ItemError P xyz it c n e

end Verif.Spec
