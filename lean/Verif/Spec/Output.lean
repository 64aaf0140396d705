import Verif.Spec.Program
/-!
# Specification: the output files of a run
-/
namespace Verif.Spec
open Verif.Py Verif.Model

/-- the line of a record: the configured columns, separated by blanks -/
def RecordLine (P : Prm) (interval : Rat) (e : DateTime) (vals : List (Option FVal)) (line : Str) : Prop :=
  ∃ slot full texts, IsSlot (secOfDay e / interval) slot ∧ FullRecord slot (secOfDay e / 3600) (P.env.strft P.cfg.datetimeFormat e) vals full ∧
    List.Forall₂ (IsColumnText full) P.cfg.recFields texts ∧ line = List.intercalate [' '] texts ++ ['\n']

/-- the output file of the satellite `sat` with the records `(sat, e, v) :: more` of an observation file: the comment and the lines of the records.  The
position in the comment is the one of the first record if the epochs of the file are in order. -/
structure OutputIs (P : Prm) (o : ObsIn) (site sat : Str) (e : DateTime) (v : List (Option FVal)) (more : List (Str × DateTime × List (Option FVal)))
    (satDef : Str) (nav : Option Str) (xyz lbh : Pos) (lines : List Str) (text : Str) : Prop where
  satellite : SatDefIs P sat e satDef
  source : NavSourceIs P sat e.date nav
  position : P.lbh xyz = .ok lbh
  first : ∀ t, o.tofo = some (t, c% "GPS") → InOrder o t →
    Cols3 v (c% "site.x") (c% "site.y") (c% "site.z") xyz ∧ Cols3 v (c% "site.l") (c% "site.b") (c% "site.h") lbh
  records : List.Forall₂ (fun w s => RecordLine P o.interval w.2.1 w.2.2 s) ((sat, e, v) :: more) lines
  text : text = headerText (P.env.now sat e) (o.filename ++ (c% ", ") ++ (if nav = none ∨ nav = some [] then c% "None" else nav.getD [])) satDef
    (P.env.repr o.interval) (samplingShown P o) site (posText P.env.repr lbh) (posText P.env.repr xyz) P.cfg.datetimeFormat
    (columnsText P.cfg.recFields) P.cfg.recFortranFormat ++ lines.flatten

/-- the configuration was read from a configuration file (`dtLen` is the length of the current date in the given format) -/
def Configured (X : Ext) (cfg : Cfg) : Prop :=
  ∃ ev dtLen filename content, readCfg ev dtLen filename content = .ok cfg ∧ X.dtLen = dtLen cfg.datetimeFormat

/-- the two observation files write the same output files: same first four characters of the name, same day -/
def SameOutput (p q : Str) : Prop :=
  ∃ m n d, LastComponent p m ∧ LastComponent q n ∧ m.take 4 = n.take 4 ∧ NamedDay p d ∧ NamedDay q d

/-- the output directory is not empty and written without a slash at the end -/
def OutDirOk (cfg : Cfg) : Prop := cfg.outDir ≠ [] ∧ cfg.outDir.getLast? ≠ some '/'

end Verif.Spec
