import Verif.Spec.Look
import Verif.Spec.Output
/-!
# Specification: the output files of a run against the sky
-/
namespace Verif.Spec
open Verif.Py Verif.Model

/-- the line of a record of the item `it` (satellite `n` of the system `c`, at the time `e`) against the sky: TEC, station, satellite -/
def LineBack (P : Prm) (xyz : Dict DateTime Pos) (it : ObsItem) (c : Char) (n : Int) (e : DateTime) (line : Str) : Prop :=
  (∃ k, FrequencyNumber P c n e k ∧ (|k| ≤ 100 → TecBack P it c k line)) ∧
  ∃ x, SiteAt xyz it e x ∧ StationBack P x line ∧
    ((∃ s, SatAt P c n e s ∧ LookBack P x s line ∧ OrbitBack P c n e line) ∨
     (P.cfg.navIgnoreAbsence = true ∧ c ≠ 'R' ∧ (∀ s, ¬ SatAt P c n e s) ∧ NoLook P line))

/-- the output file of a satellite: eleven comment lines and below them one line for each record, in the order of the records -/
def FileBack (P : Prm) (o : ObsIn) (xyz : Dict DateTime Pos) (kept : List ObsItem) (sat : Str) (records : List (Str × DateTime × List (Option FVal))) (text : Str) : Prop :=
  ∃ (comment lines : List Str), comment.length = 11 ∧ text = (comment.map fun l => (c% "# ") ++ l ++ ['\n']).flatten ++ lines.flatten ∧
    List.Forall₂ (fun w line => ∃ it ∈ kept, ∃ c n, it.sat = sat ∧ Considered o it c n w.2.1 ∧ LineBack P xyz it c n w.2.1 line) records lines

/-- the output files `fs` of a run against the observation file `o` called `name` (the time of its first observation is accepted, and no arithmetic error is hidden
by the ignored absence of navigation files): there is one for each satellite with records -/
def RunBack (P : Prm) (o : ObsIn) (xl : List XyzLine) (name : Str) (fs : FS) : Prop :=
  ∀ t, Accepted o t → (P.cfg.navIgnoreAbsence = false ∨ ∀ it ∈ o.items, ∀ c n e, Considered o it c n e → ¬ ArithError P c n e) →
    ∃ xyz kept ws, Positions xl xyz ∧ Kept P.cfg o kept ∧ RecordsOf P o xyz [] kept ws ∧
      ∀ sat e v more, ws.filter (fun w => w.1 == sat) = (sat, e, v) :: more →
        ∃ text, fs.get? (outputPath P.cfg.outDir (name.take 4) sat e) = some text ∧ FileBack P o xyz kept sat ((sat, e, v) :: more) text

end Verif.Spec
