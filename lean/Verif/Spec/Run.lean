import Verif.Model.Run
import Verif.Spec.Output
/-!
# Specification: errors of a run, `--save-coordinates`, the start of the program
-/
namespace Verif.Spec
open Verif.Py Verif.Model

/-! ## Errors -/

/-- the item cannot be used because of an arithmetic error: in the position of the satellite, or in its direction from the receiver -/
def ItemError (P : Prm) (xyz : Dict DateTime Pos) (it : ObsItem) (c : Char) (n : Int) (e : DateTime) : Prop :=
  ArithError P c n e ∨ ∃ x p er, SiteAt xyz it e x ∧ SatAt P c n e p ∧ P.elAz x p = .error er ∧ Arithmetic er

/-- something is wrong with an observation file: it cannot be read at all, its times are not GPS times, reading breaks off, or an item cannot be used -/
inductive FileError (P : Prm) (f : FileIn) : Prop
  | opening : f.opened = .error .rinex ∨ f.opened = .error .uncompress → FileError P f
  | timeSystem (o t s) : f.opened = .ok o → (Processed o.system ∨ o.system = 'M') → o.tofo = some (t, s) → s ≠ c% "GPS" → FileError P f
  | broken (o t) : f.opened = .ok o → Accepted o t → o.stop = .error .rinex → FileError P f
  | item (o t xyz kept it c n e) : f.opened = .ok o → Accepted o t → f.xyzData = .ok xyz → Kept P.cfg o kept → it ∈ kept → Considered o it c n e →
      ItemError P xyz it c n e → FileError P f

/-! ## `--save-coordinates` -/

/-- the line of an observation file: site; longitude; latitude -/
def CoordLine (X : Ext) (o : ObsIn) (line : Str) : Prop :=
  ∃ name l, LastComponent o.filename name ∧ X.lbh o.xyz = .ok l ∧
    line = name.take 4 ++ (c% "; ") ++ X.env.repr l.x ++ (c% "; ") ++ X.env.repr l.y ++ (c% "\n")

/-- a file that is left out with an error -/
def Faulty (f : Except PyErr ObsIn) : Prop :=
  f = .error .rinex ∨ f = .error .uncompress ∨
    ∃ o t s, f = .ok o ∧ (Processed o.system ∨ o.system = 'M') ∧ o.tofo = some (t, s) ∧ s ≠ c% "GPS"

/-- a file that is left out without error -/
def OtherSystem (f : Except PyErr ObsIn) : Prop := ∃ o, f = .ok o ∧ ¬ Processed o.system ∧ o.system ≠ 'M'

/-- the lines written for the files, in order: one for every file accepted -/
inductive SavedLines (X : Ext) : List (Except PyErr ObsIn) → List Str → Prop
  | nil : SavedLines X [] []
  | out (f files lines) : (Faulty f ∨ OtherSystem f) → SavedLines X files lines → SavedLines X (f :: files) lines
  | line (o t line files lines) : Accepted o t → CoordLine X o line → SavedLines X files lines → SavedLines X (.ok o :: files) (line :: lines)

end Verif.Spec
