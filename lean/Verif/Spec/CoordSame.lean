import Verif.Spec.Program
import Verif.Spec.Main
/-!
# Specification: coordinate files that differ in what no record needs
-/
namespace Verif.Spec
open Verif.Py Verif.Model

/-- the name of a coordinate file -/
def CoordName (n : Str) : Prop := ∃ base hat, ObsStem base hat ∧ n = base ++ c% ".xyz"

/-- `q` is the coordinate file of the observation file at `path` -/
def CoordFile (path q : Str) : Prop :=
  ∃ stem base suffix hat comp, path = stem ++ suffix ∧ (stem = base ∨ ∃ dir, dir.getLast? ≠ some '/' ∧ stem = dir ++ '/' :: base) ∧
    ObsStem base hat ∧ ObsName (base ++ suffix) hat comp ∧ q = stem ++ c% ".xyz"

open Classical in
/-- the same names, apart from coordinate files -/
def SameNames : Except PyErr (List Str) → Except PyErr (List Str) → Prop
  | .ok l, .ok l' => l.filter (fun n => ¬ CoordName n) = l'.filter fun n => ¬ CoordName n
  | .error e, .error e' => e = e'
  | _, _ => False

/-- the observation file at `path` has a record, of a supported system and the day of the file, at the epoch `e` -/
def ObservedAt (D : Disk) (fuel : Nat) (path : Str) (e : DateTime) : Prop :=
  ∃ o it c n, obsFile D fuel path = some (.ok o) ∧ it ∈ o.items ∧ Considered o it c n e

/-- the two disks differ in coordinate files only (these can also be missing on one of them), and for each observation file the coordinate file says the same about the epochs with
observations -/
structure CoordsRewritten (D D' : Disk) (fuel : Nat) (dirs paths : List Str) : Prop where
  listing : ∀ d, SameNames (D.listing d) (D'.listing d)
  others : ∀ k p, (∀ path ∈ paths, ¬ CoordFile path p) → D'.lines k p = D.lines k p
  coords : ∀ path ∈ paths, ∃ xl xl', CoordLines D dirs path xl ∧ CoordLines D' dirs path xl' ∧ ∀ e, ObservedAt D fuel path e → lastFor e xl = lastFor e xl'

end Verif.Spec
