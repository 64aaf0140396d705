import Verif.Spec.Rinex3
/-!
# Sampling interval of RINEX 3 files

`marks` are the epoch and event lines of a file in order: date (if readable) and flag.
-/
namespace Verif.Spec
open Verif.Py

/-- The times looked at, in order: those of the regular epochs (flags 0 and 1), then the one of the last event behind the last
regular epoch, if there is one. -/
def candidates (marks : List (Option DateTime × Int)) : List (Option DateTime) :=
  go none marks
where
  go (last : Option DateTime) : List (Option DateTime × Int) → List (Option DateTime)
  | [] => [last]
  | (t, f) :: ms => if f > 1 then go t ms else t :: go none ms

/-- the first later candidate that differs from the first one; no time if there is none -/
def otherThan (a : Option DateTime) (l : List (Option DateTime)) : Option DateTime := (l.find? (· ≠ a)).getD none

/-- date and flag of an item -/
def itemMark : Item3 → Option DateTime × Int
  | .obs e => (some e.time, (e.flag : Int))
  | .event e => (e.date.map (·.1), (e.flag : Int))

/-- the marks of a written body -/
def itemMarks (items : List Item3) : List (Option DateTime × Int) := items.map itemMark

end Verif.Spec
