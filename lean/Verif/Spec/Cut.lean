import Verif.Spec.Rinex2
/-! # Values of a record whose last line was cut off -/
namespace Verif.Spec
open Verif.Py

/-- The values read (`r`) for a record of which the last line was cut off, against the values written (`w`): the same types; up to some value all are right; that value may
be anything (its text was cut in the middle), and those behind it are missing. -/
def CutShort {α : Type} (missing : α) (w r : List (Str × α)) : Prop :=
  r.map (·.1) = w.map (·.1) ∧ ∃ k, r.take k = w.take k ∧ ∀ x ∈ r.drop (k + 1), x.2 = missing

end Verif.Spec
