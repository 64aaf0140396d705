import Verif.Spec.Output
/-!
# Specification: what a program finds that reads an output line word by word
-/
namespace Verif.Spec
open Verif.Py Verif.Model

/-- `ws` are the words found for the value `v` in a column: one word that `int()` reads as the value; one word that `float()` reads as a number that differs
from the value by at most half a unit of the last decimal, and not at all if the value has no more decimals than the column; the words of a text -/
def GivesBack : ColKind → FVal → List Str → Prop
  | .int _, v, ws => ∃ i w, v = .int i ∧ ws = [w] ∧ pyInt w = .ok i
  | .fix _ _ d, v, ws => ∃ q q' w, NumVal v q ∧ ws = [w] ∧ pyFloat w = .ok (.fin q') ∧ |q' - q| ≤ 1 / 2 / 10 ^ d ∧ ∀ m : Int, q = m / 10 ^ d → q' = q
  | .text, v, ws => ∃ s, v = .str s ∧ ws = splitWs s

/-- the words found for the column `name` -/
def ColumnWords (full : List FVal) (name : Str) (ws : List Str) : Prop :=
  ∃ (i : Nat) (kind : ColKind) (v : FVal), columns[i]? = some (name, kind) ∧ full[i]? = some v ∧ GivesBack kind v ws

/-- `line` is the output line of a record with the epoch `e`, and the dates in the output are single words -/
def DateIsWord (P : Prm) (e : DateTime) : Prop :=
  c% "datetime" ∈ P.cfg.recFields → splitWs (P.env.strft P.cfg.datetimeFormat e) = [P.env.strft P.cfg.datetimeFormat e]

/-- microseconds since midnight -/
def microOfDay (t : DateTime) : Nat := ((t.hour * 60 + t.minute) * 60 + t.second) * 1000000 + t.micro

end Verif.Spec
