import Verif.Py.Format
import Verif.Spec.Label
import Mathlib.Algebra.Order.Ring.Rat
import Mathlib.Algebra.Order.Group.Unbundled.Abs
/-!
# Specification: the columns of an output record
-/
namespace Verif.Spec
open Verif.Py

/-- what a column holds and how wide it is: an integer; a fixed-point number (`signed`: a column is kept for the sign) with a width and a number of
decimals; a text -/
inductive ColKind where
  | int (width : Nat)
  | fix (signed : Bool) (width decimals : Nat)
  | text

/-- the columns, in the order of the values of a record -/
def columns : List (Str × ColKind) := [
  (c% "tsn", .int 11),
  (c% "hour", .fix false 14 11),
  (c% "datetime", .text),
  (c% "el", .fix true 10 5),
  (c% "az", .fix true 11 5),
  (c% "p1", .fix true 16 3),
  (c% "p1.lli", .int 1),
  (c% "p2", .fix true 16 3),
  (c% "p2.lli", .int 1),
  (c% "tec.p1p2", .fix true 10 3),
  (c% "l1", .fix true 16 3),
  (c% "l1.lli", .int 1),
  (c% "l2", .fix true 16 3),
  (c% "l2.lli", .int 1),
  (c% "tec.l1l2", .fix true 21 3),
  (c% "validity", .int 7),
  (c% "s1", .fix true 16 3),
  (c% "s1.lli", .int 1),
  (c% "s2", .fix true 16 3),
  (c% "s2.lli", .int 1),
  (c% "s5", .fix true 16 3),
  (c% "s5.lli", .int 1),
  (c% "c1", .fix true 16 3),
  (c% "c1.lli", .int 1),
  (c% "c2", .fix true 16 3),
  (c% "c2.lli", .int 1),
  (c% "tec.c1p2", .fix true 10 3),
  (c% "tec.l1c1", .fix true 21 3),
  (c% "l5", .fix true 16 3),
  (c% "l5.lli", .int 1),
  (c% "tec.l1l5", .fix true 21 3),
  (c% "c5", .fix true 16 3),
  (c% "c5.lli", .int 1),
  (c% "tec.c1c5", .fix true 10 3),
  (c% "tec.l2l5", .fix true 21 3),
  (c% "tec.c1c2", .fix true 10 3),
  (c% "tec.c2c5", .fix true 10 3),
  (c% "sat.x", .fix true 23 12),
  (c% "sat.y", .fix true 23 12),
  (c% "sat.z", .fix true 23 12),
  (c% "site.x", .fix true 23 12),
  (c% "site.y", .fix true 23 12),
  (c% "site.z", .fix true 23 12),
  (c% "site.l", .fix true 17 12),
  (c% "site.b", .fix true 16 12),
  (c% "site.h", .fix true 18 12),
  (c% "tec.l2l6", .fix true 21 3),
  (c% "tec.l2l7", .fix true 21 3),
  (c% "tec.l6l7", .fix true 21 3),
  (c% "tec.c2c6", .fix true 10 3),
  (c% "tec.c2c7", .fix true 10 3),
  (c% "tec.c6c7", .fix true 10 3),
  (c% "tec.l2c2", .fix true 21 3),
  (c% "tec.l8c8", .fix true 21 3)]

/-- the values a column accepts: an integer column integers, a number column numbers (not only finite ones), the date a text -/
def ColTakes : ColKind → FVal → Prop
  | .int _, v => ∃ i, v = .int i
  | .fix _ _ _, v => ∀ s, v ≠ .str s
  | .text, v => ∃ s, v = .str s

/-- `n` is `10^d·q` rounded to an integer, ties to even -/
def RoundsTo (q : Rat) (d : Nat) (n : Nat) : Prop :=
  (n : Rat) - 1 / 2 ≤ q * 10 ^ d ∧ q * 10 ^ d ≤ n + 1 / 2 ∧
    ((q * 10 ^ d = n - 1 / 2 ∨ q * 10 ^ d = n + 1 / 2) → n % 2 = 0)

/-- the value of a number -/
def NumVal (v : FVal) (q : Rat) : Prop := v = .flt (.fin q) ∨ ∃ i : Int, v = .int i ∧ q = i

/-- the text of a value in a column -/
def ColText : ColKind → FVal → Str → Prop
  | .int w, v, s => ∃ i : Int, v = .int i ∧ s = padLeft w ((if i < 0 then ['-'] else []) ++ natStr i.natAbs)
  | .fix sg w d, v, s => ∃ (q : Rat) (n : Nat), NumVal v q ∧ RoundsTo |q| d n ∧
      s = padLeft w ((if q < 0 then ['-'] else if sg then [' '] else []) ++ natStr (n / 10 ^ d) ++ '.' :: zfill d (natStr (n % 10 ^ d)))
  | .text, v, s => v = .str s

/-- the value is of the right kind for the column -/
def ColFits : ColKind → FVal → Prop
  | .int _, v => ∃ i : Int, v = .int i
  | .fix _ _ _, v => ∃ q, NumVal v q
  | .text, v => ∃ s, v = .str s

/-- a record: one value of the right kind for every column -/
def IsRecord (vals : List FVal) : Prop :=
  vals.length = columns.length ∧ ∀ (i : Nat) (nk : Str × ColKind) (v : FVal), columns[i]? = some nk → vals[i]? = some v → ColFits nk.2 v

/-- the text `s` of the value of the record `vals` in the column called `name` -/
def IsColumnText (vals : List FVal) (name s : Str) : Prop :=
  ∃ (i : Nat) (kind : ColKind) (v : FVal), columns[i]? = some (name, kind) ∧ vals[i]? = some v ∧ ColText kind v s

/-- an item of a Fortran format -/
inductive FItem where
  | I (w : Nat)
  | F (w d : Nat)
  | A (w : Nat)
  deriving DecidableEq

def FItem.text : FItem → Str
  | .I w => 'I' :: natStr w
  | .F w d => 'F' :: natStr w ++ '.' :: natStr d
  | .A w => 'A' :: natStr w

def FItem.width : FItem → Nat
  | .I w => w
  | .F w _ => w
  | .A w => w

/-- the Fortran format `(item,1X,item,1X,...,item)` -/
def FortranFormat (items : List FItem) (s : Str) : Prop :=
  s = '(' :: List.intercalate (c% ",1X,") (items.map FItem.text) ++ [')']

/-- what a Fortran program reading a record with these items finds in each of them: the next `w` characters, then one character is skipped -/
def fortranFields : List FItem → Str → List Str
  | [], _ => []
  | i :: is, s => s.take i.width :: fortranFields is (s.drop (i.width + 1))

/-- the item describing a column; `dt` is the width of a date -/
def itemOf (dt : Nat) : ColKind → FItem
  | .int w => .I w
  | .fix _ w d => .F w d
  | .text => .A dt

end Verif.Spec
