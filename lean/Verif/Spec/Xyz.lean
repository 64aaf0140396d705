import Verif.Spec.Names
import Verif.Spec.Header
/-!
# Coordinate files

One line per epoch: date, time, three numbers, separated by white space; comments start with `#`.
-/
namespace Verif.Spec
open Verif.Py

/-- white space -/
def Blank (s : Str) : Prop := ∀ c ∈ s, isSpace c = true

/-- a coordinate: `n / 10^k`, written with `k` decimals -/
structure Coord where
  k : Nat
  n : Int

def Coord.text (c : Coord) : Str := fixedDec c.k c.n
def Coord.value (c : Coord) : Rat := (c.n : Rat) / 10 ^ c.k

inductive XyzLine where
  | comment (indent text : Str)
  | blank (ws : Str)
  | point (t : DateTime) (s1 : Str) (x : Coord) (s2 : Str) (y : Coord) (s3 : Str) (z : Coord) (s0 trail : Str)

def dateText (t : DateTime) : Str := dig4 t.year ++ '-' :: dig2 t.month ++ '-' :: dig2 t.day
def timeText (t : DateTime) : Str := dig2 t.hour ++ ':' :: dig2 t.minute ++ ':' :: dig2 t.second

def XyzLine.render : XyzLine → Str
  | .comment i t => i ++ '#' :: t
  | .blank ws => ws
  | .point t s1 x s2 y s3 z s0 trail =>
    dateText t ++ s0 ++ timeText t ++ s1 ++ x.text ++ s2 ++ y.text ++ s3 ++ z.text ++ trail

/-- white space where it belongs, legal times of whole seconds, at least one decimal -/
def XyzLine.Ok : XyzLine → Prop
  | .comment i _ => Blank i
  | .blank ws => Blank ws
  | .point t s1 x s2 y s3 z s0 trail => Legal t ∧ t.micro = 0 ∧ Blank s0 ∧ s0 ≠ [] ∧ Blank s1 ∧ s1 ≠ [] ∧ Blank s2 ∧ s2 ≠ [] ∧
    Blank s3 ∧ s3 ≠ [] ∧ Blank trail ∧ 1 ≤ x.k ∧ 1 ≤ y.k ∧ 1 ≤ z.k

/-- the epoch and the position of a line -/
def XyzLine.entry : XyzLine → Option (DateTime × List PyFloat)
  | .point t _ x _ y _ z _ _ => some (t, [.fin x.value, .fin y.value, .fin z.value])
  | _ => none

/-- the position of the last line with the epoch -/
def lastFor (t : DateTime) (ls : List XyzLine) : Option (List PyFloat) :=
  ((ls.filterMap XyzLine.entry).reverse.find? fun e => e.1 = t).map (·.2)

end Verif.Spec
