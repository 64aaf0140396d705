import Verif.Py.Str
/-!
# Specification: families of observation codes

A family has a short name: observable letter and band (`C1`, `L2`, `P1`, ...).  RINEX 2 codes are the name itself, RINEX 3 codes
append an attribute letter.  The precise codes `C1P, C1W` (`C2P, C2W`) belong to `P1` (`P2`).  Band 3 exists in RINEX 3 only.
-/
namespace Verif.Spec
open Verif.Py

/-- observable, band, attribute letters (sorted) -/
def attributes : List (Char × Char × Str) := [
  ('C', '1', c% "ABCLMSXYZ"), ('C', '2', c% "CDILMQSXY"),
  ('L', '1', c% "ABCLMNPSWXYZ"), ('L', '2', c% "CDILMNPQSWXY"),
  ('S', '1', c% "ABCLMNPSWXYZ"), ('S', '2', c% "CDILMNPQSWXY"),
  ('D', '1', c% "ABCLMNPSWXYZ"), ('D', '2', c% "CDILMNPQSWXY"),
  ('C', '6', c% "ABCIQXZ"), ('L', '6', c% "ABCIQXZ"), ('S', '6', c% "ABCIQXZ"),
  ('D', '6', c% "ABCXZ"),
  ('C', '3', c% "IQX"), ('C', '5', c% "IQX"), ('C', '7', c% "IQX"), ('C', '8', c% "IQX"),
  ('L', '3', c% "IQX"), ('L', '5', c% "IQX"), ('L', '7', c% "IQX"), ('L', '8', c% "IQX"),
  ('S', '3', c% "IQX"), ('S', '5', c% "IQX"), ('S', '7', c% "IQX"), ('S', '8', c% "IQX"),
  ('D', '3', c% "IQX"), ('D', '5', c% "IQX"), ('D', '7', c% "IQX"), ('D', '8', c% "IQX")]

/-- `Member n s`: the code `s` belongs to the family named `n` -/
inductive Member : Str → Str → Prop
  | plain (k b : Char) : k ∈ c% "CLSD" → b ∈ c% "125678" → Member [k, b] [k, b]
  | coded (k b a : Char) (l : Str) : (k, b, l) ∈ attributes → a ∈ l → Member [k, b] [k, b, a]
  | plainP (b : Char) : b ∈ c% "125678" → Member ['P', b] ['P', b]
  | precise (b a : Char) : b ∈ c% "12" → a ∈ c% "PW" → Member ['P', b] ['C', b, a]
  | lli (b : Char) : b ∈ c% "125" → Member ['L', 'L', 'I', b] ['L', 'L', 'I', b]

/-- alphabetical order (by code points): `a` is a proper prefix of `b`, or has the smaller character at the first difference -/
def Before (a b : Str) : Prop :=
  (∃ c s, b = a ++ c :: s) ∨ ∃ p x y s t, a = p ++ x :: s ∧ b = p ++ y :: t ∧ x.toNat < y.toNat

/-- the family of each bit of the validity value -/
def bitFamily : Nat → Option Str
  | 0 => some (c% "LLI1")
  | 1 => some (c% "LLI2")
  | 2 => some (c% "C1")
  | 3 => some (c% "L1")
  | 4 => some (c% "L2")
  | 5 => some (c% "P1")
  | 6 => some (c% "P2")
  | 7 => some (c% "S1")
  | 8 => some (c% "S2")
  | 9 => some (c% "D1")
  | 10 => some (c% "D2")
  | 11 => some (c% "D5")
  | 12 => some (c% "C2")
  | 13 => some (c% "C5")
  | 14 => some (c% "L5")
  | 15 => some (c% "S5")
  | 16 => some (c% "LLI5")
  | _ => none

/-- some code of the list belongs to the family of bit `k` -/
def HasBit (k : Nat) (codes : List Str) : Prop := ∃ o ∈ codes, ∃ n, bitFamily k = some n ∧ Member n o

/-- the code belongs to some family -/
def Known (s : Str) : Prop := ∃ n, Member n s

end Verif.Spec
