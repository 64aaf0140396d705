import Verif.Spec.Names
/-!
# The first line of a RINEX file
-/
namespace Verif.Spec
open Verif.Py

/-- value of a row of digits -/
def rowVal (s : Str) : Nat := s.foldl (fun a c => a * 10 + digitVal c) 0

/-- `s` is an unsigned decimal number (digits, optionally a point and more digits) of value `q` -/
def NumText (s : Str) (q : Rat) : Prop :=
  ∃ a b, a ≠ [] ∧ (∀ c ∈ a, isDigit c = true) ∧ (∀ c ∈ b, isDigit c = true) ∧
    ((s = a ∧ q = rowVal a) ∨ (s = a ++ '.' :: b ∧ q = rowVal a + rowVal b / 10 ^ b.length))

/-- the first line of an observation file announces the version: blanks, the number (all of it), anything, and the label in
columns of its own at the end, in any case -/
def VersionLine (line : Str) (q : Rat) : Prop :=
  ∃ ws num rest lab, rstrip line = ws ++ num ++ rest ++ lab ∧ (∀ c ∈ ws, isSpace c = true) ∧ NumText num q ∧
    (∀ c r q', rest ++ lab = c :: r → ¬ NumText (num ++ [c]) q') ∧ '\n' ∉ rest ∧
    SameCI lab (c% "RINEX VERSION / TYPE")

/-- the readers of observation files: version announced, reader (version in hundredths) -/
def obsReaders : List (Rat × Nat) :=
  [(200/100, 200), (210/100, 210), (211/100, 211), (300/100, 300), (301/100, 301), (302/100, 302), (303/100, 303)]

/-- the readers of navigation files -/
def navReaders : List (Rat × Nat) :=
  [(200/100, 200), (201/100, 200), (210/100, 210), (211/100, 211), (300/100, 300), (301/100, 301), (302/100, 302),
   (303/100, 303), (304/100, 303)]

end Verif.Spec
