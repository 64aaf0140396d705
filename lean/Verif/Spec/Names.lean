import Verif.Spec.Calendar
import Verif.Py.Re
/-!
# File names

The shapes of names used by the RINEX conventions (`[]` marks what is checked):

* classic: station (4), day of year (3 digits), session (1 to 3), dot, two-digit year, type letter, anything;
* long: station (4), five more characters, `_`, data source `R`, `S` or `U`, `_`, four-digit year, day of year, hour and
  minute (four digits), anything.
-/
namespace Verif.Spec
open Verif.Py

/-- the decimal digit -/
def dig (n : Nat) : Char := Char.ofNat (48 + n)

/-- numbers with a fixed number of digits -/
def dig2 (n : Nat) : Str := [dig (n / 10 % 10), dig (n % 10)]
def dig3 (n : Nat) : Str := dig (n / 100 % 10) :: dig2 n
def dig4 (n : Nat) : Str := dig (n / 1000 % 10) :: dig3 n

/-- `k` word characters (letters, digits, underscore) -/
def Words (k : Nat) (s : Str) : Prop := s.length = k ∧ ∀ c ∈ s, isWord c = true

/-- `k` digits -/
def Digits (k : Nat) (s : Str) : Prop := s.length = k ∧ ∀ c ∈ s, isDigit c = true

/-- equal up to the case of ASCII letters -/
def SameCI (a b : Str) : Prop := lower a = lower b

/-- the character is one of the letters, in either case -/
def OneOf (cs : Str) (c : Char) : Prop := ∃ x ∈ cs, lowerC c = lowerC x

/-- `name` is the last component of the path -/
def LastComponent (path name : Str) : Prop := '/' ∉ name ∧ (path = name ∨ ∃ d, path = d ++ '/' :: name)

/-- a classic name announcing day `n` of the two-digit year `yy` -/
def ClassicName (name : Str) (yy n : Nat) : Prop :=
  ∃ station session letter rest, name = station ++ dig3 n ++ session ++ '.' :: dig2 yy ++ letter :: rest ∧
    Words 4 station ∧ n < 1000 ∧ (Words 1 session ∨ Words 2 session ∨ Words 3 session) ∧ yy < 100 ∧
    OneOf (c% "odnmglphbc") letter

/-- a long name announcing day `n` of year `y` -/
def LongName (name : Str) (y n : Nat) : Prop :=
  ∃ station more source time rest, name = station ++ more ++ '_' :: source :: '_' :: dig4 y ++ dig3 n ++ time ++ rest ∧
    Words 4 station ∧ Words 5 more ∧ OneOf (c% "RSU") source ∧ y < 10000 ∧ n < 1000 ∧ Digits 4 time

/-- the two-digit year of a file name: 69..99 are 1969..1999, 00..68 are 2000..2068 -/
def NameYear (yy y : Nat) : Prop := (yy ≤ 68 → y = 2000 + yy) ∧ (69 ≤ yy → y = 1900 + yy)

/-- the name announces day `n` of year `y` -/
def NameSays (name : Str) (y n : Nat) : Prop :=
  (∃ yy, ClassicName name yy n ∧ NameYear yy y) ∨ LongName name y n

end Verif.Spec

namespace Verif.Spec
open Verif.Py

/-! ## Observation files -/

/-- an hour letter `a`..`x`, in either case -/
def HourLetter (c : Char) : Prop := OneOf (c% "abcdefghijklmnopqrstuvwx") c

/-- the three shapes of the name of an observation file, without compression suffix; `hat`: Hatanaka (compact) type -/
inductive ObsStem : Str → Bool → Prop
  | quarter (station day : Str) (hour : Char) (minute yy : Str) (t : Char) (hat : Bool) : Words 4 station → Digits 3 day →
      HourLetter hour → (minute = c% "00" ∨ minute = c% "15" ∨ minute = c% "30" ∨ minute = c% "45") → Digits 2 yy →
      lowerC t = (if hat then 'd' else 'o') → ObsStem (station ++ day ++ hour :: minute ++ '.' :: yy ++ [t]) hat
  | daily (station day : Str) (session : Char) (yy : Str) (t : Char) (hat : Bool) : Words 4 station → Digits 3 day →
      isWord session = true → Digits 2 yy →
      lowerC t = (if hat then 'd' else 'o') → ObsStem (station ++ day ++ session :: '.' :: yy ++ [t]) hat
  | long (site : Str) (source : Char) (start period freq : Str) (sys o : Char) (ext : Str) (hat : Bool) : Words 9 site →
      OneOf (c% "RSU") source → Digits 11 start → Words 3 period → Words 3 freq → isWord sys = true → lowerC o = 'o' →
      SameCI ext (if hat then c% "crx" else c% "rnx") →
      ObsStem (site ++ '_' :: source :: '_' :: start ++ '_' :: period ++ '_' :: freq ++ '_' :: sys :: o :: '.' :: ext) hat

/-- the name of an observation file: a stem and, if `comp`, the suffix `.z` or `.gz` in any case -/
def ObsName (name : Str) (hat comp : Bool) : Prop :=
  ∃ stem suffix, name = stem ++ suffix ∧ ObsStem stem hat ∧
    (if comp then SameCI suffix (c% ".z") ∨ SameCI suffix (c% ".gz") else suffix = [])

/-- marks of the plain and of the Hatanaka type: `.NNo` / `.rnx`, `.NNd` / `.crx` -/
def Mark (hat : Bool) (m : Str) : Prop :=
  (∃ yy t, m = '.' :: yy ++ [t] ∧ Digits 2 yy ∧ lowerC t = (if hat then 'd' else 'o')) ∨
  SameCI m (if hat then c% ".crx" else c% ".rnx")

/-- the text contains a mark -/
def Marked (hat : Bool) (s : Str) : Prop := ∃ x m r, s = x ++ m ++ r ∧ Mark hat m

end Verif.Spec
