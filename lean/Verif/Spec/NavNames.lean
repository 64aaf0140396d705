import Verif.Spec.Names
/-!
# Navigation files: names and search order
-/
namespace Verif.Spec
open Verif.Py

/-- the type letter of classic navigation file names: GPS `n`, GLONASS `g`, SBAS `h`, Galileo `l`, mixed `p` -/
inductive NavLetter : Char → Char → Prop
  | gps : NavLetter 'G' 'n'
  | glonass : NavLetter 'R' 'g'
  | sbas : NavLetter 'S' 'h'
  | galileo : NavLetter 'E' 'l'
  | mixed : NavLetter 'M' 'p'

/-- day of the year of a date -/
def doy (t : DateTime) : Nat := ((monthDays t.year).take (t.month - 1)).sum + t.day

/-- classic: station, day of year, session, dot, two-digit year, type letter, anything -/
def ClassicNav (name : Str) (system : Char) (t : DateTime) : Prop :=
  ∃ station session letter rest l, name = station ++ dig3 (doy t) ++ session :: '.' :: dig2 (t.year % 100) ++ letter :: rest ∧
    Words 4 station ∧ isWord session = true ∧ NavLetter system l ∧ lowerC letter = l

/-- long: site, source, start, period, optional frequency, system and `N`, `.rnx`, anything -/
def LongNav (name : Str) (system : Char) (t : DateTime) : Prop :=
  ∃ site source time period freq s n ext rest,
    name = site ++ '_' :: source :: '_' :: dig4 t.year ++ dig3 (doy t) ++ time ++ '_' :: period ++ freq ++ '_' :: s :: n :: '.' :: ext ++ rest ∧
    Words 9 site ∧ isWord source = true ∧ Digits 4 time ∧ Words 3 period ∧ (freq = [] ∨ ∃ f, freq = '_' :: f ∧ Words 3 f) ∧
    lowerC s = lowerC system ∧ lowerC n = 'n' ∧ SameCI ext (c% "rnx")

/-- a navigation file of the system and the day -/
def NavName (name : Str) (system : Char) (t : DateTime) : Prop := ClassicNav name system t ∨ LongNav name system t

/-! ## Search -/

/-- `q` occurs in `f`, in any case -/
def Occurs (q f : Str) : Prop := ∃ a m b, f = a ++ m ++ b ∧ SameCI m q

/-- the file taken from a list: the first file with the first station of the priority list that has a file, else the first file -/
def Preferred (files priority : List Str) (f : Str) : Prop :=
  (∃ before q after, priority = before ++ q :: after ∧ (∀ p ∈ before, ∀ g ∈ files, ¬ Occurs p g) ∧
    ∃ a b, files = a ++ f :: b ∧ Occurs q f ∧ ∀ g ∈ a, ¬ Occurs q g) ∨
  ((∀ p ∈ priority, ∀ g ∈ files, ¬ Occurs p g) ∧ ∃ b, files = f :: b)

open Classical in
/-- the navigation files of a system and day in a list of directories, in the order of the listing -/
noncomputable def navFiles (dirs : List (Str × List Str)) (system : Char) (t : DateTime) : List Str :=
  dirs.flatMap fun d => (d.2.filter fun n => decide (NavName n system t)).map fun n => d.1 ++ '/' :: n

open Classical in
/-- the files considered: those of the system, or the mixed ones if there is none -/
noncomputable def navCandidates (dirs : List (Str × List Str)) (system : Char) (t : DateTime) : List Str :=
  if navFiles dirs system t = [] then navFiles dirs 'M' t else navFiles dirs system t

end Verif.Spec
