import Verif.Spec.Header
import Verif.Spec.Select
/-!
# Navigation files, from the RINEX standards

Records written by a writer of navigation files, independent of the reader: an epoch line
`I2,1X,I2.2,4(1X,I2),F5.1,3D19.12` (RINEX 2) or `A1,I2.2,1X,I4,5(1X,I2.2),3D19.12` (RINEX 3) and broadcast orbit lines
`3X,4D19.12` or `4X,4D19.12`.
-/
namespace Verif.Spec
open Verif.Py

/-- the number a list of decimal digits stands for -/
def numeral (ds : List Nat) : Nat := ds.foldl (fun a d => a * 10 + d) 0

/-- a number with an exponent: sign, digits before and after the point, exponent letter, exponent -/
structure DNum where
  neg : Bool
  whole : List Nat
  frac : List Nat
  letter : Char
  eneg : Bool
  exp : List Nat
  deriving DecidableEq

/-- `-0.123456789012D-05` -/
def DNum.text (d : DNum) : Str :=
  (if d.neg then ['-'] else []) ++ d.whole.map digit ++ ['.'] ++ d.frac.map digit ++ [d.letter] ++
  [if d.eneg then '-' else '+'] ++ d.exp.map digit

/-- digits are digits, there is at least one before or after the point and one in the exponent, the exponent letter is one
of `D`, `d`, `E`, `e`, and the number fits in 19 columns -/
def DNum.Ok (d : DNum) : Prop :=
  (∀ x ∈ d.whole ++ d.frac ++ d.exp, x < 10) ∧ d.whole ++ d.frac ≠ [] ∧ d.exp ≠ [] ∧ d.letter ∈ ['D', 'd', 'E', 'e'] ∧
  d.text.length ≤ 19

/-- the number -/
def DNum.value (d : DNum) : Rat :=
  let m : Rat := (numeral (d.whole ++ d.frac) : Rat) / 10 ^ d.frac.length
  let s : Rat := if d.neg then -m else m
  if d.eneg then s / 10 ^ numeral d.exp else s * 10 ^ numeral d.exp

/-- a field of an orbit line: a number or blank -/
abbrev OField := Option DNum

def OField.render : OField → Str
  | none => List.replicate 19 ' '
  | some d => padLeft 19 d.text

def OField.Ok : OField → Prop
  | none => True
  | some d => d.Ok

/-- a blank field means 0 -/
def OField.value : OField → Rat
  | none => 0
  | some d => d.value

/-- an orbit line: its fields, and whatever text follows them -/
structure ORow where
  fields : List OField
  spare : Str
  deriving DecidableEq

def ORow.render (indent : Nat) (r : ORow) : Str :=
  List.replicate indent ' ' ++ (r.fields.map OField.render).flatten ++ r.spare

/-- number of values of the orbit lines of a system: 7 lines with 4 values (the last one: 2), GLONASS and SBAS 3 lines -/
def rowSizes (system : Char) : List Nat :=
  if system = 'R' ∨ system = 'S' then [4, 4, 4] else [4, 4, 4, 4, 4, 4, 2]

/-- a navigation message -/
structure NavMsg where
  system : Char
  number : Nat
  epoch : DateTime
  clock : List DNum
  rows : List ORow
  deriving DecidableEq

def NavMsg.values (m : NavMsg) : List PyFloat := m.rows.flatMap fun r => r.fields.map fun f => .fin f.value

/-- RINEX 2 epoch line, with or without leading zeros in month, day, hour and minute; the system is that of the file -/
def NavMsg.epochLine2 (z : Bool) (m : NavMsg) : Str :=
  padLeft 2 (natStr m.number) ++ [' '] ++ zfill 2 (natStr (m.epoch.year % 100)) ++
  cols3 z m.epoch.month ++ cols3 z m.epoch.day ++ cols3 z m.epoch.hour ++ cols3 z m.epoch.minute ++
  padLeft 5 (fixedDec 1 (m.epoch.second * 10 + m.epoch.micro / 100000 : Nat)) ++
  (m.clock.map fun d => padLeft 19 d.text).flatten

/-- RINEX 3 epoch line -/
def NavMsg.epochLine3 (m : NavMsg) : Str :=
  [m.system] ++ zfill 2 (natStr m.number) ++ [' '] ++ padLeft 4 (natStr m.epoch.year) ++
  [' '] ++ zfill 2 (natStr m.epoch.month) ++ [' '] ++ zfill 2 (natStr m.epoch.day) ++
  [' '] ++ zfill 2 (natStr m.epoch.hour) ++ [' '] ++ zfill 2 (natStr m.epoch.minute) ++
  [' '] ++ zfill 2 (natStr m.epoch.second) ++
  (m.clock.map fun d => padLeft 19 d.text).flatten

/-- what both formats ask of a message -/
def NavMsg.Ok (m : NavMsg) : Prop :=
  m.number < 100 ∧ Legal m.epoch ∧ m.clock.length = 3 ∧ (∀ d ∈ m.clock, d.Ok) ∧
  m.rows.map (fun r => r.fields.length) = rowSizes m.system ∧ ∀ r ∈ m.rows, ∀ f ∈ r.fields, OField.Ok f

/-- RINEX 2: years of two digits, seconds with one decimal, all messages of the system of the file -/
def NavMsg.Ok2 (system : Char) (m : NavMsg) : Prop :=
  m.Ok ∧ m.system = system ∧ Year2 m.epoch.year ∧ m.epoch.micro % 100000 = 0

/-- RINEX 3: systems of the standard, whole seconds -/
def NavMsg.Ok3 (m : NavMsg) : Prop :=
  m.Ok ∧ m.system ∈ ['G', 'R', 'E', 'S', 'C', 'J', 'I'] ∧ 1000 ≤ m.epoch.year ∧ m.epoch.micro = 0

/-- the physical lines of a message: they may differ from the written ones in trailing white space, but no line is empty
(a line of a file holds at least its line end) -/
def NavMsg.WrittenAs (v3 : Bool) (m : NavMsg) (ls : List Str) : Prop :=
  (∃ z, Written ls ((if v3 then m.epochLine3 else m.epochLine2 z) :: m.rows.map (ORow.render (if v3 then 4 else 3)))) ∧ [] ∉ ls

/-- the physical lines of a sequence of messages -/
def NavBody (v3 : Bool) : List NavMsg → List Str → Prop
  | [], ls => ls = []
  | m :: ms, ls => ∃ a b, ls = a ++ b ∧ m.WrittenAs v3 a ∧ NavBody v3 ms b

/-- same calendar day -/
def OnDay (t d : DateTime) : Prop := t.year = d.year ∧ t.month = d.month ∧ t.day = d.day

/-- the last message of the sequence for a satellite and a time of day among those of a day -/
def LastOf (day : DateTime) (ms : List NavMsg) (system : Char) (number : Int) (time : Nat) (v : List PyFloat) : Prop :=
  ∃ before m after, ms = before ++ m :: after ∧ OnDay m.epoch day ∧ m.system = system ∧ (m.number : Int) = number ∧
    timeOfDay m.epoch = time ∧ v = m.values ∧
    ∀ m' ∈ after, ¬ (OnDay m'.epoch day ∧ m'.system = system ∧ (m'.number : Int) = number ∧ timeOfDay m'.epoch = time)

/-! ## Files -/

/-- the file type letter of the header: that of its first `RINEX VERSION / TYPE` line -/
def typeLetter : List HLine → Option Char
  | [] => none
  | .version _ f _ _ :: _ => some f
  | _ :: hs => typeLetter hs

/-- system of a RINEX 2 navigation file: `N` GPS, `G` GLONASS, `H` geostationary (not in version 2.0) -/
def systemOfType (version : Nat) : Option Char → Option Char
  | some 'N' => some 'G'
  | some 'G' => some 'R'
  | some 'H' => if version = 200 then none else some 'S'
  | _ => none

/-- the messages of a file are those its version can hold -/
def Readable (v3 : Bool) (version : Nat) (hs : List HLine) (m : NavMsg) : Prop :=
  if v3 then m.Ok3 else ∃ s, systemOfType version (typeLetter hs) = some s ∧ m.Ok2 s

end Verif.Spec
