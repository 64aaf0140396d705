import Verif.Spec.Header
/-!
# The RINEX 3 observation format, from the standard

Header lines `SYS / # / OBS TYPES` `(A1,2X,I3,13(1X,A3))` with continuation lines `(6X,13(1X,A3))`; epoch lines
`(A1,1X,I4,4(1X,I2.2),F11.7,2X,I1,I3,6X,F15.12)`; satellite lines `(A1,I2.2,m(F14.3,I1,I1))`; event blocks.
-/
namespace Verif.Spec
open Verif.Py

/-- an observation code: kind of measurement, band, attribute -/
structure Code where
  kind : Char
  band : Char
  attr : Char
  deriving DecidableEq

def Code.text (c : Code) : Str := [c.kind, c.band, c.attr]

/-- no character is white; only the band can be the digit 1 -/
def Code.Ok (c : Code) : Prop :=
  isSpace c.kind = false ∧ isSpace c.band = false ∧ isSpace c.attr = false ∧ c.kind ≠ '1' ∧ c.attr ≠ '1'

/-- the code as delivered: BeiDou band 1 of version 3.02 and later is called band 2 -/
def Code.means (v : Nat) (sys : Char) (c : Code) : Str :=
  if 302 ≤ v ∧ sys = 'C' ∧ c.band = '1' then [c.kind, '2', c.attr] else c.text

def lblSys : Str := c% "SYS / # / OBS TYPES"

/-- codes of one line -/
def codeCols (l : List Code) : Str := (l.map fun c => ' ' :: c.text).flatten

/-- the type definition of one system: thirteen codes per line; `n` is the number announced -/
def sysLines (s : Char) (n : Nat) (codes : List Code) : List Str :=
  hline ([s, ' ', ' '] ++ padLeft 3 (natStr n) ++ codeCols (codes.take 13)) lblSys ::
  (chunks 13 (codes.drop 13)).map fun c => hline (List.replicate 6 ' ' ++ codeCols c) lblSys

/-- a header entry of a RINEX 3 file -/
inductive HEntry where
  | line (h : HLine)
  | sys (s : Char) (n : Nat) (codes : List Code)

def HEntry.lines (v : Nat) : HEntry → List Str
  | .line h => [h.render v]
  | .sys s n codes => sysLines s n codes

def HEntry.Ok : HEntry → Prop
  | .line h => h.Ok ∧ ∀ l, h = .other l → labelOf l ≠ lblSys
  | .sys s n codes => isSpace s = false ∧ n < 1000 ∧ ∀ c ∈ codes, c.Ok

/-- a physical line of a text file: the contents, trailing white space, the newline character -/
def Physical (l c : Str) : Prop := ∃ w, l = c ++ w ++ ['\n'] ∧ ∀ x ∈ w, isSpace x = true ∧ x ≠ '\n'

/-- no newline inside a line -/
def OneLine (c : Str) : Prop := ∀ x ∈ c, x ≠ '\n'

/-- physical lines of the given contents -/
def PhysicalLines : List Str → List Str → Prop
  | [], [] => True
  | l :: ls, c :: cs => Physical l c ∧ PhysicalLines ls cs
  | _, _ => False

/-! ## Body -/

/-- what a field means: a blank one reads as zero -/
def Field.says3 : Field → PyFloat × Int × Int
  | .blank => (.fin 0, 0, 0)
  | .val n l s _ => (.fin ((n : Rat) / 1000), (l.getD 0 : Nat), (s.getD 0 : Nat))

/-- satellite of RINEX 3: a system letter (not white, not the epoch mark) and a number -/
def SatId.Ok3 (s : SatId) : Prop := s.num < 100 ∧ isSpace s.sys = false ∧ s.sys ≠ '>'

/-- letter and two digits -/
def SatId.name3 (s : SatId) : Str := [s.sys, digit (s.num / 10), digit (s.num % 10)]

/-- the line of one satellite -/
def satLine (s : SatId) (fs : List Field) : Str := s.render ++ (fs.map Field.render).flatten

/-- receiver clock offset: absent, or in units of 1e-12 s -/
def clockCols : Option Int → Str
  | none => []
  | some n => List.replicate 6 ' ' ++ padLeft 15 (fixedDec 12 n)

/-- the date columns 2-30: blank, or a time (with a further digit below the microsecond) -/
def dateCols : Option (DateTime × Nat) → Str
  | none => List.replicate 28 ' '
  | some (t, sub) =>
    [' '] ++ padLeft 4 (natStr t.year) ++ [' '] ++ zfill 2 (natStr t.month) ++ [' '] ++ zfill 2 (natStr t.day) ++
    [' '] ++ zfill 2 (natStr t.hour) ++ [' '] ++ zfill 2 (natStr t.minute) ++
    padLeft 11 (natStr t.second ++ ['.'] ++ zfill 7 (natStr (t.micro * 10 + sub)))

/-- an epoch or event line -/
def markLine (date : Option (DateTime × Nat)) (flag num : Nat) (clock : Option Int) : Str :=
  ['>'] ++ dateCols date ++ [' ', ' ', digit flag] ++ padLeft 3 (natStr num) ++ clockCols clock

def DateOk : Option (DateTime × Nat) → Prop
  | none => True
  | some (t, sub) => Legal t ∧ 100 ≤ t.year ∧ sub < 10

/-- an observation epoch -/
structure Ep3 where
  time : DateTime
  sub : Nat
  flag : Nat
  clock : Option Int
  sats : List (SatId × List Field)

def Ep3.lines (e : Ep3) : List Str :=
  markLine (some (e.time, e.sub)) e.flag e.sats.length e.clock :: e.sats.map fun s => satLine s.1 s.2

/-- the table of observation types, by system letter -/
abbrev TypeMap := List (Char × List Str)

/-- the types of a system -/
def TypeMap.of (m : TypeMap) (s : Char) : Option (List Str) := (m.find? fun p => p.1 = s).map (·.2)

/-- a well-formed epoch: every satellite belongs to an announced system and has one field per type -/
def Ep3.Ok (m : TypeMap) (e : Ep3) : Prop :=
  DateOk (some (e.time, e.sub)) ∧ e.flag ≤ 1 ∧ e.sats.length < 1000 ∧
  ∀ s ∈ e.sats, s.1.Ok3 ∧ (∃ ts, m.of s.1.sys = some ts ∧ ts.Nodup ∧ s.2.length = ts.length) ∧ ∀ f ∈ s.2, f.Ok

/-- what an epoch says: one record per satellite, every value under its own type -/
def Ep3.records (m : TypeMap) (e : Ep3) : List (DateTime × Str × List (Str × (PyFloat × Int × Int))) :=
  e.sats.map fun s => (e.time, s.1.name3, ((m.of s.1.sys).getD []).zip (s.2.map Field.says3))

/-- an event block -/
structure Ev3 where
  date : Option (DateTime × Nat)
  flag : Nat
  clock : Option Int
  body : List Str

/-- flags 2..9; the lines of the block do not look like epoch lines -/
def Ev3.Ok (e : Ev3) : Prop :=
  DateOk e.date ∧ 2 ≤ e.flag ∧ e.flag < 10 ∧ e.body.length < 1000 ∧ ∀ l ∈ e.body, l.head? ≠ some '>'

def Ev3.lines (e : Ev3) : List Str := markLine e.date e.flag e.body.length e.clock :: e.body

inductive Item3 where
  | obs (e : Ep3)
  | event (e : Ev3)

def Item3.lines : Item3 → List Str
  | .obs e => e.lines
  | .event e => e.lines

def Item3.Ok (m : TypeMap) : Item3 → Prop
  | .obs e => e.Ok m
  | .event e => e.Ok

/-- the text of a body -/
def bodyLines3 (items : List Item3) : List Str := (items.map Item3.lines).flatten

/-! ## What a header says -/

/-- the value lines among the entries -/
def linesOf : List HEntry → List HLine
  | [] => []
  | .line h :: es => h :: linesOf es
  | .sys .. :: es => linesOf es

/-- the type table announced by a header -/
def typeMapOf (v : Nat) : List HEntry → TypeMap
  | [] => []
  | .line _ :: es => typeMapOf v es
  | .sys s _ codes :: es => (s, codes.map (Code.means v s)) :: typeMapOf v es

end Verif.Spec
