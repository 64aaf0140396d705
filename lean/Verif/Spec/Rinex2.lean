import Verif.Spec.Calendar
/-!
# The RINEX 2 observation format, from the standard

Text written by a RINEX 2 writer, independent of the reader: observation fields `F14.3,I1,I1` five per line, epoch lines
`(1X,I2.2,4(1X,I2),F11.7,2X,I1,I3,12(A1,I2),F12.9)` with continuation lines `(32X,12(A1,I2))`, event blocks.
-/
namespace Verif.Spec
open Verif.Py

/-- two physical lines say the same if they differ only in trailing white space -/
def SameLine (l c : Str) : Prop := rstrip l = rstrip c

/-- the physical lines of a text given by the contents of its lines -/
def Written : List Str → List Str → Prop
  | [], [] => True
  | l :: ls, c :: cs => SameLine l c ∧ Written ls cs
  | _, _ => False

/-- decimal digit -/
def digit (d : Nat) : Char := Char.ofNat (48 + d)

/-- a number of thousandths with three decimals; below 1 it may be written without the zero before the point (`short`: `-.500`) -/
def fixed3 (n : Int) (short : Bool) : Str :=
  (if n < 0 then ['-'] else []) ++ (if short ∧ n.natAbs < 1000 then [] else natStr (n.natAbs / 1000)) ++ ['.'] ++ zfill 3 (natStr (n.natAbs % 1000))

/-- an observation: blank, or a value in thousandths with optional loss-of-lock and signal-strength digits -/
inductive Field where
  | blank
  | val (n : Int) (lli ss : Option Nat) (short : Bool := false)

/-- a column holding a digit or a blank -/
def indCol : Option Nat → Char
  | none => ' '
  | some d => digit d

/-- `F14.3,I1,I1` -/
def Field.render : Field → Str
  | .blank => List.replicate 16 ' '
  | .val n l s z => padLeft 14 (fixed3 n z) ++ [indCol l, indCol s]

/-- the value fits in 14 columns, the indicators are digits -/
def Field.Ok : Field → Prop
  | .blank => True
  | .val n l s z => (fixed3 n z).length ≤ 14 ∧ (∀ d ∈ l, d < 10) ∧ (∀ d ∈ s, d < 10)

/-- what the field says: the value (if any) and the two indicators (blank = 0) -/
def Field.says : Field → Option PyFloat × Nat × Nat
  | .blank => (none, 0, 0)
  | .val n l s _ => (some (.fin ((n : Rat) / 1000)), l.getD 0, s.getD 0)

/-- the list cut in pieces of `k` (the last one may be shorter) -/
def pieces (k : Nat) : Nat → List α → List (List α)
  | 0, _ => []
  | _ + 1, [] => []
  | f + 1, x :: xs => (x :: xs).take k :: pieces k f ((x :: xs).drop k)

/-- the list cut in pieces of `k` -/
def chunks (k : Nat) (l : List α) : List (List α) := pieces k l.length l

/-- the lines of one satellite: five fields per line -/
def fieldLines (fs : List Field) : List Str := (chunks 5 fs).map fun c => (c.map Field.render).flatten

/-- a satellite identifier: system letter (or blank), number, written with a leading zero or a leading blank -/
structure SatId where
  sys : Char
  num : Nat
  zero : Bool

def SatId.render (s : SatId) : Str := s.sys :: (if s.zero then zfill 2 (natStr s.num) else padLeft 2 (natStr s.num))

/-- system letter: blank, or an ASCII letter -/
def SatId.Ok (s : SatId) : Prop :=
  s.num < 100 ∧ (s.sys = ' ' ∨ (65 ≤ s.sys.toNat ∧ s.sys.toNat ≤ 90) ∨ (97 ≤ s.sys.toNat ∧ s.sys.toNat ≤ 122))

/-- canonical name: upper case letter (G for blank), two digits -/
def SatId.name (s : SatId) : Str :=
  (if s.sys = ' ' then 'G'
   else if 97 ≤ s.sys.toNat then Char.ofNat (s.sys.toNat - 32) else s.sys) ::
  [digit (s.num / 10), digit (s.num % 10)]

/-- an observation epoch: time (with a further digit below the microsecond), flag 0 or 1, the satellites with their fields,
whatever follows in columns 69.. (receiver clock offset), and whether month, day, hour and minute, and the seconds, are written with leading zeros -/
structure Epoch where
  time : DateTime
  sub : Nat
  flag : Nat
  sats : List (SatId × List Field)
  tail : Str
  zeros : Bool × Bool

/-- `1X,I2`, or `1X,I2.2` with leading zeros -/
def cols3 (z : Bool) (n : Nat) : Str := if z then ' ' :: zfill 2 (natStr n) else padLeft 3 (natStr n)

/-- `F11.7`, possibly with a leading zero -/
def secs11 (z : Bool) (s m : Nat) : Str := padLeft 11 ((if z then zfill 2 (natStr s) else natStr s) ++ ['.'] ++ zfill 7 (natStr m))

/-- `(1X,I2.2,4(1X,I2),F11.7,2X,I1,I3)` -/
def epochHead (z : Bool × Bool) (t : DateTime) (sub flag num : Nat) : Str :=
  [' '] ++ zfill 2 (natStr (t.year % 100)) ++ cols3 z.1 t.month ++ cols3 z.1 t.day ++
  cols3 z.1 t.hour ++ cols3 z.1 t.minute ++
  secs11 z.2 t.second (t.micro * 10 + sub) ++
  padLeft 3 (natStr flag) ++ padLeft 3 (natStr num)

/-- satellites of one line -/
def satCols (l : List SatId) : Str := (l.map SatId.render).flatten

/-- the epoch line (followed by the clock offset) and its continuation lines: twelve satellites per line -/
def Epoch.headLines (e : Epoch) : List Str :=
  let ids := e.sats.map (·.1)
  (padRight 68 (epochHead e.zeros e.time e.sub e.flag ids.length ++ satCols (ids.take 12)) ++ e.tail) ::
    (chunks 12 (ids.drop 12)).map fun c => List.replicate 32 ' ' ++ satCols c

/-- the epoch block: epoch line(s), then the lines of every satellite -/
def Epoch.lines (e : Epoch) : List Str := e.headLines ++ (e.sats.map fun s => fieldLines s.2).flatten

/-- years a two-digit RINEX 2 epoch can express -/
def Year2 (y : Nat) : Prop := 1989 ≤ y ∧ y ≤ 2088

/-- a well-formed epoch for a list of `n` observation types -/
def Epoch.Ok (n : Nat) (e : Epoch) : Prop :=
  Legal e.time ∧ Year2 e.time.year ∧ e.sub < 10 ∧ e.flag ≤ 1 ∧ e.sats.length < 1000 ∧
  ∀ s ∈ e.sats, s.1.Ok ∧ s.2.length = n ∧ ∀ f ∈ s.2, f.Ok

/-- what an epoch says: one record per satellite, every value under its own type -/
def Epoch.records (types : List Str) (e : Epoch) :
    List (DateTime × Str × List (Str × (Option PyFloat × Nat × Nat))) :=
  e.sats.map fun s => (e.time, s.1.name, types.zip (s.2.map Field.says))

/-- an event block: whatever stands in the date columns, the event flag, the number of lines, the lines -/
structure Event where
  date : Str
  flag : Nat
  tail : Str
  body : List Str

def Event.Ok (e : Event) : Prop := e.date.length = 26 ∧ 2 ≤ e.flag ∧ e.flag < 1000 ∧ e.body.length < 1000

/-- `(26X,2X,I1,I3)`, then the lines -/
def Event.lines (e : Event) : List Str :=
  (e.date ++ padLeft 3 (natStr e.flag) ++ padLeft 3 (natStr e.body.length) ++ e.tail) :: e.body

/-- the body of a RINEX 2 observation file -/
inductive Item where
  | obs (e : Epoch)
  | event (e : Event)

def Item.lines : Item → List Str
  | .obs e => e.lines
  | .event e => e.lines

/-- well-formed for a list of `n` observation types -/
def Item.Ok (n : Nat) : Item → Prop
  | .obs e => e.Ok n
  | .event e => e.Ok

/-- the text of a body -/
def bodyLines (items : List Item) : List Str := (items.map Item.lines).flatten

end Verif.Spec
