import Mathlib.Data.List.Forall2
import Verif.Spec.Rinex2
/-! # Header lines of RINEX files: contents in columns 1-60, label from column 61 -/
namespace Verif.Spec
open Verif.Py

/-- a header line: contents padded to 60 columns, the label, anything white after it -/
def hline (content label : Str) : Str := padRight 60 content ++ label

/-- `# / TYPES OF OBSERV`: `(I6,9(4X,A2))`, continuation lines `(6X,9(4X,A2))` -/
def typeLines (types : List Str) : List Str :=
  hline (padLeft 6 (natStr types.length) ++ ((types.take 9).map (padLeft 6)).flatten) (c% "# / TYPES OF OBSERV") ::
  (chunks 9 (types.drop 9)).map fun c =>
    hline (List.replicate 6 ' ' ++ (c.map (padLeft 6)).flatten) (c% "# / TYPES OF OBSERV")

/-- the physical lines of the types: each written line followed by any white space (the newline character) -/
def TypeText (tls ts : List Str) : Prop := List.Forall₂ (fun l c : Str => ∃ w, l = c ++ w ∧ ∀ x ∈ w, isSpace x = true) tls (typeLines ts)

/-- a number of `10^-k` units with `k` decimals (`Fw.k`) -/
def fixedDec (k : Nat) (n : Int) : Str :=
  (if n < 0 then ['-'] else []) ++ natStr (n.natAbs / 10 ^ k) ++ ['.'] ++ zfill k (natStr (n.natAbs % 10 ^ k))

/-- the label of a header line: what stands from column 61 on -/
def labelOf (l : Str) : Str := rstrip (l.drop 60)

/-- the header lines whose values are kept, and all others.  Position in units of 0.1 mm, interval in ms, seconds of the
first observation in units of 0.1 µs, version in hundredths. -/
inductive HLine where
  | version (n : Nat) (ftype sys : Char) (words : Str × Str := ([], []))
  | firstObs (t : DateTime) (sub : Nat) (sys : Str)
  | position (x y z : Int)
  | interval (ms : Nat) (rest : Str := [])
  | other (l : Str)

def lbl1 : Str := c% "RINEX VERSION / TYPE"
def lbl2 : Str := c% "TIME OF FIRST OBS"
def lbl3 : Str := c% "APPROX POSITION XYZ"
def lbl4 : Str := c% "INTERVAL"

/-- the words behind the letters of the version line (`OBSERVATION DATA    M (MIXED)`: columns 22-40 and 42-60) fit in their columns -/
def WordsOk (d : Str × Str) : Prop := d.1.length ≤ 19 ∧ d.2.length ≤ 19 ∧ '\n' ∉ d.1 ∧ '\n' ∉ d.2

instance (d : Str × Str) : Decidable (WordsOk d) := by unfold WordsOk; infer_instance

/-- columns 31-43 of the time of the first observation: `F13.7`, in version 2.0 `F12.6` -/
def secCols (v : Nat) (t : DateTime) (sub : Nat) : Str :=
  if v = 200 then padLeft 12 (natStr t.second ++ ['.'] ++ zfill 6 (natStr t.micro)) ++ [' ']
  else padLeft 13 (natStr t.second ++ ['.'] ++ zfill 7 (natStr (t.micro * 10 + sub)))

/-- `F9.2,11X,A1,19X,A1` with words in the columns behind the letters; `5I6,F13.7,5X,A3`; `3F14.4`; `F10.3` (version 2.0: `I6`, whole seconds),
with whatever a program writes behind it (some write `30.0000`, the last digit beyond the field) -/
def HLine.render (v : Nat) : HLine → Str
  | .version n f s d =>
    hline (padLeft 9 (fixedDec 2 n) ++ List.replicate 11 ' ' ++ [f] ++ padRight 19 d.1 ++ [s] ++ d.2) lbl1
  | .firstObs t sub sys =>
    hline (padLeft 6 (natStr t.year) ++ padLeft 6 (natStr t.month) ++ padLeft 6 (natStr t.day) ++
      padLeft 6 (natStr t.hour) ++ padLeft 6 (natStr t.minute) ++
      secCols v t sub ++ List.replicate 5 ' ' ++ sys) lbl2
  | .position x y z =>
    hline (padLeft 14 (fixedDec 4 x) ++ padLeft 14 (fixedDec 4 y) ++ padLeft 14 (fixedDec 4 z)) lbl3
  | .interval ms rest => hline ((if v = 200 then padLeft 6 (natStr (ms / 1000)) else padLeft 10 (fixedDec 3 ms)) ++ rest) lbl4
  | .other l => l

/-- the numbers fit in their columns -/
def HLine.Ok : HLine → Prop
  | .version n _ _ d => n < 1000 ∧ WordsOk d
  | .firstObs t sub sys => Legal t ∧ 100 ≤ t.year ∧ sub < 10 ∧ sys.length = 3
  | .position x y z => ∀ n ∈ [x, y, z], (fixedDec 4 n).length ≤ 14
  | .interval ms rest => (fixedDec 3 ms).length ≤ 10 ∧ ms < 1000000000 ∧ rest.length ≤ 50 ∧ '\n' ∉ rest
  | .other l => labelOf l ∉ [lbl1, lbl2, lbl3, lbl4]

/-! ## What a header says -/

/-- the physical lines of a header: each written line followed by any white space -/
def HeaderText (v : Nat) : List Str → List HLine → Prop
  | [], [] => True
  | l :: ls, h :: hs => (∃ w, l = h.render v ++ w ∧ ∀ c ∈ w, isSpace c = true) ∧ HeaderText v ls hs
  | _, _ => False

/-- version and type as the reader reports them: a blank system means GPS before version 3 -/
def HLine.saysVersion (v : Nat) : HLine → Option (PyFloat × Char × Char)
  | .version n f s _ => some (.fin ((n : Rat) / 100), f, if v < 300 ∧ s = ' ' then 'G' else s)
  | _ => none

/-- time of the first observation and its time system (blank = GPS) -/
def HLine.saysFirstObs : HLine → Option (DateTime × Str)
  | .firstObs t _ sys => some (t, if sys = c% "   " then c% "GPS" else sys)
  | _ => none

def HLine.saysPosition : HLine → Option (List PyFloat)
  | .position x y z => some [.fin ((x : Rat) / 10000), .fin ((y : Rat) / 10000), .fin ((z : Rat) / 10000)]
  | _ => none

/-- version 2.0 has whole seconds -/
def HLine.saysInterval (v : Nat) : HLine → Option PyFloat
  | .interval ms _ => some (.fin (if v = 200 then ((ms / 1000 : Nat) : Rat) else (ms : Rat) / 1000))
  | _ => none

/-- the label of a line -/
def HLine.lbl : HLine → Str
  | .version .. => lbl1
  | .firstObs .. => lbl2
  | .position .. => lbl3
  | .interval .. => lbl4
  | .other l => labelOf l

/-- an event that changes nothing the program keeps: its header lines (flags 3 and 4) are comments and the like -/
def Event.Quiet (e : Event) : Prop :=
  e.flag = 3 ∨ e.flag = 4 → ∀ l ∈ e.body, labelOf l ∉ [lbl1, lbl2, lbl3, lbl4, c% "# / TYPES OF OBSERV"]

/-- the observation epochs of a body -/
def epochsOf : List Item → List Epoch
  | [] => []
  | .obs e :: is => e :: epochsOf is
  | .event _ :: is => epochsOf is

/-- well-formed, and all events are quiet -/
def BodyOk (n : Nat) (items : List Item) : Prop := ∀ i ∈ items, i.Ok n ∧ ∀ e, i = .event e → e.Quiet

end Verif.Spec
