import Verif.Model.Writer
import Verif.Spec.NavNames
import Verif.Spec.Columns
/-!
# Specification: output files

The user of the writer announces satellites and positions and writes records.  (Only the types `Pos`, `WEnv`, `Cfg`, `WOp` are taken from the model.)
-/
namespace Verif.Spec
open Verif.Py Verif.Model

/-- the records written for a satellite, in order -/
def recordsOf : List WOp → Str → List (DateTime × List (Option FVal))
  | [], _ => []
  | .write s e v :: ops, sat => if s = sat then (e, v) :: recordsOf ops sat else recordsOf ops sat
  | _ :: ops, sat => recordsOf ops sat

/-- the last announcement of the satellite -/
def SatelliteIs (ops : List WOp) (sat satDef : Str) (nav : Option Str) : Prop :=
  ∃ pre post, ops = pre ++ .satellite sat satDef nav :: post ∧ ∀ d n, .satellite sat d n ∉ post

/-- the last position given for the latest epoch -/
def PositionIs (ops : List WOp) (p : Pos) : Prop :=
  ∃ pre t post, ops = pre ++ .position t p :: post ∧ (∀ q, .position t q ∉ post) ∧ ∀ u q, .position u q ∈ ops → instant u ≤ instant t

def GeodeticIs (ops : List WOp) (p : Pos) : Prop :=
  ∃ pre t post, ops = pre ++ .geodetic t p :: post ∧ (∀ q, .geodetic t q ∉ post) ∧ ∀ u q, .geodetic u q ∈ ops → instant u ≤ instant t

/-- legal times, and all records of one date -/
def OpsOk (D : Date) (ops : List WOp) : Prop :=
  ∀ op ∈ ops, match op with
    | .satellite _ _ _ => True
    | .position t _ => Legal t
    | .geodetic t _ => Legal t
    | .write _ t _ => Legal t ∧ 1000 ≤ t.year ∧ (⟨t.year, t.month, t.day⟩ : Date) = D

/-- `outDir/YYYY/DDD/site/site_SAT_DDD_YY.dat` -/
def outputPath (outDir site sat : Str) (t : DateTime) : Str :=
  outDir ++ '/' :: dig4 t.year ++ '/' :: dig3 (doy t) ++ '/' :: site ++ '/' ::
    (site ++ '_' :: sat ++ '_' :: dig3 (doy t) ++ '_' :: dig2 t.year ++ c% ".dat")

/-- the comment at the beginning of an output file -/
def headerText (created sources satDef interval sampling site lbh xyz dtf cols fort : Str) : Str :=
  (List.map (fun l => (c% "# ") ++ l ++ ['\n']) [
    (c% "Created on ") ++ created,
    (c% "Sources: ") ++ sources,
    (c% "Satellite: ") ++ satDef,
    (c% "Interval: ") ++ interval,
    (c% "Sampling interval: ") ++ sampling,
    (c% "Site: ") ++ site,
    (c% "Position (L, B, H): ") ++ lbh,
    (c% "Position (X, Y, Z): ") ++ xyz,
    (c% "datetime format: ") ++ dtf,
    (c% "Columns: ") ++ cols,
    fort]).flatten

/-- a column name as it is shown in the comment: without parentheses and apostrophes, and without a `u` before an apostrophe or at the end (`C53_columns`:
the names of the columns are shown unchanged) -/
def bareName : Str → Str
  | [] => []
  | c :: s =>
    if c = '(' ∨ c = ')' ∨ c = '\'' ∨ (c = 'u' ∧ (s = [] ∨ s.head? = some '\'')) then bareName s else c :: bareName s

/-- the list of the columns in the comment: names separated by a comma and a blank; a single name is followed by a comma -/
def columnsText : List Str → Str
  | [name] => bareName name ++ [',']
  | names => List.intercalate (c% ", ") (names.map bareName)

/-- three numbers -/
def posText (repr : Rat → Str) (p : Pos) : Str := repr p.x ++ (c% ", ") ++ repr p.y ++ (c% ", ") ++ repr p.z

/-- seconds since midnight -/
def secOfDay (t : DateTime) : Rat := (t.hour * 3600 + t.minute * 60 + t.second : Nat) + (t.micro : Rat) / 1000000

/-- the slot nearest to a time, the earlier one of two equally near -/
def IsSlot (q : Rat) (n : Int) : Prop := (n : Rat) - 1 / 2 < q ∧ q ≤ n + 1 / 2

/-- the values of a record: slot, hour, date, and the values of the chunk with 0 for what is missing -/
def FullRecord (slot : Int) (hour : Rat) (date : Str) (vals : List (Option FVal)) (full : List FVal) : Prop :=
  full.length = vals.length + 3 ∧ full[0]? = some (.int slot) ∧ full[1]? = some (.flt (.fin hour)) ∧ full[2]? = some (.str date) ∧
    ∀ (i : Nat) (v : Option FVal), vals[i]? = some v → full[i + 3]? = some (match v with | some x => x | none => .int 0)

end Verif.Spec
