import Verif.Spec.Tail
/-!
# Specification: observation files with the same contents
-/
namespace Verif.Spec
open Verif.Py Verif.Model

/-- whole milliseconds -/
def WholeMs (t : DateTime) : Prop := t.micro % 1000 = 0

/-- two RINEX 2 files with the same contents: the same satellite system, time of the first observation, site position, types and observations. The comments and other lines of the header, the order of the
header lines, the events, the clock offsets and the white space behind the lines can differ, and 2.10 and 2.11 can be exchanged (2.0 cannot: its interval is kept in whole seconds). -/
def SameObs2 (file file' : List Str) : Prop :=
  ∃ v v' sys hs hs' ts es es', File2 file v sys hs ts es ∧ File2 file' v' sys hs' ts es' ∧ (v = 200 ↔ v' = 200) ∧ (∀ e ∈ es, WholeMs e.time) ∧
    sitePos hs = sitePos hs' ∧ hs.findSome? HLine.saysFirstObs = hs'.findSome? HLine.saysFirstObs ∧
    es.map (fun e => (e.time, e.sats)) = es'.map fun e => (e.time, e.sats)

/-- the observations of a RINEX 3 file, by epochs -/
def obsOf3 (items : List Item3) : List (DateTime × List (SatId × List Field)) :=
  items.filterMap fun i => match i with
    | .obs e => some (e.time, e.sats)
    | .event _ => none

/-- the same for RINEX 3 files -/
def SameObs3 (file file' : List Str) : Prop :=
  ∃ v sys hs hs' items items' a b, File3 file v sys hs items a b ∧ File3 file' v sys hs' items' a b ∧ WholeMs a ∧ WholeMs b ∧
    typeMapOf v hs = typeMapOf v hs' ∧ sitePos (linesOf hs) = sitePos (linesOf hs') ∧
    (linesOf hs).findSome? HLine.saysFirstObs = (linesOf hs').findSome? HLine.saysFirstObs ∧ obsOf3 items = obsOf3 items'

end Verif.Spec
