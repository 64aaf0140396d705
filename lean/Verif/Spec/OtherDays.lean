import Verif.Spec.ObsSame
/-!
# Specification: epochs of other days
-/
namespace Verif.Spec
open Verif.Py Verif.Model

/-- the observations of the day in the name of the file (none if the name has no day) -/
def OfDay (path : Str) (l r : List (DateTime × List (SatId × List Field))) : Prop :=
  ∃ day : DateTime → Bool, (∀ t, day t = true ↔ NamedDay path t.date) ∧ r = l.filter fun e => day e.1

/-- two RINEX 2 files with the same contents (as in `SameObs2`) on the day of the name, and the same interval -/
def SameDay2 (path : Str) (file file' : List Str) : Prop :=
  ∃ v v' sys hs hs' ts es es', File2 file v sys hs ts es ∧ File2 file' v' sys hs' ts es' ∧ (v = 200 ↔ v' = 200) ∧ (∀ e ∈ es, WholeMs e.time) ∧
    sitePos hs = sitePos hs' ∧ hs.findSome? HLine.saysFirstObs = hs'.findSome? HLine.saysFirstObs ∧
    (∃ i, MostFrequent i ((spacings (es.map (·.time))).take 10) ∧ MostFrequent i ((spacings (es'.map (·.time))).take 10)) ∧
    ∃ obs, OfDay path (es.map fun e => (e.time, e.sats)) obs ∧ OfDay path (es'.map fun e => (e.time, e.sats)) obs

/-- the same for RINEX 3 files -/
def SameDay3 (path : Str) (file file' : List Str) : Prop :=
  ∃ v sys hs hs' items items' a b a' b', File3 file v sys hs items a b ∧ File3 file' v sys hs' items' a' b' ∧ WholeMs a ∧ WholeMs b ∧
    typeMapOf v hs = typeMapOf v hs' ∧ sitePos (linesOf hs) = sitePos (linesOf hs') ∧
    (linesOf hs).findSome? HLine.saysFirstObs = (linesOf hs').findSome? HLine.saysFirstObs ∧ instant b' - instant a' = instant b - instant a ∧
    ∃ obs, OfDay path (obsOf3 items) obs ∧ OfDay path (obsOf3 items') obs

end Verif.Spec
