import Verif.Spec.ObsSame
import Verif.Spec.Apart
/-!
# Specification: satellites of systems the program does not process
-/
namespace Verif.Spec
open Verif.Py Verif.Model

/-- GPS, GLONASS, SBAS, BeiDou, Galileo -/
def processed : Str := c% "GRSCE"

/-- the satellites of these systems, by their name -/
def ofProcessed (name : SatId → Str) (sats : List (SatId × List Field)) : List (SatId × List Field) :=
  sats.filter fun s => ((name s.1).take 1).all fun c => processed.contains c

/-- two RINEX 2 files with the same contents (as in `SameObs2`) but for satellites of other systems -/
def SameProcessed2 (file file' : List Str) : Prop :=
  ∃ v v' sys hs hs' ts es es', File2 file v sys hs ts es ∧ File2 file' v' sys hs' ts es' ∧ (v = 200 ↔ v' = 200) ∧ (∀ e ∈ es, WholeMs e.time) ∧
    sitePos hs = sitePos hs' ∧ hs.findSome? HLine.saysFirstObs = hs'.findSome? HLine.saysFirstObs ∧
    List.Forall₂ (fun e e' => e'.time = e.time ∧ ofProcessed SatId.name e'.sats = ofProcessed SatId.name e.sats) es es'

/-- the same for RINEX 3 files; the header can announce other systems -/
def SameProcessed3 (file file' : List Str) : Prop :=
  ∃ v sys hs hs' items items' a b, File3 file v sys hs items a b ∧ File3 file' v sys hs' items' a b ∧ WholeMs a ∧ WholeMs b ∧
    (∀ c ∈ processed, (typeMapOf v hs').of c = (typeMapOf v hs).of c) ∧ sitePos (linesOf hs) = sitePos (linesOf hs') ∧
    (linesOf hs).findSome? HLine.saysFirstObs = (linesOf hs').findSome? HLine.saysFirstObs ∧
    List.Forall₂ (fun e e' => e'.1 = e.1 ∧ ofProcessed SatId.name3 e'.2 = ofProcessed SatId.name3 e.2) (obsOf3 items) (obsOf3 items')

end Verif.Spec
