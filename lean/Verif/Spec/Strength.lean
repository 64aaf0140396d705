import Verif.Spec.ObsSame
import Verif.Spec.Apart
/-!
# Specification: the digits for the signal strength
-/
namespace Verif.Spec
open Verif.Py Verif.Model

/-- the same observation with the same loss-of-lock digit (blank is 0); the digit for the signal strength and the layout of the number can differ -/
inductive SameMark : Field → Field → Prop
  | blank : SameMark .blank .blank
  | val (n : Int) (l l' s s' : Option Nat) (z z' : Bool) : l'.getD 0 = l.getD 0 → SameMark (.val n l s z) (.val n l' s' z')

/-- the same satellite with the same observations -/
structure SameMarks (s s' : SatId × List Field) : Prop where
  sat : s'.1 = s.1
  fields : List.Forall₂ SameMark s.2 s'.2

/-- two RINEX 2 files with the same contents (as in `SameObs2`) but for the digits of the signal strength -/
def SameMarks2 (file file' : List Str) : Prop :=
  ∃ v v' sys hs hs' ts es es', File2 file v sys hs ts es ∧ File2 file' v' sys hs' ts es' ∧ (v = 200 ↔ v' = 200) ∧ (∀ e ∈ es, WholeMs e.time) ∧
    sitePos hs = sitePos hs' ∧ hs.findSome? HLine.saysFirstObs = hs'.findSome? HLine.saysFirstObs ∧
    List.Forall₂ (fun e e' => e'.time = e.time ∧ List.Forall₂ SameMarks e.sats e'.sats) es es'

/-- the same for RINEX 3 files -/
def SameMarks3 (file file' : List Str) : Prop :=
  ∃ v sys hs hs' items items' a b, File3 file v sys hs items a b ∧ File3 file' v sys hs' items' a b ∧ WholeMs a ∧ WholeMs b ∧
    typeMapOf v hs = typeMapOf v hs' ∧ sitePos (linesOf hs) = sitePos (linesOf hs') ∧
    (linesOf hs).findSome? HLine.saysFirstObs = (linesOf hs').findSome? HLine.saysFirstObs ∧
    List.Forall₂ (fun e e' => e'.1 = e.1 ∧ List.Forall₂ SameMarks e.2 e'.2) (obsOf3 items) (obsOf3 items')

end Verif.Spec
