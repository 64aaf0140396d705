import Verif.Spec.ObsSame
import Verif.Spec.Apart
import Verif.Spec.Label
/-!
# Specification: the order of the columns of an observation file
-/
namespace Verif.Spec
open Verif.Py Verif.Model

/-- the same satellite with the same fields under the same types, the types in another order -/
structure SameFields (ts ts' : List Str) (s s' : SatId × List Field) : Prop where
  sat : s'.1 = s.1
  fields : (ts'.zip s'.2).Perm (ts.zip s.2)

/-- two RINEX 2 files with the same contents (as in `SameObs2`) up to the order of the observation types -/
def SameCols2 (file file' : List Str) : Prop :=
  ∃ v v' sys hs hs' ts ts' es es', File2 file v sys hs ts es ∧ File2 file' v' sys hs' ts' es' ∧ (v = 200 ↔ v' = 200) ∧ (∀ e ∈ es, WholeMs e.time) ∧
    sitePos hs = sitePos hs' ∧ hs.findSome? HLine.saysFirstObs = hs'.findSome? HLine.saysFirstObs ∧ ts'.Perm ts ∧
    List.Forall₂ (fun e e' => e'.time = e.time ∧ List.Forall₂ (SameFields ts ts') e.sats e'.sats) es es'

/-- the same systems, each with the same types in some order -/
def SameTypes (m m' : TypeMap) : Prop :=
  ∀ c, (m.of c = none ∧ m'.of c = none) ∨ ∃ ts ts', m.of c = some ts ∧ m'.of c = some ts' ∧ ts'.Perm ts

/-- the same for RINEX 3 files -/
def SameCols3 (file file' : List Str) : Prop :=
  ∃ v sys hs hs' items items' a b, File3 file v sys hs items a b ∧ File3 file' v sys hs' items' a b ∧ WholeMs a ∧ WholeMs b ∧
    SameTypes (typeMapOf v hs) (typeMapOf v hs') ∧ sitePos (linesOf hs) = sitePos (linesOf hs') ∧
    (linesOf hs).findSome? HLine.saysFirstObs = (linesOf hs').findSome? HLine.saysFirstObs ∧
    List.Forall₂ (fun e e' => e'.1 = e.1 ∧ List.Forall₂ (fun s s' => SameFields (((typeMapOf v hs).of s.1.sys).getD []) (((typeMapOf v hs').of s.1.sys).getD []) s s') e.2 e'.2)
      (obsOf3 items) (obsOf3 items')

/-- the families that are neither in a column of the output nor in the validity value: observations at the third frequency, signal strengths and Doppler shifts of
frequencies 6 to 8, precise codes of frequencies 5 to 8 -/
def unusedFamilies : List Str := [c% "C3", c% "L3", c% "S3", c% "D3", c% "S6", c% "S7", c% "S8", c% "D6", c% "D7", c% "D8", c% "P5", c% "P6", c% "P7", c% "P8"]

/-- an observation type the program has no use for -/
def Unused (code : Str) : Prop := ∃ n ∈ unusedFamilies, Member n code

/-- the same types, in any order, but for unused ones -/
def SameUsedTypes (ts ts' : List Str) : Prop := ∀ code, ¬ Unused code → (code ∈ ts' ↔ code ∈ ts)

/-- the same satellite with the same fields under the used types -/
structure SameUsedFields (ts ts' : List Str) (s s' : SatId × List Field) : Prop where
  sat : s'.1 = s.1
  fields : ∀ code field, ¬ Unused code → ((code, field) ∈ ts'.zip s'.2 ↔ (code, field) ∈ ts.zip s.2)

/-- two RINEX 2 files with the same contents (as in `SameObs2`) up to the order of the observation types and unused types -/
def SameUsed2 (file file' : List Str) : Prop :=
  ∃ v v' sys hs hs' ts ts' es es', File2 file v sys hs ts es ∧ File2 file' v' sys hs' ts' es' ∧ (v = 200 ↔ v' = 200) ∧ (∀ e ∈ es, WholeMs e.time) ∧
    sitePos hs = sitePos hs' ∧ hs.findSome? HLine.saysFirstObs = hs'.findSome? HLine.saysFirstObs ∧ SameUsedTypes ts ts' ∧
    List.Forall₂ (fun e e' => e'.time = e.time ∧ List.Forall₂ (SameUsedFields ts ts') e.sats e'.sats) es es'

/-- the same for RINEX 3 files; the systems are the same -/
def SameUsed3 (file file' : List Str) : Prop :=
  ∃ v sys hs hs' items items' a b, File3 file v sys hs items a b ∧ File3 file' v sys hs' items' a b ∧ WholeMs a ∧ WholeMs b ∧
    (∀ c, ((typeMapOf v hs).of c = none ∧ (typeMapOf v hs').of c = none) ∨
      ∃ ts ts', (typeMapOf v hs).of c = some ts ∧ (typeMapOf v hs').of c = some ts' ∧ SameUsedTypes ts ts') ∧
    sitePos (linesOf hs) = sitePos (linesOf hs') ∧
    (linesOf hs).findSome? HLine.saysFirstObs = (linesOf hs').findSome? HLine.saysFirstObs ∧
    List.Forall₂ (fun e e' => e'.1 = e.1 ∧ List.Forall₂ (fun s s' => SameUsedFields (((typeMapOf v hs).of s.1.sys).getD []) (((typeMapOf v hs').of s.1.sys).getD []) s s') e.2 e'.2)
      (obsOf3 items) (obsOf3 items')

end Verif.Spec
