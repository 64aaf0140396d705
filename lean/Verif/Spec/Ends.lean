import Verif.Spec.Program
/-!
# Specification: runs that end
-/
namespace Verif.Spec
open Verif.Py Verif.Model

/-- a text without the letters `inf` or `nan` one after another, in any case -/
def Plain (l : Str) : Prop := ¬ c% "inf" <:+: lower l ∧ ¬ c% "nan" <:+: lower l

/-- an observation file without infinite numbers: nothing that looks like one in a header line with the position or anywhere behind the header; the lines
of the header do not mention its end -/
def FiniteText (file : List Str) : Prop :=
  ∃ hdr body, file = hdr ++ body ∧ (∀ l ∈ hdr, contains (c% "END OF HEADER") l = false) ∧
    (∀ l ∈ hdr, labelOf l = c% "APPROX POSITION XYZ" → Plain l) ∧ ∀ l ∈ body, Plain l

/-- behind the header of a RINEX 3 file there is an epoch line (of an observation epoch) with a date -/
def HasEpoch (file : List Str) : Prop :=
  ∃ hdr endl body, file = hdr ++ endl :: body ∧ (∀ l ∈ hdr, labelOf l ≠ c% "END OF HEADER") ∧ labelOf endl = c% "END OF HEADER" ∧
    ∃ l ∈ body, ∃ t sub flag num clock, DateOk (some (t, sub)) ∧ flag ≤ 1 ∧ num < 1000 ∧ SameLine l (markLine (some (t, sub)) flag num clock)

/-- the text of an observation file on which the program cannot get stuck: no infinite numbers, no empty "lines" (a line has at least its newline
character), and an epoch, if it announces to be a RINEX 3 file -/
structure Tractable (file : List Str) : Prop where
  finite : FiniteText file
  lines : ∀ l ∈ file, l ≠ []
  epoch : ∀ q v, VersionLine (file.headD []) q → (q, v) ∈ obsReaders → 300 ≤ v → HasEpoch file

end Verif.Spec
