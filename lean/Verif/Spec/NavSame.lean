import Verif.Spec.Program
/-!
# Specification: navigation files with the same messages
-/
namespace Verif.Spec
open Verif.Py Verif.Model

/-- the messages that count on the day are the same: for every system, satellite and time of day the last message of the day has the same values -/
def SameMessages (day : DateTime) (ms ms' : List NavMsg) : Prop := ∀ s n τ v, LastOf day ms s n τ v ↔ LastOf day ms' s n τ v

/-- two messages for the same satellite and time of day -/
def SameKey (a b : NavMsg) : Prop := a.system = b.system ∧ a.number = b.number ∧ timeOfDay a.epoch = timeOfDay b.epoch

/-- the messages of a day for the same satellite and time agree -/
def Agreeing (day : DateTime) (ms : List NavMsg) : Prop :=
  ∀ a ∈ ms, ∀ b ∈ ms, OnDay a.epoch day → OnDay b.epoch day → SameKey a b → a.values = b.values

/-- the navigation file `f` of the second disk has the same messages, for the day in its name, as that of the first; the order and the number of the messages, those
of other days, the version of the format, the header and the layout of the lines can differ -/
def SameNav (D D' : Disk) (f : Str) : Prop :=
  ∃ day ms ms', NamedDay f day.date ∧ (∃ file w v, NavReadAs D f file ∧ NavText file w v ms) ∧ (∃ file w v, NavReadAs D' f file ∧ NavText file w v ms') ∧
    SameMessages day ms ms'

/-- on the second disk, the navigation files `files` have been written anew -/
structure NavRewritten (D D' : Disk) (files : List Str) : Prop where
  listing : ∀ d, D'.listing d = D.listing d
  present : ∀ p, D'.present p = D.present p
  others : ∀ k p, p ∉ files → D'.lines k p = D.lines k p
  same : ∀ f ∈ files, SameNav D D' f

end Verif.Spec
