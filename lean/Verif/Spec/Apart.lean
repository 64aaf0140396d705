import Verif.Spec.Program
/-!
# Specification: satellites do not influence each other
-/
namespace Verif.Spec
open Verif.Py Verif.Model

/-- two observation files of the same day with the same observations of the satellites `K` (and any others) -/
structure AgreeOn (K : Str → Bool) (o o' : ObsIn) : Prop where
  day : o'.fileDate = o.fileDate
  items : o'.items.filter (fun it => K it.sat) = o.items.filter (fun it => K it.sat)

/-- all satellites of a system -/
def wholeSystem (c : Char) (sat : Str) : Bool := sat.head? == some c

/-- one satellite -/
def oneSatellite (s : Str) (sat : Str) : Bool := sat == s

/-- the sampling interval is not used -/
def Undecimated (cfg : Cfg) (o : ObsIn) : Prop :=
  cfg.samplingInterval = none ∨ ∃ us, cfg.samplingInterval = some us ∧ (us = 0 ∨ (us : Rat) / 1000000 ≤ o.interval)

end Verif.Spec
