import Verif.Spec.Program
/-!
# Specification: what stops a run
-/
namespace Verif.Spec
open Verif.Py Verif.Model

/-- an observation that cannot be assigned: no satellite, a satellite number that is no number, or no time -/
def Unreadable (it : ObsItem) : Prop :=
  it.sat = [] ∨ (∃ a r er, it.sat = a :: r ∧ pyInt r = .error er) ∨ it.epoch = none

/-- an observation left by the sampling interval -/
structure Reached (P : Prm) (f : FileIn) (o : ObsIn) (xyz : Dict DateTime Pos) (it : ObsItem) (c : Char) (n : Int) (e : DateTime) : Prop where
  opened : f.opened = .ok o
  accepted : ∃ t, Accepted o t
  data : f.xyzData = .ok xyz
  kept : ∃ items, Kept P.cfg o items ∧ it ∈ items
  considered : Considered o it c n e

/-- what in a file certainly ends the program with an exception -/
inductive Stops (P : Prm) (f : FileIn) : Prop
  | opening (er) : f.opened = .error er → er ≠ .rinex → er ≠ .uncompress → Stops P f
  | start (o) : f.opened = .ok o → Processed o.system ∨ o.system = 'M' → o.tofo = none → Stops P f
  | geodetic (o t er) : f.opened = .ok o → Accepted o t → P.lbh o.xyz = .error er → Stops P f
  | xyzFile (o t er) : f.opened = .ok o → Accepted o t → f.xyzData = .error er → Stops P f
  | reading (o t er) : f.opened = .ok o → Accepted o t → o.stop = .error er → er ≠ .rinex → Stops P f
  | item (o t it) : f.opened = .ok o → Accepted o t → it ∈ o.items → Unreadable it → Stops P f
  | load (o xyz it c n e er) : Reached P f o xyz it c n e → P.load e.date c = .error er → ¬ Handled er → Stops P f
  | satellite (o xyz it c n e dt eph er) : Reached P f o xyz it c n e → EphemerisIs P c n e dt eph → P.satPos c eph dt = .error er → ¬ Arithmetic er → Stops P f
  | frequency (o xyz it n e dt eph) : Reached P f o xyz it 'R' n e → EphemerisIs P 'R' n e dt eph → (∀ er, P.satPos 'R' eph dt ≠ .error er) →
      eph[7]? = none → Stops P f
  | site (o xyz it c n e x p er) : Reached P f o xyz it c n e → SatAt P c n e p → SiteAt xyz it e x → P.lbh x = .error er → Stops P f
  | direction (o xyz it c n e x p er) : Reached P f o xyz it c n e → SatAt P c n e p → SiteAt xyz it e x → P.elAz x p = .error er → ¬ Arithmetic er → Stops P f
  | types (o xyz it c n e x p el az) : Reached P f o xyz it c n e → SatAt P c n e p → SiteAt xyz it e x → P.elAz x p = .ok (el, az) → 0 ≤ el →
      it.types c = none → Stops P f

end Verif.Spec
