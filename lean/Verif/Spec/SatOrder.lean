import Verif.Spec.ObsSame
import Verif.Spec.Apart
/-!
# Specification: the order of the satellites in an epoch
-/
namespace Verif.Spec
open Verif.Py Verif.Model

/-- the same epoch with the satellites in another order (no satellite stands twice in an epoch) -/
structure Reordered (e e' : Epoch) : Prop where
  time : e'.time = e.time
  sats : e'.sats.Perm e.sats
  once : (e.sats.map fun s => s.1.name).Nodup

/-- two RINEX 2 files with the same contents (as in `SameObs2`) up to the order of the satellites in the epochs -/
def SameSats2 (file file' : List Str) : Prop :=
  ∃ v v' sys hs hs' ts es es', File2 file v sys hs ts es ∧ File2 file' v' sys hs' ts es' ∧ (v = 200 ↔ v' = 200) ∧ (∀ e ∈ es, WholeMs e.time) ∧
    sitePos hs = sitePos hs' ∧ hs.findSome? HLine.saysFirstObs = hs'.findSome? HLine.saysFirstObs ∧ List.Forall₂ Reordered es es'

/-- the same for an epoch of a RINEX 3 file -/
structure Reordered3 (e e' : DateTime × List (SatId × List Field)) : Prop where
  time : e'.1 = e.1
  sats : e'.2.Perm e.2
  once : (e.2.map fun s => s.1.name3).Nodup

/-- the same for RINEX 3 files -/
def SameSats3 (file file' : List Str) : Prop :=
  ∃ v sys hs hs' items items' a b, File3 file v sys hs items a b ∧ File3 file' v sys hs' items' a b ∧ WholeMs a ∧ WholeMs b ∧
    typeMapOf v hs = typeMapOf v hs' ∧ sitePos (linesOf hs) = sitePos (linesOf hs') ∧
    (linesOf hs).findSome? HLine.saysFirstObs = (linesOf hs').findSome? HLine.saysFirstObs ∧ List.Forall₂ Reordered3 (obsOf3 items) (obsOf3 items')

/-- the observations of one epoch, in two orders; no satellite stands twice -/
structure OneEpoch (g g' : List ObsItem) : Prop where
  epoch : ∃ e, ∀ it ∈ g, it.epoch = e
  perm : g'.Perm g
  once : (g.map (·.sat)).Nodup

/-- what the program knows of two observation files is the same but for the order of the satellites in the epochs -/
structure SameButOrder (o o' : ObsIn) : Prop where
  filename : o'.filename = o.filename
  fileDate : o'.fileDate = o.fileDate
  system : o'.system = o.system
  tofo : o'.tofo = o.tofo
  xyz : o'.xyz = o.xyz
  interval : o'.interval = o.interval
  stop : o'.stop = o.stop
  items : ∃ gs gs', List.Forall₂ OneEpoch gs gs' ∧ o.items = gs.flatten ∧ o'.items = gs'.flatten

end Verif.Spec
