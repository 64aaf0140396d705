import Verif.Spec.AnyOrder
import Verif.Spec.Moved3
import Verif.Spec.Output
/-!
# Specification: archives that are processed to the end
-/
namespace Verif.Spec
open Verif.Py Verif.Model

/-- the spacing (microseconds) found in a file of version `v` is not rounded to nothing: at least a second in version 2.0, which keeps whole seconds, and at least a millisecond otherwise -/
def LongEnough (v : Nat) (i : Int) : Prop := (if v = 200 then 1000000 else 1000) ≤ i

/-- an observation file as the standard describes it, with the time of its first observation in the header: RINEX 2 with epochs in the order of time and positions in the header,
RINEX 2 with any epochs (and positions announced inside), RINEX 3 with or without positions announced inside -/
inductive ObsText (file : List Str) : Prop
  | ordered2 (v sys hs ts es) : File2 file v sys hs ts es → (∀ i, MostFrequent i ((spacings (es.map (·.time))).take 10) → LongEnough v i) →
      (∃ t, hs.findSome? HLine.saysFirstObs = some t) → ObsText file
  | rinex2 (v sys hs ts items seen final i) : Any2 file v sys hs ts items seen final → IntervalIs seen i → LongEnough v i →
      (∃ t, hs.findSome? HLine.saysFirstObs = some t) → ObsText file
  | rinex3 (v sys es items a b) : File3 file v sys es items a b → LongEnough v (instant b - instant a) →
      (∃ t, (linesOf es).findSome? HLine.saysFirstObs = some t) → ObsText file
  | moved3 (v sys es items a b seen) : Moved3 file v sys es items a b seen → LongEnough v (instant b - instant a) →
      (∃ t, (linesOf es).findSome? HLine.saysFirstObs = some t) → ObsText file

/-- the observation files are such files; their coordinate files, where there are any, are written as C40 says -/
def ObsArchive (D : Disk) (cfg : Cfg) (paths : List Str) : Prop :=
  ∀ p ∈ paths, (∃ file, ReadAs D p file ∧ ObsText file) ∧ ∃ xl, CoordLines D cfg.obsDir p xl

/-- the navigation directories can be listed (and are written without a slash at the end), and the files the program would take for some system and the day of an observation file are
navigation files of that day; there need not be any -/
structure NavArchive (D : Disk) (cfg : Cfg) (paths : List Str) : Prop where
  dirs : ∀ d ∈ cfg.navDir, d ≠ [] ∧ d.getLast? ≠ some '/'
  listed : ∃ ls, Listings D cfg.navDir ls
  files : ∀ path ∈ paths, ∀ c e f, NamedDay path e.date → Processed c → NavChoice D cfg c e f → NamedDay f e.date ∧ ∃ file w v ms, NavReadAs D f file ∧ NavText file w v ms

/-- the result is no error, or an arithmetic one -/
def Tame {α : Type} (r : Except PyErr α) : Prop := ∀ er, r = .error er → Arithmetic er

/-- the position of a station in the observation file at `path`: in an item of the file, or in its coordinate file -/
def StationOf (D : Disk) (cfg : Cfg) (path : Str) (it : ObsItem) (e : DateTime) (x : Pos) : Prop :=
  ∃ fuel o xl xyz, obsFile D fuel path = some (.ok o) ∧ it ∈ o.items ∧ CoordLines D cfg.obsDir path xl ∧ Positions xl xyz ∧ SiteAt xyz it e x

/-- the numerical functions raise no other than arithmetic exceptions on what the archive holds: the geodetic coordinates of the stations none at all, the satellite positions not for the
ephemerides used on the days of the observation files, the directions not for the stations and the positions of the satellites observed there -/
structure Numerics (X : Ext) (D : Disk) (cfg : Cfg) (paths : List Str) : Prop where
  own : ∀ path ∈ paths, ∀ fuel o, obsFile D fuel path = some (.ok o) → ∃ q, X.lbh o.xyz = .ok q
  site : ∀ path ∈ paths, ∀ it e x, it.epoch = some e → StationOf D cfg path it e x → ∃ q, X.lbh x = .ok q
  satPos : ∀ path ∈ paths, ∀ c n e dt eph, NamedDay path e.date → Legal e → Processed c → EphemerisIs (prmOf X D cfg) c n e dt eph → Tame (X.satPos c eph dt)
  elAz : ∀ path ∈ paths, ∀ it c n e x s, SatIs it c n → it.epoch = some e → NamedDay path e.date → Legal e → Processed c → StationOf D cfg path it e x → SatAt (prmOf X D cfg) c n e s → Tame (X.elAz x s)

end Verif.Spec
