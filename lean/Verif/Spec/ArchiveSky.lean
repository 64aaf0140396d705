import Verif.Spec.Archive
import Verif.Spec.Look
/-!
# Specification: when the numerical functions raise only arithmetic exceptions
-/
namespace Verif.Spec
open Verif.Py Verif.Model Verif.Model.DoubleGeo

/-- rounding and powers keep the sign, and zero -/
structure SignSafe (F : Flt) : Prop where
  zero : F.rnd 0 = 0 ∧ ∀ n, n ≠ 0 → F.pow 0 n = 0
  rnd : ∀ x, 0 ≤ x → 0 ≤ F.rnd x
  pow : ∀ x n, 0 ≤ x ^ n → 0 ≤ F.pow x n

/-- the exceptions of the numerical functions are those of the code of `/repo/tecs/sat` in the arithmetic `F`.  A computation that does not end, for which the functions of the model have no
result, counts as an arithmetic exception. -/
structure Raises (F : Flt) (P : Prm) : Prop where
  lbh : ∀ p er, P.lbh p = .error er → (∃ fuel, 8 ≤ fuel ∧ xyz2lbhDegF F fuel p.x p.y p.z = .error er) ∨
    Arithmetic er ∧ ∀ fuel, 8 ≤ fuel → xyz2lbhDegF F fuel p.x p.y p.z = .ok none
  elAz : ∀ x s er, P.elAz x s = .error er → (∃ fuel, 8 ≤ fuel ∧ computeElAzF F fuel (vec x) (vec s) = .error er) ∨
    Arithmetic er ∧ ∀ fuel, 8 ≤ fuel → computeElAzF F fuel (vec x) (vec s) = .ok none
  kepler : ∀ c (q : List Rat) t er, c = 'G' ∨ c = 'C' ∨ c = 'E' → P.satPos c (q.map .fin) t = .error er → (∃ fuel, gpsSatXyzF F fuel (q.map fun x : Rat => (x : ℝ)) t = .error er) ∨
    Arithmetic er ∧ ∀ fuel, gpsSatXyzF F fuel (q.map fun x : Rat => (x : ℝ)) t = .ok none
  motion : ∀ c (q : List Rat) t er, c = 'R' ∨ c = 'S' → P.satPos c (q.map .fin) t = .error er → glonassSatXyzF F (q.map fun x : Rat => (x : ℝ)) t = .error er

/-- a station has no position (zeros), or it is on the ground -/
def OnGround (x : Pos) : Prop := x = ⟨0, 0, 0⟩ ∨ ∃ l b h, StationAt x l b h

/-- the positions in the observation files and in their coordinate files are such -/
structure Grounded (D : Disk) (cfg : Cfg) (paths : List Str) : Prop where
  own : ∀ path ∈ paths, ∀ fuel o, obsFile D fuel path = some (.ok o) → OnGround o.xyz
  site : ∀ path ∈ paths, ∀ it e x, it.epoch = some e → StationOf D cfg path it e x → OnGround x

/-- the eccentricities (sixth number after the clock) of the ephemerides used are at most 0.99 -/
def Eccentricities (P : Prm) (paths : List Str) : Prop :=
  ∀ path ∈ paths, ∀ c n e dt eph, NamedDay path e.date → (c = 'G' ∨ c = 'C' ∨ c = 'E') → EphemerisIs P c n e dt eph → ∀ x : Rat, eph[5]? = some (.fin x) → |(x : ℝ)| ≤ 0.99

/-- a station has no position (zeros), or it is on the ground and the satellites observed there, where their positions are known, are in orbit and not within 1e-5 rad of the zenith (measured
between the verticals of station and satellite) -/
def NotInZenith (P : Prm) (D : Disk) (paths : List Str) : Prop :=
  ∀ path ∈ paths, ∀ it c n e x s, SatIs it c n → it.epoch = some e → NamedDay path e.date → StationOf D P.cfg path it e x → SatAt P c n e s →
    x = ⟨0, 0, 0⟩ ∨ ∃ l b h ls bs hs, StationAt x l b h ∧ SatelliteAt s ls bs hs ∧ Geo.dot (Geo.up l b) (Geo.up ls bs) ^ 2 ≤ 1 - 1e-10

end Verif.Spec
