import Verif.Spec.Sky
import Verif.Spec.Main
import Verif.Spec.Motion
import Verif.Spec.Binary64
import Verif.Model.DoubleGeo
/-!
# Specification: the geometric columns against the geometry
-/
namespace Verif.Spec
open Verif.Py Verif.Model Verif.Model.DoubleGeo

/-- a position as a vector -/
noncomputable def vec (p : Pos) : Geo.Vec := ((p.x : ℝ), (p.y : ℝ), (p.z : ℝ))

/-- whatever the numerical functions return is the result of the code of `/repo/tecs/sat` in the arithmetic `F` (positions and ephemerides are the numbers the program
holds) -/
structure Computed (F : Flt) (P : Prm) : Prop where
  lbh : ∀ p q, P.lbh p = .ok q → ∃ fuel, 8 ≤ fuel ∧ xyz2lbhDegF F fuel p.x p.y p.z = .ok (some (vec q))
  elAz : ∀ x s el az, P.elAz x s = .ok (el, az) → ∃ fuel, 8 ≤ fuel ∧ computeElAzF F fuel (vec x) (vec s) = .ok (some ((el : ℝ), (az : ℝ)))
  kepler : ∀ c (q : List Rat) t p, c = 'G' ∨ c = 'C' ∨ c = 'E' → P.satPos c (q.map .fin) t = .ok p →
    ∃ fuel, gpsSatXyzF F fuel (q.map fun x : Rat => (x : ℝ)) t = .ok (some (vec p))
  motion : ∀ c (q : List Rat) t p, c = 'R' ∨ c = 'S' → P.satPos c (q.map .fin) t = .ok p → glonassSatXyzF F (q.map fun x : Rat => (x : ℝ)) t = .ok (vec p)

/-- the words of three columns are the coordinates of `v` up to `d` (if the columns are requested) -/
def WordsNear (P : Prm) (line : Str) (a b c : Str) (v : Geo.Vec) (d : ℝ) : Prop :=
  (∀ j, P.cfg.recFields[j]? = some a → WordNear line j v.1 d) ∧ (∀ j, P.cfg.recFields[j]? = some b → WordNear line j v.2.1 d) ∧
  (∀ j, P.cfg.recFields[j]? = some c → WordNear line j v.2.2 d)

/-- a station at most 10 km above or below the ellipsoid and not at a pole, with its longitude, latitude (radians) and height -/
structure StationAt (x : Pos) (l b h : ℝ) : Prop where
  latitude : |b| < Real.pi / 2
  height : |h| ≤ 10000
  position : Geo.cartesian l b h = vec x
  axis : 1e-3 ≤ Geo.axisDist (vec x)

/-- a navigation satellite 20000 to 50000 km from the centre of the Earth and not on the axis, with its longitude, latitude and height -/
structure SatelliteAt (s : Pos) (l b h : ℝ) : Prop where
  latitude : |b| < Real.pi / 2
  height : 0 < Geo.primeVertical b + h
  position : Geo.cartesian l b h = vec s
  distance : 20000000 ≤ Geo.len (vec s) ∧ Geo.len (vec s) ≤ 50000000
  axis : 1e-3 ≤ Geo.axisDist (vec s)

/-- the columns of the station -/
structure StationBack (P : Prm) (x : Pos) (line : Str) : Prop where
  xyz : WordsNear P line (c% "site.x") (c% "site.y") (c% "site.z") (vec x) 1e-12
  longitude : ∀ l b h, StationAt x l b h → ∀ j, P.cfg.recFields[j]? = some (c% "site.l") → ∃ k : ℤ, WordNear line j (l * 180 / Real.pi + 360 * k) 2e-12
  latitude : ∀ l b h, StationAt x l b h → ∀ j, P.cfg.recFields[j]? = some (c% "site.b") → WordNear line j (b * 180 / Real.pi) 3e-12
  height : ∀ l b h, StationAt x l b h → ∀ j, P.cfg.recFields[j]? = some (c% "site.h") → WordNear line j h 4e-6

/-- the columns of the satellite at `s`: its position; its elevation over the horizon of the station, where the verticals of the station and of the satellite enclose
less than 90 degrees and more than 1e-5 rad; the azimuth of its direction in the local frame -/
structure LookBack (P : Prm) (x s : Pos) (line : Str) : Prop where
  xyz : WordsNear P line (c% "sat.x") (c% "sat.y") (c% "sat.z") (vec s) 1e-12
  elevation : ∀ l b h ls bs hs, StationAt x l b h → SatelliteAt s ls bs hs → 1e-12 ≤ Geo.dot (Geo.up l b) (Geo.up ls bs) →
    Geo.dot (Geo.up l b) (Geo.up ls bs) ^ 2 ≤ 1 - 1e-10 → ∀ j, P.cfg.recFields[j]? = some (c% "el") →
    WordNear line j (Geo.elevation (Geo.up l b) (vec x) (vec s) * 180 / Real.pi) (3.1e6 / (Geo.len (vec s) - 6371000) + 6e-6)
  azimuth : ∀ l b h ls bs hs, StationAt x l b h → SatelliteAt s ls bs hs → 1e-12 ≤ Geo.dot (Geo.up l b) (Geo.up ls bs) →
    Geo.dot (Geo.up l b) (Geo.up ls bs) ^ 2 ≤ 1 - 1e-10 → ∀ D e n, e = Geo.dot (Geo.sub (vec s) (vec x)) (Geo.east l) → n = Geo.dot (Geo.sub (vec s) (vec x)) (Geo.north l b) →
    D = √(e ^ 2 + n ^ 2) → 1 ≤ D → ∀ a, Geo.IsDirection a e n → ∀ j, P.cfg.recFields[j]? = some (c% "az") →
    ∃ k : ℤ, WordNear line j (a + 360 * k) (6e-4 / D + 6e-6)

/-- the satellite columns against the ephemeris: the orbit of the Keplerian elements of a GPS, BeiDou or Galileo satellite `dt` seconds into the week (with the radius
corrected as in C68), the motion of a GLONASS or SBAS satellite `dt` seconds after the message -/
structure OrbitBack (P : Prm) (c : Char) (n : Int) (e : DateTime) (line : Str) : Prop where
  kepler : c = 'G' ∨ c = 'C' ∨ c = 'E' → ∀ dt (q : List Rat), EphemerisIs P c n e dt (q.map .fin) → ∀ (o : Geo.Elements) (iode : ℝ) (rest : List ℝ),
    (q.map fun x : Rat => (x : ℝ)) = iode :: o.layout ++ rest → Realistic o dt →
    ∃ tk E v, (tk = dt - o.toe ∨ tk = dt - o.toe - 604800 ∨ tk = dt - o.toe + 604800) ∧ |tk| ≤ 302400 + 1e-9 ∧
      Geo.Kepler o.e (Geo.meanAnomaly o tk) E ∧ Geo.TrueAnomaly o.e E v ∧
      WordsNear P line (c% "sat.x") (c% "sat.y") (c% "sat.z")
        (Geo.orbitPoint (Geo.radius o E v + 2 * o.sqrtA ^ 2 * o.e * Real.cos E) (Geo.argLat o v) (Geo.inclination o v tk) (Geo.nodeLon o tk)) 1.1e-4
  motion : c = 'R' ∨ c = 'S' → ∀ dt (q : List Rat), EphemerisIs P c n e dt (q.map .fin) → ∀ (p v w : Geo.Vec) (health freq : ℝ) (rest : List ℝ),
    (q.map fun x : Rat => (x : ℝ)) = Geo.broadcastLayout p v w health freq ++ rest → Geo.RealisticMessage p v w dt →
    WordsNear P line (c% "sat.x") (c% "sat.y") (c% "sat.z")
      (Geo.nystromStep (Geo.frozenAcc Geo.earthMu Geo.iccRadius Geo.iccJ2 Geo.earthOmega (Geo.len (Geo.scale 1000 p)) (Geo.scale 1000 v) (Geo.scale 1000 w))
        (Geo.scale 1000 p) (Geo.scale 1000 v) dt) 2.1e-6

/-- the columns of a satellite without position -/
def NoLook (P : Prm) (line : Str) : Prop :=
  WordsNear P line (c% "sat.x") (c% "sat.y") (c% "sat.z") (0, 0, 0) 0 ∧ ∀ col ∈ [c% "el", c% "az"], ∀ j, P.cfg.recFields[j]? = some col → WordNear line j 0 0

end Verif.Spec
