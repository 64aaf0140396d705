import Mathlib.Analysis.SpecialFunctions.Trigonometric.Arctan
/-!
# Specification: geodesy and orbits

Textbook definitions, independent of the code.  Lengths in metres, angles in radians unless said otherwise.
-/
namespace Verif.Spec.Geo
open Real

/-- vectors of space -/
abbrev Vec := ℝ × ℝ × ℝ

noncomputable def dot (u v : Vec) : ℝ := u.1 * v.1 + u.2.1 * v.2.1 + u.2.2 * v.2.2
noncomputable def len (u : Vec) : ℝ := √(dot u u)
def sub (u v : Vec) : Vec := (u.1 - v.1, u.2.1 - v.2.1, u.2.2 - v.2.2)
def scale (k : ℝ) (u : Vec) : Vec := (k * u.1, k * u.2.1, k * u.2.2)

/-- distance from the axis of rotation -/
noncomputable def axisDist (p : Vec) : ℝ := √(p.1 ^ 2 + p.2.1 ^ 2)

/-! ## the WGS84 ellipsoid -/

/-- major and minor semiaxis -/
noncomputable def semiMajor : ℝ := 6378137
noncomputable def semiMinor : ℝ := 6356752.314245

/-- square of the first eccentricity -/
noncomputable def ecc2 : ℝ := (semiMajor ^ 2 - semiMinor ^ 2) / semiMajor ^ 2

/-- radius of curvature in the prime vertical -/
noncomputable def primeVertical (b : ℝ) : ℝ := semiMajor / √(1 - ecc2 * sin b ^ 2)

/-- Cartesian coordinates of the point with longitude `l`, geodetic latitude `b` and height `h` -/
noncomputable def cartesian (l b h : ℝ) : Vec :=
  ((primeVertical b + h) * cos b * cos l, (primeVertical b + h) * cos b * sin l, (primeVertical b * (1 - ecc2) + h) * sin b)

/-- the local frame at longitude `l` and latitude `b`: up (the normal of the ellipsoid), east and north -/
noncomputable def up (l b : ℝ) : Vec := (cos b * cos l, cos b * sin l, sin b)
noncomputable def east (l : ℝ) : Vec := (-sin l, cos l, 0)
noncomputable def north (l b : ℝ) : Vec := (-(sin b * cos l), -(sin b * sin l), cos b)

/-- the angle (radians) at which the point `s` stands above the plane through `p` orthogonal to the unit vector `u` -/
noncomputable def elevation (u p s : Vec) : ℝ := arcsin (dot (sub s p) u / len (sub s p))

/-- the angle `deg` (degrees, from 0 to 360) has its sine proportional to `s` and its cosine proportional to `c` -/
def IsDirection (deg s c : ℝ) : Prop :=
  0 ≤ deg ∧ deg < 360 ∧ s = √(s ^ 2 + c ^ 2) * sin (deg * π / 180) ∧ c = √(s ^ 2 + c ^ 2) * cos (deg * π / 180)

/-! ## Kepler orbits -/

/-- `E` is the eccentric anomaly for the mean anomaly `M` and the eccentricity `e` -/
def Kepler (e M E : ℝ) : Prop := E - e * sin E = M

/-- Newton's method for Kepler's equation, starting from the mean anomaly -/
noncomputable def newton (e M : ℝ) : ℕ → ℝ
  | 0 => M
  | n + 1 => newton e M n - (newton e M n - e * sin (newton e M n) - M) / (1 - e * cos (newton e M n))

/-- distance from the focus in the orbit with semiaxis `a` and eccentricity `e` at the true anomaly `v` -/
noncomputable def orbitRadius (a e v : ℝ) : ℝ := a * (1 - e ^ 2) / (1 + e * cos v)

/-- `v` is the true anomaly for the eccentric anomaly `E` (position in the orbital plane relative to the focus, divided by the semiaxis) -/
def TrueAnomaly (e E v : ℝ) : Prop :=
  (1 - e * cos E) * cos v = cos E - e ∧ (1 - e * cos E) * sin v = √(1 - e ^ 2) * sin E

/-- the point at distance `r` from the centre and argument of latitude `u` in the orbital plane with inclination `i` and longitude of the ascending node `o` -/
noncomputable def orbitPoint (r u i o : ℝ) : Vec :=
  (r * (cos u * cos o - sin u * sin o * cos i), r * (cos u * sin o + sin u * cos o * cos i), r * (sin u * sin i))

/-- broadcast orbital elements (IS-GPS-200): square root of the semiaxis, eccentricity, mean anomaly, argument of perigee, inclination, longitude of the node,
their rates and the harmonic corrections, reference time (seconds of the week) -/
structure Elements where
  sqrtA : ℝ
  e : ℝ
  m0 : ℝ
  w : ℝ
  i0 : ℝ
  node : ℝ
  dn : ℝ
  nodeDot : ℝ
  iDot : ℝ
  cuc : ℝ
  cus : ℝ
  crc : ℝ
  crs : ℝ
  cic : ℝ
  cis : ℝ
  toe : ℝ

/-- the broadcast orbit in the order of a RINEX navigation file, from the second number of the first orbit line to the first of the fifth -/
def Elements.layout (o : Elements) : List ℝ :=
  [o.crs, o.dn, o.m0, o.cuc, o.e, o.cus, o.sqrtA, o.toe, o.cic, o.node, o.cis, o.i0, o.crc, o.w, o.nodeDot, o.iDot]

/-- gravitational constant times the mass of the Earth and the angular velocity of the Earth -/
noncomputable def earthMu : ℝ := 3.9860044e14
noncomputable def earthOmega : ℝ := 7.2921151467e-5

/-- mean anomaly at the time `tk` after the reference time -/
noncomputable def meanAnomaly (o : Elements) (tk : ℝ) : ℝ := o.m0 + (√(earthMu / (o.sqrtA ^ 2) ^ 3) + o.dn) * tk

/-- argument of latitude, radius, inclination, longitude of the node at the time `tk` for the true anomaly `v` (IS-GPS-200, table 20-IV) -/
noncomputable def argLat (o : Elements) (v : ℝ) : ℝ :=
  v + o.w + o.cus * sin (2 * (v + o.w)) + o.cuc * cos (2 * (v + o.w))
noncomputable def radius (o : Elements) (E v : ℝ) : ℝ :=
  o.sqrtA ^ 2 * (1 - o.e * cos E) + (o.crs * sin (2 * (v + o.w)) + o.crc * cos (2 * (v + o.w)))
noncomputable def inclination (o : Elements) (v tk : ℝ) : ℝ :=
  o.i0 + (o.cis * sin (2 * (v + o.w)) + o.cic * cos (2 * (v + o.w))) + o.iDot * tk
noncomputable def nodeLon (o : Elements) (tk : ℝ) : ℝ := o.node + (o.nodeDot - earthOmega) * tk - earthOmega * o.toe

/-- the reduction of a time difference to the week -/
def ToWeek (t tk : ℝ) : Prop :=
  (tk = t ∨ tk = t - 604800 ∨ tk = t + 604800) ∧ (|t| ≤ 907200 → |tk| ≤ 302400)

/-! ## Motion in the rotating frame, GLONASS ICD -/

/-- acceleration at the position `p` with the velocity `v`: central force, oblateness, rotation of the frame and the broadcast luni-solar term `w`
(GLONASS ICD 5.1, appendix 3) -/
noncomputable def acceleration (mu ae j2 om : ℝ) (p v w : Vec) : Vec :=
  let r := len p
  (-mu / r ^ 3 * p.1 - 3 / 2 * j2 * mu * ae ^ 2 / r ^ 5 * p.1 * (1 - 5 * p.2.2 ^ 2 / r ^ 2) + om ^ 2 * p.1 + 2 * om * v.2.1 + w.1,
   -mu / r ^ 3 * p.2.1 - 3 / 2 * j2 * mu * ae ^ 2 / r ^ 5 * p.2.1 * (1 - 5 * p.2.2 ^ 2 / r ^ 2) + om ^ 2 * p.2.1 - 2 * om * v.1 + w.2.1,
   -mu / r ^ 3 * p.2.2 - 3 / 2 * j2 * mu * ae ^ 2 / r ^ 5 * p.2.2 * (3 - 5 * p.2.2 ^ 2 / r ^ 2) + w.2.2)

/-- constants of the GLONASS ICD as used here: equatorial radius and second zonal harmonic -/
noncomputable def iccRadius : ℝ := 6378136
noncomputable def iccJ2 : ℝ := 1082.6257e-6

/-- a GLONASS or SBAS message in the order of a RINEX navigation file: position, velocity and acceleration in kilometres and seconds, `health` and `freq` between -/
def broadcastLayout (p v w : Vec) (health freq : ℝ) : List ℝ :=
  [p.1, v.1, w.1, health, p.2.1, v.2.1, w.2.1, freq, p.2.2, v.2.2, w.2.2]

end Verif.Spec.Geo
