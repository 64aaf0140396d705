import Mathlib.Analysis.SpecialFunctions.Complex.Arg
import Mathlib.Analysis.SpecialFunctions.Trigonometric.Arctan
import Verif.Py.Err
/-!
# Model of `tecs/sat/` (coordinates, elevation and azimuth, satellite positions)

Numbers are real numbers: floating-point rounding, overflow, infinities and signed zeros are not modelled.  `math.sqrt` and `/` raise as in Python
(`ValueError`, `ZeroDivisionError`).  The two `while` loops get a bound on the number of passes; the result is `none` while the loop is still running after
that many passes.
-/
namespace Verif.Model.Geo
open Verif.Py Real

/-- `math.atan2`, called in `/repo/tecs/sat/common.py:76,89,146`, `/repo/tecs/sat/gps.py:108` -/
noncomputable def atan2 (y x : ℝ) : ℝ := Complex.arg ⟨x, y⟩

/-- `/` on floats, as in `/repo/tecs/sat/common.py:86-140` -/
noncomputable def pyDiv (x y : ℝ) : Except PyErr ℝ :=
  open Classical in if y = 0 then .error .zeroDiv else .ok (x / y)

/-- `math.sqrt`, as in `/repo/tecs/sat/common.py:67,85,133-136` -/
noncomputable def pySqrt (x : ℝ) : Except PyErr ℝ :=
  open Classical in if x < 0 then .error .value else .ok √x

/-! ## `/repo/tecs/sat/datum.py` -/

/-- `a`, `/repo/tecs/sat/datum.py:32` -/
noncomputable def datumA : ℝ := 6378137
/-- `b`, `/repo/tecs/sat/datum.py:33` -/
noncomputable def datumB : ℝ := 6356752.314245
/-- `e = sqrt(1 - pow(b, 2)/pow(a, 2))`, `/repo/tecs/sat/datum.py:36` -/
noncomputable def datumE : ℝ := √(1 - datumB ^ 2 / datumA ^ 2)
/-- `r_e`, `/repo/tecs/sat/datum.py:40` -/
noncomputable def datumRe : ℝ := 6371e3
/-- `mu`, `/repo/tecs/sat/datum.py:43` -/
noncomputable def datumMu : ℝ := 398600.44e+9
/-- `ae`, `/repo/tecs/sat/datum.py:46` -/
noncomputable def datumAe : ℝ := 6378136
/-- `J0sqd`, `/repo/tecs/sat/datum.py:49` -/
noncomputable def datumJ0sqd : ℝ := 1082625.7e-9
/-- `omega`, `/repo/tecs/sat/datum.py:55` -/
noncomputable def datumOmega : ℝ := 7.2921151467e-5

/-! ## `/repo/tecs/sat/common.py` -/

/-- the loop of `xyz2lbh` (`/repo/tecs/sat/common.py:84-96`), with the values of `Bi1` and `N` at its end -/
noncomputable def latLoop : ℕ → ℝ → ℝ → ℝ → Except PyErr (Option (ℝ × ℝ))
  | 0, _, _, _ => .ok none
  | fuel + 1, Q, z, Bi =>
    match pySqrt (1 - datumE ^ 2 * sin Bi ^ 2) with
    | .error er => .error er
    | .ok W =>
      match pyDiv datumA W with
      | .error er => .error er
      | .ok N =>
        let T := z + N * datumE ^ 2 * sin Bi
        let Bi1 := atan2 T Q
        open Classical in
        if |Bi1 - Bi| ≤ 1e-12 then .ok (some (Bi1, N)) else latLoop fuel Q z Bi1

/-- `xyz2lbh` (`/repo/tecs/sat/common.py:37-101`) -/
noncomputable def xyz2lbh (fuel : ℕ) (x y z : ℝ) : Except PyErr (Option (ℝ × ℝ × ℝ)) :=
  match pySqrt (x ^ 2 + y ^ 2) with
  | .error er => .error er
  | .ok Q =>
    open Classical in
    let L := if x = 0 then (if y > 0 then π / 2 else 3 * π / 2) else atan2 y x
    match pyDiv z Q with
    | .error er => .error er
    | .ok t =>
      match pyDiv (t * 1) (1 - datumE ^ 2) with
      | .error er => .error er
      | .ok Bi =>
        match latLoop fuel Q z Bi with
        | .error er => .error er
        | .ok none => .ok none
        | .ok (some (B, N)) =>
          let H := Q * cos B + z * sin B - N * (1 - datumE ^ 2 * sin B ^ 2)
          .ok (some (L, B, H))

/-- `xyz2lbh_deg` (`/repo/tecs/sat/common.py:158-177`).  Of the `ArithmeticError` family only `ZeroDivisionError` exists over the reals. -/
noncomputable def xyz2lbhDeg (fuel : ℕ) (x y z : ℝ) : Except PyErr (Option (ℝ × ℝ × ℝ)) :=
  match xyz2lbh fuel x y z with
  | .error .zeroDiv => .ok (some (0, 0, 0))
  | .error .overflow => .ok (some (0, 0, 0))
  | .error er => .error er
  | .ok none => .ok none
  | .ok (some (l, b, h)) =>
    let l' := l * 180 / π
    let b' := b * 180 / π
    open Classical in
    .ok (some (if l' < 0 then l' + 360 else l', b', h))

/-- `compute_el_az` (`/repo/tecs/sat/common.py:104-155`) -/
noncomputable def computeElAz (fuel : ℕ) (obs sat : ℝ × ℝ × ℝ) : Except PyErr (Option (ℝ × ℝ)) :=
  let (x0, y0, z0) := obs
  let (xs, ys, zs) := sat
  match xyz2lbh fuel x0 y0 z0 with
  | .error er => .error er
  | .ok none => .ok none
  | .ok (some (l0, b0, _)) =>
    match xyz2lbh fuel xs ys zs with
    | .error er => .error er
    | .ok none => .ok none
    | .ok (some (ls, bs, _)) =>
      match pySqrt (xs ^ 2 + ys ^ 2 + zs ^ 2) with
      | .error er => .error er
      | .ok rk =>
        let c := sin b0 * sin bs + cos b0 * cos bs * cos (ls - l0)
        match pySqrt (1 - c ^ 2) with
        | .error er => .error er
        | .ok s =>
          match pyDiv s c with
          | .error er => .error er
          | .ok q =>
            let sigma := arctan q
            let xt := -(xs - x0) * sin l0 + (ys - y0) * cos l0
            let yt := -(xs - x0) * cos l0 * sin b0 - (ys - y0) * sin l0 * sin b0 + (zs - z0) * cos b0
            match pyDiv datumRe rk with
            | .error er => .error er
            | .ok w =>
              match pyDiv (cos sigma - w) (sin sigma) with
              | .error er => .error er
              | .ok t =>
                let el := arctan t * (180 / π)
                let az := atan2 xt yt * (180 / π)
                open Classical in
                .ok (some (el, if az < 0 then az + 360 else az))

/-! ## `/repo/tecs/sat/gps.py` -/

/-- the loop of `compute_sat_xyz` (`/repo/tecs/sat/gps.py:93-104`) with the value of `ek` at its end -/
noncomputable def keplerLoop : ℕ → ℝ → ℝ → ℝ → ℝ → ℝ → ℝ → Except PyErr (Option ℝ)
  | fuel, e0, mk, ek, ek1, prv, cur =>
    open Classical in
    if prv = cur then .ok (some ek)
    else match fuel with
      | 0 => .ok none
      | fuel + 1 =>
        match pyDiv (ek - e0 * sin ek - mk) (1 - e0 * cos ek) with
        | .error er => .error er
        | .ok d => keplerLoop fuel e0 mk (ek - d) ek |ek - ek1| |ek - d - ek|

/-- the part of `compute_sat_xyz` after the loop (`/repo/tecs/sat/gps.py:106-123`), as a function of the variables it uses -/
noncomputable def gpsAfter (crs cuc e0 cus a0 toe cic omega0 cis i0 crc w0 omegaDot iDot tk ek : ℝ) : Except PyErr (ℝ × ℝ × ℝ) :=
  match pySqrt (1 - e0 ^ 2) with
  | .error er => .error er
  | .ok w =>
    match pyDiv (w * sin ek) (1 - e0 * cos ek) with
    | .error er => .error er
    | .ok fs =>
      match pyDiv (cos ek - e0) (1 - e0 * cos ek) with
      | .error er => .error er
      | .ok fc =>
        let tettak := atan2 fs fc
        let u0k := tettak + w0
        let uk := u0k + cuc * cos (2 * u0k) + cus * sin (2 * u0k)
        let rk := a0 * (1 + e0 * cos ek) + crc * cos (2 * u0k) + crs * sin (2 * u0k)
        let ik := i0 + (cic * cos (2 * u0k) + cis * sin (2 * u0k)) + iDot * tk
        let omegaK := omega0 + (omegaDot - datumOmega) * tk - datumOmega * toe
        .ok (rk * (cos uk * cos omegaK - sin uk * sin omegaK * cos ik),
          rk * (cos uk * sin omegaK + sin uk * cos omegaK * cos ik), rk * sin uk * sin ik)

/-- `gps.compute_sat_xyz` (`/repo/tecs/sat/gps.py:41-123`) -/
noncomputable def gpsSatXyz (fuel : ℕ) (ephemeris : List ℝ) (sec : ℝ) : Except PyErr (Option (ℝ × ℝ × ℝ)) :=
  match ephemeris with
  | _ :: crs :: dn :: m0 :: cuc :: e0 :: cus :: sqrtA :: toe :: cic :: omega0 :: cis :: i0 :: crc :: w0 :: omegaDot :: iDot :: _ =>
    let a0 := sqrtA ^ 2
    open Classical in
    let tk := if sec - toe > 302400 then sec - toe - 604800 else if sec - toe < -302400 then sec - toe + 604800 else sec - toe
    match pyDiv datumMu (a0 ^ 3) with
    | .error er => .error er
    | .ok q =>
      match pySqrt q with
      | .error er => .error er
      | .ok n0 =>
        let n := n0 + dn
        let mk := m0 + n * tk
        match keplerLoop fuel e0 mk mk (mk + 1) 0 1 with
        | .error er => .error er
        | .ok none => .ok none
        | .ok (some ek) =>
          match gpsAfter crs cuc e0 cus a0 toe cic omega0 cis i0 crc w0 omegaDot iDot tk ek with
          | .error er => .error er
          | .ok p => .ok (some p)
  | _ => .error .index

/-! ## `/repo/tecs/sat/glonass.py`, `/repo/tecs/sat/geo.py` -/

/-- `glonass.compute_sat_xyz` (`/repo/tecs/sat/glonass.py:44-143`).  The `dict`s of the stages are variables. -/
noncomputable def glonassSatXyz (eph : List ℝ) (dt : ℝ) : Except PyErr (ℝ × ℝ × ℝ) :=
  match eph with
  | e0 :: e1 :: e2 :: _ :: e4 :: e5 :: e6 :: _ :: e8 :: e9 :: e10 :: _ =>
    let x0 := e0 * 1000
    let vX := e1 * 1000
    let aX := e2 * 1000
    let y0 := e4 * 1000
    let vY := e5 * 1000
    let aY := e6 * 1000
    let z0 := e8 * 1000
    let vZ := e9 * 1000
    let aZ := e10 * 1000
    open Classical in
    if dt = 0 then .ok (x0, y0, z0)
    else
      match pySqrt (x0 ^ 2 + y0 ^ 2 + z0 ^ 2) with
      | .error er => .error er
      | .ok r =>
        match pyDiv datumMu (r ^ 3) with
        | .error er => .error er
        | .ok q =>
          let firstSd := -q
          match pyDiv (3 / 2 * datumJ0sqd * datumMu * datumAe ^ 2) (r ^ 5) with
          | .error er => .error er
          | .ok secondSd =>
            let fx := fun x z : ℝ => firstSd * x - secondSd * x * (1 - 5 * z ^ 2 / r ^ 2) + datumOmega ^ 2 * x + 2 * datumOmega * vY + aX
            let fy := fun y z : ℝ => firstSd * y - secondSd * y * (1 - 5 * z ^ 2 / r ^ 2) + datumOmega ^ 2 * y - 2 * datumOmega * vX + aY
            let fz := fun z : ℝ => firstSd * z - secondSd * z * (3 - 5 * z ^ 2 / r ^ 2) + aZ
            let kx1 := fx x0 z0 * dt
            let ky1 := fy y0 z0 * dt
            let kz1 := fz z0 * dt
            let x1 := x0 + vX * dt / 2 + kx1 * dt / 8
            let y1 := y0 + vY * dt / 2 + ky1 * dt / 8
            let z1 := z0 + vZ * dt / 2 + kz1 * dt / 8
            let kx2 := fx x1 z1 * dt
            let ky2 := fy y1 z1 * dt
            let kz2 := fz z1 * dt
            let x2 := x0 + vX * dt / 2 + kx2 * dt / 8
            let y2 := y0 + vY * dt / 2 + ky2 * dt / 8
            let z2 := z0 + vZ * dt / 2 + kz2 * dt / 8
            let kx3 := fx x2 z2 * dt
            let ky3 := fy y2 z2 * dt
            let kz3 := fz z2 * dt
            .ok (x0 + vX * dt + (kx1 + kx2 + kx3) * dt / 6, y0 + vY * dt + (ky1 + ky2 + ky3) * dt / 6, z0 + vZ * dt + (kz1 + kz2 + kz3) * dt / 6)
  | _ => .error .index

/-- `geo.compute_sat_xyz` (`/repo/tecs/sat/geo.py:35-133`).  The `dict`s of the stages are variables. -/
noncomputable def geoSatXyz (eph : List ℝ) (dt : ℝ) : Except PyErr (ℝ × ℝ × ℝ) :=
  match eph with
  | e0 :: e1 :: e2 :: _ :: e4 :: e5 :: e6 :: _ :: e8 :: e9 :: e10 :: _ =>
    let x0 := e0 * 1000
    let vX := e1 * 1000
    let aX := e2 * 1000
    let y0 := e4 * 1000
    let vY := e5 * 1000
    let aY := e6 * 1000
    let z0 := e8 * 1000
    let vZ := e9 * 1000
    let aZ := e10 * 1000
    open Classical in
    if dt = 0 then .ok (x0, y0, z0)
    else
      match pySqrt (x0 ^ 2 + y0 ^ 2 + z0 ^ 2) with
      | .error er => .error er
      | .ok r =>
        match pyDiv datumMu (r ^ 3) with
        | .error er => .error er
        | .ok q =>
          let firstSd := -q
          match pyDiv (3 / 2 * datumJ0sqd * datumMu * datumAe ^ 2) (r ^ 5) with
          | .error er => .error er
          | .ok secondSd =>
            let fx := fun x z : ℝ => firstSd * x - secondSd * x * (1 - 5 * z ^ 2 / r ^ 2) + datumOmega ^ 2 * x + 2 * datumOmega * vY + aX
            let fy := fun y z : ℝ => firstSd * y - secondSd * y * (1 - 5 * z ^ 2 / r ^ 2) + datumOmega ^ 2 * y - 2 * datumOmega * vX + aY
            let fz := fun z : ℝ => firstSd * z - secondSd * z * (3 - 5 * z ^ 2 / r ^ 2) + aZ
            let kx1 := fx x0 z0 * dt
            let ky1 := fy y0 z0 * dt
            let kz1 := fz z0 * dt
            let x1 := x0 + vX * dt / 2 + kx1 * dt / 8
            let y1 := y0 + vY * dt / 2 + ky1 * dt / 8
            let z1 := z0 + vZ * dt / 2 + kz1 * dt / 8
            let kx2 := fx x1 z1 * dt
            let ky2 := fy y1 z1 * dt
            let kz2 := fz z1 * dt
            let x2 := x0 + vX * dt / 2 + kx2 * dt / 8
            let y2 := y0 + vY * dt / 2 + ky2 * dt / 8
            let z2 := z0 + vZ * dt / 2 + kz2 * dt / 8
            let kx3 := fx x2 z2 * dt
            let ky3 := fy y2 z2 * dt
            let kz3 := fz z2 * dt
            .ok (x0 + vX * dt + (kx1 + kx2 + kx3) * dt / 6, y0 + vY * dt + (ky1 + ky2 + ky3) * dt / 6, z0 + vZ * dt + (kz1 + kz2 + kz3) * dt / 6)
  | _ => .error .index

/-- `compute_sat_xyz` of `/repo/tecs/__main__.py:192-199`: the function of each system (`S` uses that of GLONASS) -/
noncomputable def satXyz (fuel : ℕ) (system : Char) (eph : List ℝ) (sec : ℝ) : Except PyErr (Option (ℝ × ℝ × ℝ)) :=
  if system = 'G' ∨ system = 'C' ∨ system = 'E' then gpsSatXyz fuel eph sec
  else if system = 'R' ∨ system = 'S' then (glonassSatXyz eph sec).map some
  else .error .key

end Verif.Model.Geo
