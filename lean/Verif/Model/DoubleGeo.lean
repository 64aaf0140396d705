import Verif.Py.Binary64
import Verif.Py.Err
/-!
# Model of `tecs/sat/` with rounding

The same code as in `Model/Geo`, with the result of every operation rounded by an arithmetic `F`.  Overflow, NaN and the sign of zero are not modelled.
-/
namespace Verif.Model.DoubleGeo
open Verif.Py

/-- `/` on floats, as in `/repo/tecs/sat/gps.py:83,102,106-107` -/
noncomputable def divF (F : Flt) (x y : ℝ) : Except PyErr ℝ :=
  open Classical in if y = 0 then .error .zeroDiv else .ok (F.rnd (x / y))

/-- `math.sqrt`, as in `/repo/tecs/sat/gps.py:83,106` -/
noncomputable def sqrtF (F : Flt) (x : ℝ) : Except PyErr ℝ :=
  open Classical in if x < 0 then .error .value else .ok (F.rnd √x)

/-- `mu`, `/repo/tecs/sat/datum.py:43` -/
noncomputable def mu (F : Flt) : ℝ := F.rnd 398600.44e+9
/-- `omega`, `/repo/tecs/sat/datum.py:55` -/
noncomputable def omega (F : Flt) : ℝ := F.rnd 7.2921151467e-5

/-- the loop of `compute_sat_xyz` (`/repo/tecs/sat/gps.py:93-104`) with the value of `ek` at its end; `none` while it runs on after `fuel` passes -/
noncomputable def keplerLoopF (F : Flt) : ℕ → ℝ → ℝ → ℝ → ℝ → ℝ → ℝ → Except PyErr (Option ℝ)
  | fuel, e0, mk, ek, ek1, prv, cur =>
    open Classical in
    if prv = cur then .ok (some ek)
    else match fuel with
      | 0 => .ok none
      | fuel + 1 =>
        match divF F (F.rnd (F.rnd (ek - F.rnd (e0 * F.sin ek)) - mk)) (F.rnd (1 - F.rnd (e0 * F.cos ek))) with
        | .error er => .error er
        | .ok d => keplerLoopF F fuel e0 mk (F.rnd (ek - d)) ek |F.rnd (ek - ek1)| |F.rnd (F.rnd (ek - d) - ek)|

/-- the part of `compute_sat_xyz` after the loop (`/repo/tecs/sat/gps.py:106-123`), as a function of the variables it uses -/
noncomputable def gpsAfterF (F : Flt) (crs cuc e0 cus a0 toe cic omega0 cis i0 crc w0 omegaDot iDot tk ek : ℝ) : Except PyErr (ℝ × ℝ × ℝ) :=
  match sqrtF F (F.rnd (1 - F.pow e0 2)) with
  | .error er => .error er
  | .ok w =>
    match divF F (F.rnd (w * F.sin ek)) (F.rnd (1 - F.rnd (e0 * F.cos ek))) with
    | .error er => .error er
    | .ok fs =>
      match divF F (F.rnd (F.cos ek - e0)) (F.rnd (1 - F.rnd (e0 * F.cos ek))) with
      | .error er => .error er
      | .ok fc =>
        let tettak := F.atan2 fs fc
        let u0k := F.rnd (tettak + w0)
        let c2 := F.cos (F.rnd (2 * u0k))
        let s2 := F.sin (F.rnd (2 * u0k))
        let uk := F.rnd (F.rnd (u0k + F.rnd (cuc * c2)) + F.rnd (cus * s2))
        let rk := F.rnd (F.rnd (F.rnd (a0 * F.rnd (1 + F.rnd (e0 * F.cos ek))) + F.rnd (crc * c2)) + F.rnd (crs * s2))
        let ik := F.rnd (F.rnd (i0 + F.rnd (F.rnd (cic * c2) + F.rnd (cis * s2))) + F.rnd (iDot * tk))
        let omegaK := F.rnd (F.rnd (omega0 + F.rnd (F.rnd (omegaDot - omega F) * tk)) - F.rnd (omega F * toe))
        .ok (F.rnd (rk * F.rnd (F.rnd (F.cos uk * F.cos omegaK) - F.rnd (F.rnd (F.sin uk * F.sin omegaK) * F.cos ik))),
          F.rnd (rk * F.rnd (F.rnd (F.cos uk * F.sin omegaK) + F.rnd (F.rnd (F.sin uk * F.cos omegaK) * F.cos ik))),
          F.rnd (F.rnd (rk * F.sin uk) * F.sin ik))

/-- `tk` (`/repo/tecs/sat/gps.py:75-80`) -/
noncomputable def tkF (F : Flt) (sec toe : ℝ) : ℝ :=
  open Classical in
  if F.rnd (sec - toe) > 302400 then F.rnd (F.rnd (sec - toe) - 604800)
  else if F.rnd (sec - toe) < -302400 then F.rnd (F.rnd (sec - toe) + 604800) else F.rnd (sec - toe)

/-- `gps.compute_sat_xyz` (`/repo/tecs/sat/gps.py:41-123`) -/
noncomputable def gpsSatXyzF (F : Flt) (fuel : ℕ) (ephemeris : List ℝ) (sec : ℝ) : Except PyErr (Option (ℝ × ℝ × ℝ)) :=
  match ephemeris with
  | _ :: crs :: dn :: m0 :: cuc :: e0 :: cus :: sqrtA :: toe :: cic :: omega0 :: cis :: i0 :: crc :: w0 :: omegaDot :: iDot :: _ =>
    let a0 := F.pow sqrtA 2
    let tk := tkF F sec toe
    match divF F (mu F) (F.pow a0 3) with
    | .error er => .error er
    | .ok q =>
      match sqrtF F q with
      | .error er => .error er
      | .ok n0 =>
        let n := F.rnd (n0 + dn)
        let mk := F.rnd (m0 + F.rnd (n * tk))
        match keplerLoopF F fuel e0 mk mk (F.rnd (mk + 1)) 0 1 with
        | .error er => .error er
        | .ok none => .ok none
        | .ok (some ek) =>
          match gpsAfterF F crs cuc e0 cus a0 toe cic omega0 cis i0 crc w0 omegaDot iDot tk ek with
          | .error er => .error er
          | .ok p => .ok (some p)
  | _ => .error .index

/-! ## `/repo/tecs/sat/glonass.py`, `/repo/tecs/sat/geo.py` -/

/-- `J0sqd`, `/repo/tecs/sat/datum.py:49` -/
noncomputable def j0sqd (F : Flt) : ℝ := F.rnd 1082625.7e-9

/-- the terms common to `fx`, `fy`, `fz` (`/repo/tecs/sat/glonass.py:91-102`): attraction and oblateness, with `k` = 1 (x, y) or 3 (z).
The divisor `r ** 2` is not zero where `r ** 3` is not. -/
noncomputable def attractF (F : Flt) (firstSd secondSd r k x z : ℝ) : ℝ :=
  F.rnd (F.rnd (firstSd * x) - F.rnd (F.rnd (secondSd * x) * F.rnd (k - F.rnd (F.rnd (5 * F.pow z 2) / F.pow r 2))))

/-- `fx` (`/repo/tecs/sat/glonass.py:91-93`) -/
noncomputable def fxF (F : Flt) (firstSd secondSd r vY aX x z : ℝ) : ℝ :=
  F.rnd (F.rnd (F.rnd (attractF F firstSd secondSd r 1 x z + F.rnd (F.pow (omega F) 2 * x)) + F.rnd (F.rnd (2 * omega F) * vY)) + aX)

/-- `fy` (`/repo/tecs/sat/glonass.py:96-98`) -/
noncomputable def fyF (F : Flt) (firstSd secondSd r vX aY y z : ℝ) : ℝ :=
  F.rnd (F.rnd (F.rnd (attractF F firstSd secondSd r 1 y z + F.rnd (F.pow (omega F) 2 * y)) - F.rnd (F.rnd (2 * omega F) * vX)) + aY)

/-- `fz` (`/repo/tecs/sat/glonass.py:101-102`) -/
noncomputable def fzF (F : Flt) (firstSd secondSd r aZ z : ℝ) : ℝ := F.rnd (attractF F firstSd secondSd r 3 z z + aZ)

/-- a coordinate of the second or third stage (`/repo/tecs/sat/glonass.py:118-120,127-129`) -/
noncomputable def stageF (F : Flt) (x0 v k dt : ℝ) : ℝ := F.rnd (F.rnd (x0 + F.rnd (F.rnd (v * dt) / 2)) + F.rnd (F.rnd (k * dt) / 8))

/-- a coordinate of the result (`/repo/tecs/sat/glonass.py:137-141`) -/
noncomputable def resultF (F : Flt) (x0 v k1 k2 k3 dt : ℝ) : ℝ :=
  F.rnd (F.rnd (x0 + F.rnd (v * dt)) + F.rnd (F.rnd (F.rnd (F.rnd (k1 + k2) + k3) * dt) / 6))

/-- `glonass.compute_sat_xyz` (`/repo/tecs/sat/glonass.py:44-143`); `geo.compute_sat_xyz` (`/repo/tecs/sat/geo.py:35-133`) is the same code, and not used by the program.
`ae ** 2` is computed with whole numbers. -/
noncomputable def glonassSatXyzF (F : Flt) (eph : List ℝ) (dt : ℝ) : Except PyErr (ℝ × ℝ × ℝ) :=
  match eph with
  | e0 :: e1 :: e2 :: _ :: e4 :: e5 :: e6 :: _ :: e8 :: e9 :: e10 :: _ =>
    let x0 := F.rnd (e0 * 1000)
    let vX := F.rnd (e1 * 1000)
    let aX := F.rnd (e2 * 1000)
    let y0 := F.rnd (e4 * 1000)
    let vY := F.rnd (e5 * 1000)
    let aY := F.rnd (e6 * 1000)
    let z0 := F.rnd (e8 * 1000)
    let vZ := F.rnd (e9 * 1000)
    let aZ := F.rnd (e10 * 1000)
    open Classical in
    if dt = 0 then .ok (x0, y0, z0)
    else
      match sqrtF F (F.rnd (F.rnd (F.pow x0 2 + F.pow y0 2) + F.pow z0 2)) with
      | .error er => .error er
      | .ok r =>
        match divF F (mu F) (F.pow r 3) with
        | .error er => .error er
        | .ok q =>
          match divF F (F.rnd (F.rnd (F.rnd (F.rnd (3 / 2) * j0sqd F) * mu F) * 6378136 ^ 2)) (F.pow r 5) with
          | .error er => .error er
          | .ok s =>
            let kx1 := F.rnd (fxF F (-q) s r vY aX x0 z0 * dt)
            let ky1 := F.rnd (fyF F (-q) s r vX aY y0 z0 * dt)
            let kz1 := F.rnd (fzF F (-q) s r aZ z0 * dt)
            let x1 := stageF F x0 vX kx1 dt
            let y1 := stageF F y0 vY ky1 dt
            let z1 := stageF F z0 vZ kz1 dt
            let kx2 := F.rnd (fxF F (-q) s r vY aX x1 z1 * dt)
            let ky2 := F.rnd (fyF F (-q) s r vX aY y1 z1 * dt)
            let kz2 := F.rnd (fzF F (-q) s r aZ z1 * dt)
            let x2 := stageF F x0 vX kx2 dt
            let y2 := stageF F y0 vY ky2 dt
            let z2 := stageF F z0 vZ kz2 dt
            let kx3 := F.rnd (fxF F (-q) s r vY aX x2 z2 * dt)
            let ky3 := F.rnd (fyF F (-q) s r vX aY y2 z2 * dt)
            let kz3 := F.rnd (fzF F (-q) s r aZ z2 * dt)
            .ok (resultF F x0 vX kx1 kx2 kx3 dt, resultF F y0 vY ky1 ky2 ky3 dt, resultF F z0 vZ kz1 kz2 kz3 dt)
  | _ => .error .index

/-! ## `/repo/tecs/sat/common.py` -/

/-- `a`, `/repo/tecs/sat/datum.py:32` (a whole number, exact) -/
noncomputable def datumA : ℝ := 6378137
/-- `b`, `/repo/tecs/sat/datum.py:33` -/
noncomputable def datumB (F : Flt) : ℝ := F.rnd 6356752.314245
/-- `e = sqrt(1 - pow(b, 2)/pow(a, 2))`, `/repo/tecs/sat/datum.py:36`; computed when the module is imported, exceptions left out -/
noncomputable def datumE (F : Flt) : ℝ := F.rnd √(F.rnd (1 - F.rnd (F.pow (datumB F) 2 / F.pow datumA 2)))

/-- the loop of `xyz2lbh` (`/repo/tecs/sat/common.py:84-96`), with the values of `Bi1` and `N` at its end -/
noncomputable def latLoopF (F : Flt) : ℕ → ℝ → ℝ → ℝ → Except PyErr (Option (ℝ × ℝ))
  | 0, _, _, _ => .ok none
  | fuel + 1, Q, z, Bi =>
    match sqrtF F (F.rnd (1 - F.rnd (F.pow (datumE F) 2 * F.pow (F.sin Bi) 2))) with
    | .error er => .error er
    | .ok W =>
      match divF F datumA W with
      | .error er => .error er
      | .ok N =>
        let T := F.rnd (z + F.rnd (F.rnd (N * F.pow (datumE F) 2) * F.sin Bi))
        let Bi1 := F.atan2 T Q
        open Classical in
        if |F.rnd (Bi1 - Bi)| ≤ F.rnd 1e-12 then .ok (some (Bi1, N)) else latLoopF F fuel Q z Bi1

/-- the longitude in `xyz2lbh` (`/repo/tecs/sat/common.py:70-76`) -/
noncomputable def lonF (F : Flt) (x y : ℝ) : ℝ :=
  open Classical in
  if x = 0 then (if y > 0 then F.rnd (F.rnd Real.pi / 2) else F.rnd (F.rnd (3 * F.rnd Real.pi) / 2)) else F.atan2 y x

/-- `xyz2lbh` (`/repo/tecs/sat/common.py:37-101`) -/
noncomputable def xyz2lbhF (F : Flt) (fuel : ℕ) (x y z : ℝ) : Except PyErr (Option (ℝ × ℝ × ℝ)) :=
  match sqrtF F (F.rnd (F.pow x 2 + F.pow y 2)) with
  | .error er => .error er
  | .ok Q =>
    let L := lonF F x y
    match divF F z Q with
    | .error er => .error er
    | .ok t =>
      match divF F (F.rnd (t * 1)) (F.rnd (1 - F.pow (datumE F) 2)) with
      | .error er => .error er
      | .ok Bi =>
        match latLoopF F fuel Q z Bi with
        | .error er => .error er
        | .ok none => .ok none
        | .ok (some (B, N)) =>
          let H := F.rnd (F.rnd (F.rnd (Q * F.cos B) + F.rnd (z * F.sin B)) - F.rnd (N * F.rnd (1 - F.rnd (F.pow (datumE F) 2 * F.pow (F.sin B) 2))))
          .ok (some (L, B, H))

/-- `compute_el_az` (`/repo/tecs/sat/common.py:104-155`) -/
noncomputable def computeElAzF (F : Flt) (fuel : ℕ) (obs sat : ℝ × ℝ × ℝ) : Except PyErr (Option (ℝ × ℝ)) :=
  let (x0, y0, z0) := obs
  let (xs, ys, zs) := sat
  match xyz2lbhF F fuel x0 y0 z0 with
  | .error er => .error er
  | .ok none => .ok none
  | .ok (some (l0, b0, _)) =>
    match xyz2lbhF F fuel xs ys zs with
    | .error er => .error er
    | .ok none => .ok none
    | .ok (some (ls, bs, _)) =>
      match sqrtF F (F.rnd (F.rnd (F.pow xs 2 + F.pow ys 2) + F.pow zs 2)) with
      | .error er => .error er
      | .ok rk =>
        let c := F.rnd (F.rnd (F.sin b0 * F.sin bs) + F.rnd (F.rnd (F.cos b0 * F.cos bs) * F.cos (F.rnd (ls - l0))))
        match sqrtF F (F.rnd (1 - F.pow c 2)) with
        | .error er => .error er
        | .ok s =>
          match divF F s c with
          | .error er => .error er
          | .ok q =>
            let sigma := F.atan q
            let xt := F.rnd (F.rnd (-F.rnd (xs - x0) * F.sin l0) + F.rnd (F.rnd (ys - y0) * F.cos l0))
            let yt := F.rnd (F.rnd (F.rnd (F.rnd (-F.rnd (xs - x0) * F.cos l0) * F.sin b0) - F.rnd (F.rnd (F.rnd (ys - y0) * F.sin l0) * F.sin b0)) +
              F.rnd (F.rnd (zs - z0) * F.cos b0))
            match divF F 6371000 rk with
            | .error er => .error er
            | .ok w =>
              match divF F (F.rnd (F.cos sigma - w)) (F.sin sigma) with
              | .error er => .error er
              | .ok t =>
                let el := F.rnd (F.atan t * F.rnd (180 / F.rnd Real.pi))
                let az := F.rnd (F.atan2 xt yt * F.rnd (180 / F.rnd Real.pi))
                open Classical in
                .ok (some (el, if az < 0 then F.rnd (az + 360) else az))

/-- `xyz2lbh_deg` (`/repo/tecs/sat/common.py:158-177`).  Of the `ArithmeticError` family only `ZeroDivisionError` occurs in the model. -/
noncomputable def xyz2lbhDegF (F : Flt) (fuel : ℕ) (x y z : ℝ) : Except PyErr (Option (ℝ × ℝ × ℝ)) :=
  match xyz2lbhF F fuel x y z with
  | .error .zeroDiv => .ok (some (0, 0, 0))
  | .error .overflow => .ok (some (0, 0, 0))
  | .error er => .error er
  | .ok none => .ok none
  | .ok (some (l, b, h)) =>
    let l' := F.rnd (F.rnd (l * 180) / F.rnd Real.pi)
    let b' := F.rnd (F.rnd (b * 180) / F.rnd Real.pi)
    open Classical in
    .ok (some (if l' < 0 then F.rnd (l' + 360) else l', b', h))

end Verif.Model.DoubleGeo
