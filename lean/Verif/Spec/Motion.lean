import Verif.Spec.Geo
import Mathlib.Analysis.Calculus.Deriv.Basic
/-!
# Specification: motion under the equations of the GLONASS ICD
-/
namespace Verif.Spec.Geo
open Filter Topology

/-- the acceleration of the ICD with the distance from the centre kept at `r` and the velocity in the rotational term kept at `v` -/
noncomputable def frozenAcc (mu ae j2 om r : ℝ) (v w p : Vec) : Vec :=
  (-mu / r ^ 3 * p.1 - 3 / 2 * j2 * mu * ae ^ 2 / r ^ 5 * p.1 * (1 - 5 * p.2.2 ^ 2 / r ^ 2) + om ^ 2 * p.1 + 2 * om * v.2.1 + w.1,
   -mu / r ^ 3 * p.2.1 - 3 / 2 * j2 * mu * ae ^ 2 / r ^ 5 * p.2.1 * (1 - 5 * p.2.2 ^ 2 / r ^ 2) + om ^ 2 * p.2.1 - 2 * om * v.1 + w.2.1,
   -mu / r ^ 3 * p.2.2 - 3 / 2 * j2 * mu * ae ^ 2 / r ^ 5 * p.2.2 * (3 - 5 * p.2.2 ^ 2 / r ^ 2) + w.2.2)

theorem acceleration_frozen (mu ae j2 om : ℝ) (p v w : Vec) : acceleration mu ae j2 om p v w = frozenAcc mu ae j2 om (len p) v w p := rfl

/-- around the time 0, `Q` is a motion with the velocity `V` and the acceleration `F` -/
def Motion (F : Vec → Vec) (Q V : ℝ → Vec) : Prop := ∀ᶠ t in 𝓝 0, HasDerivAt Q (V t) t ∧ HasDerivAt V (F (Q t)) t

/-- around the time 0, `Q` is a motion with the velocity `V` under the equations of motion of the ICD, the broadcast luni-solar acceleration `w` kept constant as the ICD says -/
def IcdMotion (mu ae j2 om : ℝ) (w : Vec) (Q V : ℝ → Vec) : Prop :=
  ∀ᶠ t in 𝓝 0, HasDerivAt Q (V t) t ∧ HasDerivAt V (acceleration mu ae j2 om (Q t) (V t) w) t

/-- the rate at which the acceleration of the ICD changes through the distance from the centre (changing at the rate `rd`) and the velocity (changing with the acceleration `a`) alone,
that is, with the coordinates kept at `p` -/
noncomputable def missedRate (mu ae j2 om : ℝ) (p a : Vec) (rd : ℝ) : Vec :=
  let r := len p
  let s := 3 / 2 * j2 * mu * ae ^ 2
  ((3 * mu / r ^ 4 + 5 * s / r ^ 6 - 35 * s * p.2.2 ^ 2 / r ^ 8) * rd * p.1 + 2 * om * a.2.1,
   (3 * mu / r ^ 4 + 5 * s / r ^ 6 - 35 * s * p.2.2 ^ 2 / r ^ 8) * rd * p.2.1 - 2 * om * a.1,
   (3 * mu / r ^ 4 + 15 * s / r ^ 6 - 35 * s * p.2.2 ^ 2 / r ^ 8) * rd * p.2.2)

/-- from 15 minutes before to 15 minutes after the time 0, `Q` is the motion (m, s) of a GLONASS satellite with the velocity `V` under the equations of motion of the ICD: 25 to 26 thousand
kilometres from the centre, the distance changing by at most 20 metres in a second, with at most 4 km/s and 0.8 m/s² along each axis -/
structure GlonassMotion (w : Vec) (Q V : ℝ → Vec) : Prop where
  moves : ∀ t, |t| ≤ 900 → HasDerivAt Q (V t) t ∧ HasDerivAt V (acceleration earthMu iccRadius iccJ2 earthOmega (Q t) (V t) w) t
  distance : ∀ t, |t| ≤ 900 → 2.5e7 ≤ len (Q t) ∧ len (Q t) ≤ 2.6e7
  radial : ∀ t, |t| ≤ 900 → |len (Q t) - len (Q 0)| ≤ 20 * |t|
  velocity : |(V 0).1| ≤ 4000 ∧ |(V 0).2.1| ≤ 4000 ∧ |(V 0).2.2| ≤ 4000
  strength : ∀ t, |t| ≤ 900 → |(acceleration earthMu iccRadius iccJ2 earthOmega (Q t) (V t) w).1| ≤ 0.8 ∧ |(acceleration earthMu iccRadius iccJ2 earthOmega (Q t) (V t) w).2.1| ≤ 0.8 ∧
    |(acceleration earthMu iccRadius iccJ2 earthOmega (Q t) (V t) w).2.2| ≤ 0.8

def add (u v : Vec) : Vec := (u.1 + v.1, u.2.1 + v.2.1, u.2.2 + v.2.2)

/-- a point half a step on, for a motion from `p` with the velocity `v` and the constant acceleration `a` -/
noncomputable def halfway (p v a : Vec) (dt : ℝ) : Vec := add (add p (scale (dt / 2) v)) (scale (dt ^ 2 / 8) a)

/-- one step of a Nyström method for the acceleration `A`: the mean of `A` at the beginning and at two points half a step on -/
noncomputable def nystromStep (A : Vec → Vec) (p v : Vec) (dt : ℝ) : Vec :=
  let a1 := A p
  let a2 := A (halfway p v a1 dt)
  let a3 := A (halfway p v a2 dt)
  add (add p (scale dt v)) (scale (dt ^ 2 / 6) (add (add a1 a2) a3))

/-- the data are those of a message of a GLONASS or SBAS satellite (km, s), with wide margins, and the time is near that of the message -/
structure RealisticMessage (p v w : Vec) (dt : ℝ) : Prop where
  distance : 10000 ≤ len p ∧ len p ≤ 50000
  velocity : |v.1| ≤ 10 ∧ |v.2.1| ≤ 10 ∧ |v.2.2| ≤ 10
  acceleration : |w.1| ≤ 1e-3 ∧ |w.2.1| ≤ 1e-3 ∧ |w.2.2| ≤ 1e-3
  time : |dt| ≤ 1800

end Verif.Spec.Geo
