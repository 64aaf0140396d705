import Verif.Py.Binary64
import Verif.Spec.Geo
/-!
# Specification: what is assumed of the arithmetic

The bounds are those of IEEE 754 binary64 (unit roundoff 2^-53; results below the normal range are off by much less than 2^-100) and, for the C library, a few units
in the last place, which every library in use keeps.
-/
namespace Verif.Spec
open Verif.Py

/-- the accuracy of the arithmetic -/
structure Accurate (F : Flt) : Prop where
  rnd : ∀ x, |F.rnd x - x| ≤ |x| / 2 ^ 53 + 1 / 2 ^ 100
  sin : ∀ x, |F.sin x - Real.sin x| ≤ 1 / 2 ^ 52
  cos : ∀ x, |F.cos x - Real.cos x| ≤ 1 / 2 ^ 52
  atan : ∀ x, |F.atan x - Real.arctan x| ≤ 1 / 2 ^ 51
  /-- at the negative half of the axis the value may be π or -π -/
  atan2 : ∀ y x, (x, y) ≠ (0, 0) → |F.atan2 y x| ≤ 3.15 ∧ ∃ k : ℤ, |F.atan2 y x - (Complex.arg ⟨x, y⟩ + 2 * Real.pi * k)| ≤ 1 / 2 ^ 50
  pow : ∀ x n, |F.pow x n - x ^ n| ≤ |x| ^ n / 2 ^ 52 + 1 / 2 ^ 100

/-- `x'` differs from `x` by at most `t` -/
def Within (t x' x : ℝ) : Prop := |x' - x| ≤ t

/-- `p'` differs from `p` by at most `t` in each coordinate -/
def WithinVec (t : ℝ) (p' p : Geo.Vec) : Prop := Within t p'.1 p.1 ∧ Within t p'.2.1 p.2.1 ∧ Within t p'.2.2 p.2.2

/-- the elements are those of a navigation satellite (GPS, Galileo, BeiDou), with wide margins, and the times are in the week -/
structure Realistic (o : Geo.Elements) (sec : ℝ) : Prop where
  sqrtA : 5000 ≤ o.sqrtA ∧ o.sqrtA ≤ 7000
  e : 0 ≤ o.e ∧ o.e ≤ 1 / 4
  m0 : |o.m0| ≤ 8
  w : |o.w| ≤ 8
  i0 : |o.i0| ≤ 8
  node : |o.node| ≤ 8
  dn : |o.dn| ≤ 1e-6
  nodeDot : |o.nodeDot| ≤ 1e-6
  iDot : |o.iDot| ≤ 1e-6
  cuc : |o.cuc| ≤ 1e-2
  cus : |o.cus| ≤ 1e-2
  crc : |o.crc| ≤ 1e5
  crs : |o.crs| ≤ 1e5
  cic : |o.cic| ≤ 1e-2
  cis : |o.cis| ≤ 1e-2
  toe : 0 ≤ o.toe ∧ o.toe ≤ 604800
  sec : 0 ≤ sec ∧ sec ≤ 604800

end Verif.Spec
