import Mathlib.Data.Real.Basic
import Verif.Spec.Readback
/-!
# Specification: the TEC columns against the electron content on the way of the signals
-/
namespace Verif.Spec
open Verif.Py Verif.Model

/-- `q` is the number written in a file with three decimals for the quantity `x` -/
def ThreeDecimals (q : Rat) (x : ℝ) : Prop := |(q : ℝ) - x| ≤ 1 / 2000

/-- TECU per metre of difference between the delays on two frequencies -/
noncomputable def tecuPerMetre (f g : ℝ) : ℝ := |f ^ 2 * g ^ 2 / (f ^ 2 - g ^ 2)| / (40308 / 1000) / 10 ^ 16

/-- TECU per metre of difference between code and phase on one frequency -/
noncomputable def tecuPerMetre1 (f : ℝ) : ℝ := f ^ 2 / (2 * (40308 / 1000)) / 10 ^ 16

/-- the TEC that the ambiguities `m`, `n` of two phases stand for -/
noncomputable def ambiguityTec (f g m n : ℝ) : ℝ := f ^ 2 * g ^ 2 / (f ^ 2 - g ^ 2) / (40308 / 1000) / 10 ^ 16 * (wavelength f * m - wavelength g * n)

/-- the TEC that the ambiguity `n` of one phase stands for -/
noncomputable def ambiguityTec1 (f n : ℝ) : ℝ := -(tecuPerMetre1 f * (wavelength f * n))

/-- the `j`-th word of the line is a number within `d` of `x` -/
def WordNear (line : Str) (j : Nat) (x d : ℝ) : Prop := ∃ w v, (splitWs line)[j]? = some w ∧ pyFloat w = .ok (.fin v) ∧ |(v : ℝ) - x| ≤ d

/-- the columns of a line against the sky: let the satellite be one of the system `c` (with the frequency number `k`), let the signals have travelled the range `rho`
(with clocks and troposphere) through `tec` TECU, and let the observables of the item be codes and phases of these signals, written with three decimals.
Then the TEC columns of the line are that TEC, up to the rounding of the observables and of the column and up to the ambiguities of the phases. -/
structure TecBack (P : Prm) (it : ObsItem) (c : Char) (k : Rat) (line : Str) : Prop where
  /-- two codes -/
  codes : ∀ x a y b kind j, (['t', 'e', 'c', '.', x, a, y, b], kind) ∈ columns → P.cfg.recFields[j]? = some ['t', 'e', 'c', '.', x, a, y, b] → x ≠ 'l' →
    ∀ f g : Rat, carrier c a k = some f → carrier c b k = some g →
    ∀ p i l q i' l', FamilyIs it.data [upperObs x, a] (some (some p, i, l)) → FamilyIs it.data [upperObs y, b] (some (some q, i', l')) → p ≠ 0 → q ≠ 0 →
    ∀ rho tec : ℝ, ThreeDecimals p (pseudorange rho tec (f : ℝ)) → ThreeDecimals q (pseudorange rho tec (g : ℝ)) →
      WordNear line j tec (tecuPerMetre f g / 1000 + 1 / 2000)
  /-- two phases -/
  phases : ∀ a b kind j, (['t', 'e', 'c', '.', 'l', a, 'l', b], kind) ∈ columns → P.cfg.recFields[j]? = some ['t', 'e', 'c', '.', 'l', a, 'l', b] →
    ∀ f g : Rat, carrier c a k = some f → carrier c b k = some g →
    ∀ p i l q i' l', FamilyIs it.data ['L', a] (some (some p, i, l)) → FamilyIs it.data ['L', b] (some (some q, i', l')) → p ≠ 0 → q ≠ 0 →
    ∀ rho tec m n : ℝ, ThreeDecimals p (carrierPhase rho tec (f : ℝ) m) → ThreeDecimals q (carrierPhase rho tec (g : ℝ) n) →
      WordNear line j (tec + ambiguityTec f g m n) (tecuPerMetre f g * (wavelength (f : ℝ) + wavelength (g : ℝ)) / 2000 + 1 / 2000)
  /-- a phase and a code on one frequency; `tec.l8c8` is only there together with one of the others -/
  single : ∀ a kind j, (['t', 'e', 'c', '.', 'l', a, 'c', a], kind) ∈ columns → P.cfg.recFields[j]? = some ['t', 'e', 'c', '.', 'l', a, 'c', a] →
    (a = '8' → c% "tec.l1c1" ∈ P.cfg.recFields ∨ c% "tec.l2c2" ∈ P.cfg.recFields) →
    ∀ f : Rat, carrier c a k = some f →
    ∀ p i l q i' l', FamilyIs it.data ['L', a] (some (some p, i, l)) → FamilyIs it.data ['C', a] (some (some q, i', l')) → p ≠ 0 → q ≠ 0 →
    ∀ rho tec n : ℝ, ThreeDecimals p (carrierPhase rho tec (f : ℝ) n) → ThreeDecimals q (pseudorange rho tec (f : ℝ)) →
      WordNear line j (tec + ambiguityTec1 f n) (tecuPerMetre1 f * (1 + wavelength (f : ℝ)) / 2000 + 1 / 2000)

end Verif.Spec
