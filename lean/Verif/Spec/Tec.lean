import Mathlib.Algebra.Field.Basic
import Verif.Spec.Label
/-!
# Specification: the ionospheric observation equations
-/
namespace Verif.Spec
open Verif.Py

section
variable {K : Type} [Field K]

/-- first-order ionospheric delay in metres on frequency `f` (Hz) for `tec` TECU (10^16 electrons/m^2): `40.308 * N / f^2` -/
def ionoDelay (tec f : K) : K := 40308 / 1000 * (tec * 10 ^ 16) / f ^ 2

/-- wavelength in metres -/
def wavelength (f : K) : K := 299792458 / f

/-- pseudorange in metres: geometric range (with clocks, troposphere) plus the delay -/
def pseudorange (rho tec f : K) : K := rho + ionoDelay tec f

/-- carrier phase in cycles: range minus the delay (phase advance), plus an ambiguity -/
def carrierPhase (rho tec f amb : K) : K := (rho - ionoDelay tec f) / wavelength f + amb

/-- nominal carrier frequency (Hz) of a band of a system; `k` is the GLONASS frequency number -/
def carrier (system band : Char) (k : K) : Option K :=
  match system, band with
  | 'G', '1' => some 1575420000
  | 'G', '2' => some 1227600000
  | 'G', '5' => some 1176450000
  | 'S', '1' => some 1575420000
  | 'S', '5' => some 1176450000
  | 'E', '1' => some 1575420000
  | 'E', '5' => some 1176450000
  | 'E', '6' => some 1278750000
  | 'E', '7' => some 1207140000
  | 'E', '8' => some 1191795000
  | 'C', '2' => some 1561098000
  | 'C', '7' => some 1207140000
  | 'C', '6' => some 1268520000
  | 'R', '1' => some (1602000000 + k * 562500)
  | 'R', '2' => some (1246000000 + k * 437500)
  | _, _ => none

end

/-- upper case of the observable letters used in column names -/
def upperObs : Char → Char
  | 'l' => 'L'
  | 'c' => 'C'
  | 'p' => 'P'
  | c => c

end Verif.Spec
