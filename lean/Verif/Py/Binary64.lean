import Mathlib.Analysis.SpecialFunctions.Complex.Arg
import Mathlib.Analysis.SpecialFunctions.Trigonometric.Arctan
import Mathlib.Data.Int.Log
import Verif.Py.Double
/-!
# Binary floating point on the real numbers

`rnd x` is the IEEE 754 binary64 number nearest to the real number `x`, ties to even, subnormal numbers included; overflow, NaN and the sign of zero are left out.
The results of `+`, `-`, `*`, `/` and `math.sqrt` are the exact results rounded with `rnd`.
-/
namespace Verif.Py

/-- round half to even to an integer -/
noncomputable def nearestEven (x : ℝ) : ℤ :=
  open Classical in
  if x - ⌊x⌋ < 1 / 2 then ⌊x⌋ else if 1 / 2 < x - ⌊x⌋ then ⌊x⌋ + 1 else if ⌊x⌋ % 2 = 0 then ⌊x⌋ else ⌊x⌋ + 1

/-- the binary64 number nearest to `x` -/
noncomputable def rnd (x : ℝ) : ℝ :=
  open Classical in
  if x = 0 then 0
  else (nearestEven (x / (2 : ℝ) ^ max (Int.log 2 |x| - 52) (-1074)) : ℝ) * (2 : ℝ) ^ max (Int.log 2 |x| - 52) (-1074)

/-- an arithmetic of Python's `float`: the rounding of the results of `+`, `-`, `*`, `/`, `math.sqrt` and of decimal literals, and the functions of the C library
that IEEE 754 does not determine: `math.sin`, `cos`, `atan`, `atan2` and `x ** n` -/
structure Flt where
  rnd : ℝ → ℝ
  sin : ℝ → ℝ
  cos : ℝ → ℝ
  atan : ℝ → ℝ
  atan2 : ℝ → ℝ → ℝ
  pow : ℝ → ℕ → ℝ

/-- exact arithmetic -/
noncomputable def Flt.exact : Flt where
  rnd := id
  sin := Real.sin
  cos := Real.cos
  atan := Real.arctan
  atan2 := fun y x => Complex.arg ⟨x, y⟩
  pow := fun x n => x ^ n

/-- binary64 with a C library that rounds every function correctly -/
noncomputable def Flt.binary64 : Flt where
  rnd := Verif.Py.rnd
  sin := fun x => Verif.Py.rnd (Real.sin x)
  cos := fun x => Verif.Py.rnd (Real.cos x)
  atan := fun x => Verif.Py.rnd (Real.arctan x)
  atan2 := fun y x => Verif.Py.rnd (Complex.arg ⟨x, y⟩)
  pow := fun x n => Verif.Py.rnd (x ^ n)

end Verif.Py
