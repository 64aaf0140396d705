import Verif.Spec.Output
/-!
# Specification: columns shared by two configurations
-/
namespace Verif.Spec
open Verif.Py Verif.Model

/-- the configuration with other columns (the formats go with the columns) -/
def OtherColumns (cfg cfg' : Cfg) : Prop :=
  ∃ fields format fortran, cfg' = { cfg with recFields := fields, recFormat := format, recFortranFormat := fortran }

/-- with the columns `F`, the column `tec.l8c8` can hold a value -/
def WithL8C8 (F : List Str) : Prop := c% "tec.l1c1" ∈ F ∨ c% "tec.l2c2" ∈ F

/-- two lines with the columns `F` and `F'` have the same texts in the columns they share; an exception is `tec.l8c8` when one of the lists has `tec.l1c1` or
`tec.l2c2` and the other has not -/
def SharedColumns (F F' : List Str) (line line' : Str) : Prop :=
  ∃ texts texts', line = List.intercalate [' '] texts ++ ['\n'] ∧ line' = List.intercalate [' '] texts' ++ ['\n'] ∧
    texts.length = F.length ∧ texts'.length = F'.length ∧
    ∀ (j j' : Nat) (col : Str), F[j]? = some col → F'[j']? = some col → (col = c% "tec.l8c8" → (WithL8C8 F ↔ WithL8C8 F')) → texts[j]? = texts'[j']?

end Verif.Spec
