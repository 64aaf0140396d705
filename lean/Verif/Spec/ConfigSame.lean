import Verif.Spec.Config
/-!
# Specification: configuration files with the same settings
-/
namespace Verif.Spec
open Verif.Py

/-- the settings with an effect -/
def settings : List Str :=
  [c% "cfg_file", c% "obsDir", c% "navDir", c% "outDir", c% "navPriorityGPS", c% "navPriorityGLO", c% "navPriorityGEO", c% "samplingInterval", c% "navIgnoreAbsence", c% "outFileMode",
   c% "recFields", c% "datetimeFormat", c% "logLevel", c% "logFile"]

/-- two configuration files with the same settings: the last non-empty value of each setting with an effect is the same. Comments, blank lines, white space, the order of the lines, values that are
overwritten or empty, and other names can differ. -/
def SameSettings (lines lines' : List Str) : Prop :=
  ∃ items items', CfgWritten items lines ∧ CfgWritten items' lines' ∧ ∀ n ∈ settings, ∀ v, LastValue items n v ↔ LastValue items' n v

end Verif.Spec
