import Verif.Spec.Output
import Verif.Spec.Rerun
/-!
# Specification: two runs that have an observation file in common
-/
namespace Verif.Spec
open Verif.Py Verif.Model

/-- the two runs have the file at `path` and everything it needs in common: the configuration except the observation directories, the file itself, the
navigation directories and the files in them, and the coordinate file.  The other observation files may be different ones. -/
structure Shares (D D' : Disk) (cfg cfg' : Cfg) (path : Str) (xl : List XyzLine) : Prop where
  config : cfg' = { cfg with obsDir := cfg'.obsDir }
  file : ∀ k, D'.lines k path = D.lines k path
  navDirs : ∀ d ∈ cfg.navDir, D'.listing d = D.listing d
  navFiles : ∀ d ∈ cfg.navDir, ∀ l, D.listing d = .ok l → ∀ n ∈ l, ∀ k, D'.lines k (inDir d n) = D.lines k (inDir d n)
  coordinates : CoordLines D cfg.obsDir path xl ∧ CoordLines D' cfg'.obsDir path xl

/-- `path` is among the observation files, and no other of them has the same station and day -/
def Only (paths : List Str) (i : Nat) (path : Str) : Prop :=
  paths[i]? = some path ∧ ∀ (j : Nat) (p : Str), j ≠ i → paths[j]? = some p → ¬ SameOutput path p

end Verif.Spec
