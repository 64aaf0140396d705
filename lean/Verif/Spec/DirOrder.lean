import Verif.Spec.Program
/-!
# Specification: the order of the observation directories and of their listings
-/
namespace Verif.Spec
open Verif.Py Verif.Model

/-- the same archive and settings; the observation directories are given in another order, and the operating system lists their entries in another order -/
structure SameArchive (D D' : Disk) (cfg cfg' : Cfg) : Prop where
  settings : cfg' = { cfg with obsDir := cfg'.obsDir }
  dirs : cfg'.obsDir.Perm cfg.obsDir
  listed : ∀ d ∈ cfg.obsDir, ∃ l l', D.listing d = .ok l ∧ D'.listing d = .ok l' ∧ l'.Perm l
  navigation : ∀ d ∈ cfg.navDir, D'.listing d = D.listing d
  present : D'.present = D.present
  lines : D'.lines = D.lines

end Verif.Spec
