import Verif.Spec.Program
import Verif.Spec.Output
/-!
# Specification: further lines behind an observation file

A file may go on: the lines behind it are whatever the receiver wrote next, the remains of an interrupted transmission, or garbage.
-/
namespace Verif.Spec
open Verif.Py Verif.Model

/-- what is known of the longer file: the same header values, the same interval, the same items in the same order, then possibly more items and any end -/
def Continues (o o' : ObsIn) : Prop := ∃ extra stop, o' = { o with items := o.items ++ extra, stop := stop }

/-- how often the epoch changes from one item to the next -/
def epochChanges (items : List ObsItem) : Nat := (spacings (items.filterMap (·.epoch))).length

/-- the lines consist of header lines, the line that ends the header, and more -/
def HeaderEnds (file : List Str) : Prop :=
  ∃ hdr endl body, file = hdr ++ endl :: body ∧ (∀ l ∈ hdr, contains (c% "END OF HEADER") l = false) ∧ labelOf endl = c% "END OF HEADER"

/-- two disks that show the same, except for the lines of the file at `path` -/
structure Elsewhere (D D' : Disk) (path : Str) : Prop where
  listing : ∀ d, D'.listing d = D.listing d
  present : ∀ p, D'.present p = D.present p
  lines : ∀ k p, p ≠ path → D'.lines k p = D.lines k p

/-- the names listed for the directories are names of files, without directories -/
def FileNames (D : Disk) (dirs : List Str) : Prop := ∀ d ∈ dirs, ∀ l, D.listing d = .ok l → ∀ n ∈ l, '/' ∉ n

end Verif.Spec
