import Verif.Model.Program
/-!
# A run that is stopped, and a later run
-/
namespace Verif.Spec
open Verif.Py Verif.Model

/-- the same text but for the date in the first line -/
def SameButDate (s t : Str) : Prop :=
  s = t ∨ ∃ d d' rest, s = (c% "# Created on ") ++ d ++ '\n' :: rest ∧ t = (c% "# Created on ") ++ d' ++ '\n' :: rest

/-- the same program with another clock -/
def _root_.Verif.Model.Ext.atTime (X : Ext) (now : Str → DateTime → Str) : Ext := { X with env := { X.env with now := now } }

/-- the first `k` items of a file -/
def firstItems (k : Nat) (f : FileIn) : FileIn := { f with opened := f.opened.map fun o => { o with items := o.items.take k, stop := .ok () } }

/-- the first `i` files and the first `k` items of the next one -/
def firstPart : Nat → Nat → List FileIn → List FileIn
  | _, _, [] => []
  | 0, k, f :: _ => [firstItems k f]
  | i + 1, k, f :: fs => f :: firstPart i k fs

/-- the files on the disk when a run has gone through `i` files and `k` items of the next one -/
def stoppedAt (X : Ext) (D : Disk) (cfg : Cfg) (fuel : Nat) (fs : FS) (i k : Nat) : Option FS :=
  match obsFiles D cfg with
  | .error _ => some fs
  | .ok files => (allOf (fileIn D fuel (someXyz D cfg)) files).map fun ins => (mainLoop (prmOf X D cfg) (firstPart i k ins) Glob.empty fs).2.1

/-- what may be left of `fs` by a crash while the files in `out` are being written: they may have any contents, or be missing -/
def Torn (out fs fs' : FS) : Prop := ∀ p, out.get? p = none → fs'.get? p = fs.get? p

end Verif.Spec
