import Verif.Spec.Config
import Mathlib.Data.List.Forall2
/-!
# Specification: lists in a configuration file
-/
namespace Verif.Spec
open Verif.Py

/-- `d` is `piece` without the white space around it -/
def Trimmed (piece d : Str) : Prop :=
  ∃ a b, piece = a ++ d ++ b ∧ Blank a ∧ Blank b ∧ (∀ c, d.head? = some c → isSpace c = false) ∧ (∀ c, d.getLast? = some c → isSpace c = false)

/-- the directories of a setting: the last value given, a list of directories with commas between them and any white space around them; without a value `dflt` -/
def DirsOf (items : List CfgItem) (name dflt : Str) (dirs : List Str) : Prop :=
  (∃ v pieces, LastValue items name v ∧ Listed v pieces ∧ List.Forall₂ Trimmed pieces dirs) ∨ (∀ v, ¬ LastValue items name v) ∧ dirs = [dflt]

/-- a list of names: the last value given, with commas between the names; white space anywhere is ignored; without a value the list is empty -/
def NamesOf (items : List CfgItem) (name : Str) (names : List Str) : Prop :=
  (∃ v pieces, LastValue items name v ∧ Listed v pieces ∧ names = pieces.map (fun p => p.filter fun c => !isSpace c)) ∨ (∀ v, ¬ LastValue items name v) ∧ names = []

end Verif.Spec
