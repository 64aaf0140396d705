import Verif.Spec.Calendar
/-! # Sampling interval: what "the most frequent spacing" means -/
namespace Verif.Spec
open Verif.Py

/-- spacings (microseconds) between consecutive different times -/
def spacings (l : List DateTime) : List Int :=
  ((l.zip l.tail).filter fun p => p.1 ≠ p.2).map fun p => instant p.2 - instant p.1

/-- `i` is the most frequent element of `l`; among equally frequent ones, the one seen first -/
def MostFrequent (i : Int) (l : List Int) : Prop :=
  i ∈ l ∧ (∀ j ∈ l, l.count j ≤ l.count i) ∧ (∀ j ∈ l, l.count j = l.count i → l.idxOf i ≤ l.idxOf j)

/-- there is at most one -/
theorem mostFrequent_unique {i j : Int} {l : List Int} (hi : MostFrequent i l) (hj : MostFrequent j l) : i = j := by
  have hc : l.count i = l.count j := Nat.le_antisymm (hj.2.1 i hi.1) (hi.2.1 j hj.1)
  have h1 := hi.2.2 j hj.1 hc.symm
  have h2 := hj.2.2 i hi.1 hc
  have e : l.idxOf i = l.idxOf j := Nat.le_antisymm h1 h2
  have a := List.getElem_idxOf (List.idxOf_lt_length_iff.2 hi.1)
  have b := List.getElem_idxOf (List.idxOf_lt_length_iff.2 hj.1)
  simp only [e] at a
  exact a.symm.trans b

/-- `w` is what is stored for a spacing of `i` microseconds: milliseconds, rounded (either way at a tie, where the program depends on
the binary representation); version 2.0 keeps whole seconds only -/
def Stored (v : Nat) (i : Int) (w : PyFloat) : Prop :=
  ∃ ms : Int, 2 * (i - 1000 * ms) ≤ 1000 ∧ -1000 ≤ 2 * (i - 1000 * ms) ∧
    w = .fin (if v = 200 then ((ms / 1000 : Int) : Rat) else (ms : Rat) / 1000)

end Verif.Spec
