import Verif.Proofs.Str
/-! # `str.split` -/
namespace Verif.Proofs
open Verif.Py

theorem splitWsGo_space (t s : Str) (ht : ∀ c ∈ t, isSpace c = true) : splitWsGo (t ++ s) [] = splitWsGo s [] := by
  induction t with
  | nil => rfl
  | cons c t ih =>
    have hc := ht c (by simp)
    simp only [List.cons_append, splitWsGo, hc, if_true, List.isEmpty_nil]
    exact ih fun x hx => ht x (by simp [hx])

theorem splitWsGo_word (w s acc : Str) (hw : ∀ c ∈ w, isSpace c = false) :
    splitWsGo (w ++ s) acc = splitWsGo s (w.reverse ++ acc) := by
  induction w generalizing acc with
  | nil => rfl
  | cons c w ih =>
    have hc := hw c (by simp)
    simp only [List.cons_append, splitWsGo, hc, Bool.false_eq_true, if_false]
    rw [ih _ fun x hx => hw x (by simp [hx])]
    simp

theorem splitWs_space (t s : Str) (ht : ∀ c ∈ t, isSpace c = true) : splitWs (t ++ s) = splitWs s :=
  splitWsGo_space t s ht

theorem splitWs_blank (t : Str) (ht : ∀ c ∈ t, isSpace c = true) : splitWs t = [] := by
  have := splitWs_space t [] ht
  rw [List.append_nil] at this
  rw [this]; rfl

/-- a word followed by the end of the string or by white space -/
theorem splitWs_word (w s : Str) (hne : w ≠ []) (hw : ∀ c ∈ w, isSpace c = false)
    (hs : s = [] ∨ ∃ c r, s = c :: r ∧ isSpace c = true) : splitWs (w ++ s) = w :: splitWs s := by
  unfold splitWs
  rw [splitWsGo_word w s [] hw]
  have hrev : (w.reverse ++ []).isEmpty = false := by
    cases w with
    | nil => exact absurd rfl hne
    | cons => simp
  rcases hs with rfl | ⟨c, r, rfl, hc⟩
  · simp only [splitWsGo, hrev, Bool.false_eq_true, if_false]; simp
  · simp only [splitWsGo, hc, if_true, hrev, Bool.false_eq_true, if_false, List.isEmpty_nil]; simp

theorem splitOn_none {sep : Char} {s : Str} (h : ∀ c ∈ s, c ≠ sep) : splitOn sep s = [s] := by
  induction s with
  | nil => rfl
  | cons c s ih =>
    simp only [splitOn, h c (by simp), if_false, ih fun x hx => h x (by simp [hx])]

theorem splitOn_append {sep : Char} {a : Str} (b : Str) (h : ∀ c ∈ a, c ≠ sep) :
    splitOn sep (a ++ sep :: b) = a :: splitOn sep b := by
  induction a with
  | nil => simp [splitOn]
  | cons c s ih =>
    simp only [List.cons_append, splitOn, h c (by simp), if_false, ih fun x hx => h x (by simp [hx])]

theorem splitOn_lines {ls : List Str} (h : ∀ l ∈ ls, ∀ c ∈ l, c ≠ '\n') :
    splitOn '\n' (ls.map (· ++ ['\n'])).flatten = ls ++ [[]] := by
  induction ls with
  | nil => rfl
  | cons l ls ih =>
    simp only [List.map_cons, List.flatten_cons, List.append_assoc, List.singleton_append]
    rw [splitOn_append _ (h l (by simp)), ih fun x hx => h x (by simp [hx])]
    rfl

end Verif.Proofs
