import Verif.Spec.Rinex2
import Verif.Model.Common
import Verif.Proofs.Num
import Verif.Proofs.Rat
/-! # Lemmas about the renderers shared by RINEX 2 and 3 -/
namespace Verif.Spec
open Verif.Py Verif.Model

theorem pyRange_eq_range' (start stop step : Nat) :
    pyRange start stop step = List.range' start ((stop - start + (step - 1)) / step) step := by
  unfold pyRange
  generalize (stop - start + (step - 1)) / step = n
  apply List.ext_getElem
  · simp
  · intro i h1 h2; simp

/-- characters of numbers and blanks -/
def plain (c : Char) : Bool := isDigit c || c == '.' || c == '-' || c == ' '

theorem plain_space {c : Char} (h : plain c = true) (hs : isSpace c = true) : c = ' ' := by
  unfold plain at h
  simp only [Bool.or_eq_true, beq_iff_eq] at h
  rcases h with ((h | h) | h) | h
  · rw [isDigit_not_space h] at hs; simp at hs
  · subst h; revert hs; decide
  · subst h; revert hs; decide
  · exact h

theorem plain_of_digit {c : Char} (h : isDigit c = true) : plain c = true := by simp [plain, h]

theorem plain_digits {s : Str} (h : ∀ c ∈ s, isDigit c = true) : ∀ c ∈ s, plain c = true :=
  fun c hc => plain_of_digit (h c hc)

theorem plain_blanks {n : Nat} : ∀ c ∈ List.replicate n ' ', plain c = true := by
  intro c hc; rw [(List.mem_replicate.1 hc).2]; decide

theorem plain_append {a b : Str} (ha : ∀ c ∈ a, plain c = true) (hb : ∀ c ∈ b, plain c = true) :
    ∀ c ∈ a ++ b, plain c = true := by
  intro c hc
  rcases List.mem_append.1 hc with h | h
  · exact ha c h
  · exact hb c h

theorem plain_padLeft {w : Nat} {s : Str} (h : ∀ c ∈ s, plain c = true) : ∀ c ∈ padLeft w s, plain c = true :=
  plain_append plain_blanks h

theorem fixed3_plain (n : Int) (z : Bool) : ∀ c ∈ fixed3 n z, plain c = true := by
  unfold fixed3
  refine plain_append (plain_append (plain_append ?_ ?_) ?_)
    (plain_digits (zfill_digits (natStr_digits _)))
  · split
    · intro c hc; rw [List.mem_singleton.1 hc]; decide
    · simp
  · split
    · simp
    · exact plain_digits (natStr_digits _)
  · intro c hc; rw [List.mem_singleton.1 hc]; decide

theorem zfill_natStr_length {w n : Nat} (hw : 1 ≤ w) (h : n < 10 ^ w) : (zfill w (natStr n)).length = w :=
  zfill_length (natStr_length_le hw h)

/-- value of `ddd.fff` -/
theorem parseUFloat_fixed (a b : Str) (ha : ∀ c ∈ a, isDigit c = true) (hb : ∀ c ∈ b, isDigit c = true)
    (hne : a ≠ [] ∨ b ≠ []) :
    parseUFloat (a ++ ['.'] ++ b) = some ((decVal a : Rat) + (decVal b : Rat) / (10 : Rat) ^ b.length) := by
  rw [parseUFloat_plain]
  · have := parseMant_point ha hb hne
    simpa using this
  · intro c hc
    simp only [List.mem_append, List.mem_singleton] at hc
    rcases hc with (hc | hc) | hc
    · simp [numChar, ha c hc]
    · subst hc; decide
    · simp [numChar, hb c hc]

/-- `float()` of a fixed-point number with blanks around it -/
theorem parseFloat_point (p q : Str) (neg : Bool) (a b : Str) (hp : ∀ c ∈ p, isSpace c = true)
    (hq : ∀ c ∈ q, isSpace c = true) (ha : ∀ c ∈ a, isDigit c = true) (hb : ∀ c ∈ b, isDigit c = true)
    (hne : a ≠ [] ∨ b ≠ []) :
    parseFloat (p ++ ((if neg then ['-'] else []) ++ a ++ ['.'] ++ b) ++ q) =
      some (.fin (let v := (decVal a : Rat) + (decVal b : Rat) / (10 : Rat) ^ b.length
        if neg then -v else v)) := by
  obtain ⟨c, r, hcons⟩ := List.exists_cons_of_ne_nil (l := a ++ ['.'] ++ b) (by simp)
  have hall : ∀ x ∈ a ++ ['.'] ++ b, isSpace x = false := by
    intro x hx
    simp only [List.mem_append, List.mem_singleton] at hx
    rcases hx with (hx | hx) | hx
    · exact isDigit_not_space (ha x hx)
    · subst hx; decide
    · exact isDigit_not_space (hb x hx)
  have hc : numChar c = true := by
    have : c ∈ a ++ ['.'] ++ b := by rw [hcons]; simp
    simp only [List.mem_append, List.mem_singleton] at this
    rcases this with (h | h) | h
    · simp [numChar, ha c h]
    · subst h; decide
    · simp [numChar, hb c h]
  have hs : Solid (c :: r) := by
    rw [← hcons]; exact solid_of_all (by simp) hall
  have hu := parseUFloat_fixed a b ha hb hne
  rw [hcons] at hu
  cases neg with
  | false =>
    have := parseFloat_unsigned hc hs hp hq hu
    simp only [Bool.false_eq_true, if_false, List.nil_append]
    rw [hcons]; exact this
  | true =>
    have := parseFloat_negative hc hs hp hq hu
    simp only [if_true]
    have h2 : p ++ (['-'] ++ a ++ ['.'] ++ b) ++ q = p ++ ('-' :: (a ++ ['.'] ++ b)) ++ q := by simp
    rw [h2, hcons]; exact this

theorem parseFloat_fixed (p q : Str) (neg : Bool) (a b : Str) (hp : ∀ c ∈ p, isSpace c = true)
    (hq : ∀ c ∈ q, isSpace c = true) (ha : ∀ c ∈ a, isDigit c = true) (hb : ∀ c ∈ b, isDigit c = true)
    (hne : a ≠ []) :
    parseFloat (p ++ ((if neg then ['-'] else []) ++ a ++ ['.'] ++ b) ++ q) =
      some (.fin (let v := (decVal a : Rat) + (decVal b : Rat) / (10 : Rat) ^ b.length
        if neg then -v else v)) := parseFloat_point p q neg a b hp hq ha hb (.inl hne)

theorem parseFloat_fixed3 (p q : Str) (n : Int) (z : Bool) (hp : ∀ c ∈ p, isSpace c = true)
    (hq : ∀ c ∈ q, isSpace c = true) : parseFloat (p ++ fixed3 n z ++ q) = some (.fin ((n : Rat) / 1000)) := by
  have h := parseFloat_point p q (decide (n < 0)) (if z ∧ n.natAbs < 1000 then [] else natStr (n.natAbs / 1000)) (zfill 3 (natStr (n.natAbs % 1000))) hp hq
    (by split <;> [simp; exact natStr_digits _]) (zfill_digits (natStr_digits _)) (.inr (by rw [ne_eq, ← List.length_eq_zero_iff, zfill_natStr_length (by omega) (by omega)]; simp))
  have hl : (zfill 3 (natStr (n.natAbs % 1000))).length = 3 := zfill_natStr_length (by omega) (by omega)
  have hint : decVal (if z = true ∧ n.natAbs < 1000 then [] else natStr (n.natAbs / 1000)) = n.natAbs / 1000 := by
    split
    · next h => rw [Nat.div_eq_of_lt h.2]; rfl
    · exact decVal_natStr _
  rw [hl, decVal_zfill, decVal_natStr, hint] at h
  unfold fixed3
  simp only [decide_eq_true_eq] at h
  rw [h]
  have hv : ((n.natAbs / 1000 : Nat) : Rat) + ((n.natAbs % 1000 : Nat) : Rat) / (10 : Rat) ^ 3 =
      (n.natAbs : Rat) / 1000 := by
    have := Nat.div_add_mod n.natAbs 1000
    have h2 : ((1000 * (n.natAbs / 1000) + n.natAbs % 1000 : Nat) : Rat) = (n.natAbs : Rat) := by rw [this]
    push_cast at h2
    rw [← h2]; ring
  simp only [hv]
  congr 2
  by_cases hn : n < 0
  · simp only [hn, if_true]
    have : (n.natAbs : Rat) = -(n : Rat) := by
      have : (n.natAbs : Int) = -n := by omega
      have h := congrArg (Int.cast : Int → Rat) this
      rw [Int.cast_neg, Int.cast_natCast] at h
      exact h
    rw [this]; ring
  · simp only [hn, if_false]
    have : (n.natAbs : Rat) = (n : Rat) := by
      have : (n.natAbs : Int) = n := by omega
      have h := congrArg (Int.cast : Int → Rat) this
      rw [Int.cast_natCast] at h
      exact h
    rw [this]

theorem digit_isDigit {d : Nat} (h : d < 10) : isDigit (digit d) = true := isDigit_ofNat h
theorem digit_val {d : Nat} (h : d < 10) : digitVal (digit d) = d := digitVal_ofNat h

theorem Field.render_length {f : Field} (h : f.Ok) : f.render.length = 16 := by
  cases f with
  | blank => simp [Field.render]
  | val n l s z => simp [Field.render, padLeft_length h.1]

theorem Field.render_plain {f : Field} (h : f.Ok) : ∀ c ∈ f.render, plain c = true := by
  cases f with
  | blank => exact plain_blanks
  | val n l s z =>
    refine plain_append (plain_padLeft (fixed3_plain n z)) ?_
    obtain ⟨_, h2, h3⟩ := h
    have key : ∀ o : Option Nat, (∀ d ∈ o, d < 10) → plain (indCol o) = true := by
      intro o ho
      cases o with
      | none => rfl
      | some d => exact plain_of_digit (digit_isDigit (ho d rfl))
    intro c hc
    simp only [List.mem_cons, List.not_mem_nil, or_false] at hc
    rcases hc with hc | hc
    · rw [hc]; exact key l h2
    · rw [hc]; exact key s h3

/-! ## cutting lists in pieces -/

theorem pieces_flatten (k f : Nat) (l : List α) (hk : 0 < k) (hf : l.length ≤ f) : (pieces k f l).flatten = l := by
  induction f generalizing l with
  | zero => have : l = [] := List.length_eq_zero_iff.1 (by omega); simp [pieces, this]
  | succ f ih =>
    cases l with
    | nil => rfl
    | cons x xs =>
      simp only [pieces, List.flatten_cons]
      rw [ih _ (by simp at hf ⊢; omega), List.take_append_drop]

theorem chunks_flatten (k : Nat) (l : List α) (hk : 0 < k) : (chunks k l).flatten = l :=
  pieces_flatten k _ l hk (Nat.le_refl _)

theorem pieces_fuel (k f g : Nat) (l : List α) (hk : 0 < k) (hf : l.length ≤ f) (hg : l.length ≤ g) :
    pieces k f l = pieces k g l := by
  induction f generalizing g l with
  | zero =>
    have : l = [] := List.length_eq_zero_iff.1 (by omega)
    subst this; cases g <;> rfl
  | succ f ih =>
    cases l with
    | nil => cases g <;> rfl
    | cons x xs =>
      cases g with
      | zero => simp at hg
      | succ g =>
        simp only [pieces]
        rw [ih g _ (by simp at hf ⊢; omega) (by simp at hg ⊢; omega)]

theorem chunks_nil (k : Nat) : chunks k ([] : List α) = [] := rfl

theorem chunks_cons (k : Nat) (l : List α) (hk : 0 < k) (h : l ≠ []) :
    chunks k l = l.take k :: chunks k (l.drop k) := by
  unfold chunks
  cases l with
  | nil => simp at h
  | cons x xs =>
    simp only [List.length_cons, pieces]
    congr 1
    apply pieces_fuel k _ _ _ hk
    · simp; omega
    · exact Nat.le_refl _

end Verif.Spec
