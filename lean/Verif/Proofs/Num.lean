import Verif.Py.Num
import Verif.Proofs.Str
/-! # Lemmas about Python numbers -/
namespace Verif.Py

/-- value of a digit string -/
def decVal (s : Str) : Nat := s.foldl (fun a c => a * 10 + digitVal c) 0

theorem foldl_dec (s : Str) (acc : Nat) :
    s.foldl (fun a c => a * 10 + digitVal c) acc = acc * 10 ^ s.length + decVal s := by
  unfold decVal
  induction s generalizing acc with
  | nil => simp
  | cons c cs ih =>
    simp only [List.foldl_cons, List.length_cons]
    rw [ih, ih (0 * 10 + digitVal c), Nat.pow_succ, Nat.add_mul, Nat.zero_mul, Nat.zero_add]
    have : acc * 10 * 10 ^ cs.length = acc * (10 ^ cs.length * 10) := by
      rw [Nat.mul_assoc, Nat.mul_comm 10]
    omega

theorem decVal_append (a b : Str) : decVal (a ++ b) = decVal a * 10 ^ b.length + decVal b := by
  conv => lhs; unfold decVal
  rw [List.foldl_append, foldl_dec]; rfl

theorem decVal_nil : decVal [] = 0 := rfl

theorem decVal_zeros (k : Nat) : decVal (List.replicate k '0') = 0 := by
  induction k with
  | zero => rfl
  | succ k ih =>
    rw [List.replicate_succ, ← List.singleton_append, decVal_append, ih]; simp [decVal, digitVal]

theorem digitsGo_digits (s : Str) (h : ∀ c ∈ s, isDigit c = true) (prev : Bool) (acc : Nat)
    (hne : s ≠ [] ∨ prev = true) :
    digitsGo s prev acc = some (acc * 10 ^ s.length + decVal s) := by
  rw [← foldl_dec]
  induction s generalizing prev acc with
  | nil =>
    rcases hne with h | h
    · simp at h
    · simp [digitsGo, h]
  | cons c cs ih =>
    simp only [digitsGo, h c (by simp), if_true, List.foldl_cons]
    exact ih (fun x hx => h x (by simp [hx])) true _ (Or.inr rfl)

theorem parseDigits_digits {s : Str} (h : ∀ c ∈ s, isDigit c = true) (hne : s ≠ []) :
    parseDigits s = some (decVal s) := by
  unfold parseDigits
  rw [digitsGo_digits s h false 0 (Or.inl hne)]; simp

theorem isDigit_ofNat {d : Nat} (h : d < 10) : isDigit (Char.ofNat (48 + d)) = true := by
  have : d = 0 ∨ d = 1 ∨ d = 2 ∨ d = 3 ∨ d = 4 ∨ d = 5 ∨ d = 6 ∨ d = 7 ∨ d = 8 ∨ d = 9 := by omega
  rcases this with h|h|h|h|h|h|h|h|h|h <;> subst h <;> decide

theorem digitVal_ofNat {d : Nat} (h : d < 10) : digitVal (Char.ofNat (48 + d)) = d := by
  have : d = 0 ∨ d = 1 ∨ d = 2 ∨ d = 3 ∨ d = 4 ∨ d = 5 ∨ d = 6 ∨ d = 7 ∨ d = 8 ∨ d = 9 := by omega
  rcases this with h|h|h|h|h|h|h|h|h|h <;> subst h <;> decide

theorem isDigit_not_space {c : Char} (h : isDigit c = true) : isSpace c = false := by
  unfold isDigit at h
  unfold isSpace
  simp at h ⊢
  omega

theorem isDigit_ne {c : Char} (h : isDigit c = true) (d : Char) (hd : isDigit d = false) : c ≠ d := by
  rintro rfl; simp [h] at hd

theorem natDigits_acc (fuel n : Nat) (acc : Str) : natDigits fuel n acc = natDigits fuel n [] ++ acc := by
  induction fuel generalizing n acc with
  | zero => simp [natDigits]
  | succ f ih =>
    simp only [natDigits]
    split
    · simp
    · rw [ih, ih (n / 10) [_]]; simp

theorem natDigits_fuel (f g n : Nat) (hf : n < f) (hg : n < g) : natDigits f n [] = natDigits g n [] := by
  induction f generalizing g n with
  | zero => omega
  | succ f ih =>
    cases g with
    | zero => omega
    | succ g =>
      simp only [natDigits]
      split
      · rfl
      · rename_i h
        rw [natDigits_acc f, natDigits_acc g, ih g (n / 10) (by omega) (by omega)]

theorem natStr_lt {n : Nat} (h : n < 10) : natStr n = [Char.ofNat (48 + n)] := by
  have : n / 10 = 0 := by omega
  simp [natStr, natDigits, this, Nat.mod_eq_of_lt h]

theorem natStr_ge {n : Nat} (h : 10 ≤ n) : natStr n = natStr (n / 10) ++ [Char.ofNat (48 + n % 10)] := by
  have hne : n / 10 ≠ 0 := by omega
  unfold natStr
  conv => lhs; unfold natDigits
  simp only [hne, if_false]
  rw [natDigits_acc, natDigits_fuel n (n / 10 + 1) (n / 10) (by omega) (by omega)]

theorem natStr_digits (n : Nat) : ∀ c ∈ natStr n, isDigit c = true := by
  induction n using Nat.strongRecOn with
  | ind n ih =>
    by_cases h : n < 10
    · rw [natStr_lt h]; intro c hc; rw [List.mem_singleton.1 hc]; exact isDigit_ofNat h
    · rw [natStr_ge (by omega)]
      intro c hc
      rcases List.mem_append.1 hc with hc | hc
      · exact ih (n / 10) (by omega) c hc
      · rw [List.mem_singleton.1 hc]; exact isDigit_ofNat (by omega)

theorem natStr_ne_nil (n : Nat) : natStr n ≠ [] := by
  by_cases h : n < 10
  · rw [natStr_lt h]; simp
  · rw [natStr_ge (by omega)]; simp

theorem natStr_length_pos (n : Nat) : 1 ≤ (natStr n).length := by
  have := natStr_ne_nil n
  exact List.length_pos_iff.2 this

theorem decVal_natStr (n : Nat) : decVal (natStr n) = n := by
  induction n using Nat.strongRecOn with
  | ind n ih =>
    by_cases h : n < 10
    · rw [natStr_lt h]; simp [decVal, digitVal_ofNat h]
    · rw [natStr_ge (by omega), decVal_append, ih (n / 10) (by omega)]
      simp only [decVal, List.foldl_cons, List.foldl_nil, digitVal_ofNat (Nat.mod_lt n (by omega : 0 < 10)),
        List.length_singleton, Nat.pow_one]
      omega

theorem natStr_length_le {n k : Nat} (hk : 1 ≤ k) (h : n < 10 ^ k) : (natStr n).length ≤ k := by
  induction k generalizing n with
  | zero => omega
  | succ k ih =>
    by_cases h10 : n < 10
    · rw [natStr_lt h10]; simp
    · rw [natStr_ge (by omega)]
      simp only [List.length_append, List.length_singleton]
      have : 1 ≤ k := by
        rcases Nat.eq_zero_or_pos k with rfl | h0
        · simp at h; omega
        · exact h0
      have := ih this (n := n / 10) (by rw [Nat.pow_succ] at h; omega)
      omega

theorem natStr_inj {a b : Nat} (h : natStr a = natStr b) : a = b := by
  rw [← decVal_natStr a, ← decVal_natStr b, h]

theorem zfill_digits {w : Nat} {s : Str} (h : ∀ c ∈ s, isDigit c = true) : ∀ c ∈ zfill w s, isDigit c = true := by
  intro c hc
  rcases List.mem_append.1 hc with hc | hc
  · rw [(List.mem_replicate.1 hc).2]; decide
  · exact h c hc

theorem decVal_zfill (w : Nat) (s : Str) : decVal (zfill w s) = decVal s := by
  unfold zfill; rw [decVal_append, decVal_zeros]; simp

theorem zfill_ne_nil {w : Nat} {s : Str} (h : s ≠ []) : zfill w s ≠ [] := by
  simp [zfill, h]

/-- digit strings are solid -/
theorem solid_of_all {s : Str} (hne : s ≠ []) (h : ∀ c ∈ s, isSpace c = false) : Solid s := by
  constructor
  · cases s with
    | nil => simp at hne
    | cons c r => exact ⟨c, r, rfl, h c (by simp)⟩
  · rcases List.eq_nil_or_concat s with rfl | ⟨r, c, rfl⟩
    · simp at hne
    · exact ⟨r, c, by simp, h c (by simp)⟩

theorem solid_digits {s : Str} (hne : s ≠ []) (h : ∀ c ∈ s, isDigit c = true) : Solid s :=
  solid_of_all hne fun c hc => isDigit_not_space (h c hc)

theorem parseSign_digits {s : Str} (h : ∀ c ∈ s, isDigit c = true) : parseSign s = (false, s) := by
  cases s with
  | nil => rfl
  | cons c cs =>
    have hc := h c (by simp)
    have h1 : c ≠ '-' := isDigit_ne hc _ (by decide)
    have h2 : c ≠ '+' := isDigit_ne hc _ (by decide)
    simp [parseSign, h1, h2]

/-- `int()` of a digit string with blanks around it -/
theorem parseInt_digits {s a b : Str} (hne : s ≠ []) (h : ∀ c ∈ s, isDigit c = true)
    (ha : ∀ c ∈ a, isSpace c = true) (hb : ∀ c ∈ b, isSpace c = true) :
    parseInt (a ++ s ++ b) = some (decVal s : Int) := by
  unfold parseInt
  rw [strip_pad (solid_digits hne h) ha hb, parseSign_digits h]
  simp [parseDigits_digits h hne]

theorem parseInt_neg_digits {s a b : Str} (hne : s ≠ []) (h : ∀ c ∈ s, isDigit c = true)
    (ha : ∀ c ∈ a, isSpace c = true) (hb : ∀ c ∈ b, isSpace c = true) :
    parseInt (a ++ ('-' :: s) ++ b) = some (-(decVal s : Int)) := by
  have hsol : Solid ('-' :: s) := by
    refine solid_of_all (by simp) ?_
    intro c hc
    rcases List.mem_cons.1 hc with rfl | hc
    · decide
    · exact isDigit_not_space (h c hc)
  unfold parseInt
  rw [strip_pad hsol ha hb]
  simp [parseSign, parseDigits_digits h hne]

theorem parseInt_padLeft_natStr (w n : Nat) : parseInt (padLeft w (natStr n)) = some (n : Int) := by
  have := parseInt_digits (natStr_ne_nil n) (natStr_digits n) (mem_blanks (n := w - (natStr n).length))
    (b := []) (by simp)
  simpa [padLeft, decVal_natStr] using this

theorem parseInt_padRight_natStr (w n : Nat) : parseInt (padRight w (natStr n)) = some (n : Int) := by
  have := parseInt_digits (natStr_ne_nil n) (natStr_digits n) (a := []) (by simp)
    (mem_blanks (n := w - (natStr n).length))
  simpa [padRight, decVal_natStr] using this

theorem parseInt_natStr (n : Nat) : parseInt (natStr n) = some (n : Int) := by
  have := parseInt_padLeft_natStr 0 n
  simpa [padLeft] using this

theorem parseInt_zfill_natStr (w n : Nat) : parseInt (zfill w (natStr n)) = some (n : Int) := by
  have := parseInt_digits (zfill_ne_nil (w := w) (natStr_ne_nil n)) (zfill_digits (natStr_digits n))
    (a := []) (by simp) (b := []) (by simp)
  simpa [decVal_zfill, decVal_natStr] using this

theorem parseInt_intStr_pad (a b : Str) (i : Int) (ha : ∀ c ∈ a, isSpace c = true)
    (hb : ∀ c ∈ b, isSpace c = true) : parseInt (a ++ intStr i ++ b) = some i := by
  unfold intStr
  by_cases h : i < 0
  · rw [if_pos h, parseInt_neg_digits (natStr_ne_nil _) (natStr_digits _) ha hb, decVal_natStr]
    congr 1; omega
  · rw [if_neg h, parseInt_digits (natStr_ne_nil _) (natStr_digits _) ha hb, decVal_natStr]
    congr 1; omega

/-- white space around does not matter -/
theorem parseInt_append_space (s t : Str) (ht : ∀ c ∈ t, isSpace c = true) : parseInt (s ++ t) = parseInt s := by
  unfold parseInt; rw [strip_append_space _ _ ht]

theorem parseFloat_append_space (s t : Str) (ht : ∀ c ∈ t, isSpace c = true) :
    parseFloat (s ++ t) = parseFloat s := by
  unfold parseFloat; rw [strip_append_space _ _ ht]

theorem parseFloat_prepend_space (t s : Str) (ht : ∀ c ∈ t, isSpace c = true) :
    parseFloat (t ++ s) = parseFloat s := by
  unfold parseFloat; rw [strip_prepend_space _ _ ht]

theorem parseInt_prepend_space (t s : Str) (ht : ∀ c ∈ t, isSpace c = true) :
    parseInt (t ++ s) = parseInt s := by
  unfold parseInt; rw [strip_prepend_space _ _ ht]

/-! ## floats -/

theorem cutAt_none {p : Char → Bool} {s : Str} (h : ∀ c ∈ s, p c = false) : cutAt p s = (s, none) := by
  induction s with
  | nil => rfl
  | cons c cs ih =>
    simp only [cutAt, h c (by simp)]
    rw [ih (fun x hx => h x (by simp [hx]))]; simp

theorem cutAt_some {p : Char → Bool} {s : Str} {c : Char} {t : Str} (h : ∀ x ∈ s, p x = false) (hc : p c = true) :
    cutAt p (s ++ c :: t) = (s, some t) := by
  induction s with
  | nil => simp [cutAt, hc]
  | cons d ds ih =>
    simp only [List.cons_append, cutAt, h d (by simp)]
    rw [ih (fun x hx => h x (by simp [hx]))]; simp

theorem digitCount_digits {s : Str} (h : ∀ c ∈ s, isDigit c = true) : digitCount s = s.length := by
  unfold digitCount
  rw [List.filter_eq_self.2 h]

theorem parseDigits0_digits {s : Str} (h : ∀ c ∈ s, isDigit c = true) : parseDigits0 s = some (decVal s) := by
  unfold parseDigits0
  split
  · rename_i h0; rw [h0]; rfl
  · rename_i h0; exact parseDigits_digits h h0

theorem parseMant_point {a b : Str} (ha : ∀ c ∈ a, isDigit c = true) (hb : ∀ c ∈ b, isDigit c = true)
    (hne : a ≠ [] ∨ b ≠ []) :
    parseMant (a ++ '.' :: b) = some ((decVal a : Rat) + (decVal b : Rat) / (10 : Rat) ^ b.length) := by
  unfold parseMant
  rw [cutAt_some (fun x hx => by
    have := isDigit_ne (ha x hx) '.' (by decide)
    simpa using this) (by decide)]
  simp only
  rw [if_neg (by rintro ⟨h1, h2⟩; rcases hne with h | h <;> contradiction)]
  rw [parseDigits0_digits ha, parseDigits0_digits hb, digitCount_digits hb]

theorem parseMant_int {a : Str} (ha : ∀ c ∈ a, isDigit c = true) (hne : a ≠ []) :
    parseMant a = some (decVal a : Rat) := by
  unfold parseMant
  rw [cutAt_none (fun x hx => by
    have := isDigit_ne (ha x hx) '.' (by decide)
    simpa using this)]
  simp [parseDigits_digits ha hne]

/-- characters of an unsigned decimal number without exponent -/
def numChar (c : Char) : Bool := isDigit c || c == '.'

theorem numChar_not_exp {c : Char} (h : numChar c = true) : (c == 'e' || c == 'E') = false := by
  rcases Bool.or_eq_true_iff.1 h with h | h
  · have h1 := isDigit_ne h 'e' (by decide)
    have h2 := isDigit_ne h 'E' (by decide)
    simp [h1, h2]
  · rw [beq_iff_eq] at h; subst h; decide

theorem parseUFloat_plain {s : Str} (h : ∀ c ∈ s, numChar c = true) : parseUFloat s = parseMant s := by
  unfold parseUFloat
  rw [cutAt_none (fun x hx => numChar_not_exp (h x hx))]

theorem lowerC_digit {c : Char} (h : isDigit c = true) : lowerC c = c := by
  unfold isDigit at h; unfold lowerC
  simp at h
  rw [if_neg (by omega)]

/-- the first character decides that a string is not one of `inf`, `nan` -/
theorem not_special {c : Char} {r : Str} (h : numChar c = true) :
    lower (c :: r) ≠ c% "inf" ∧ lower (c :: r) ≠ c% "infinity" ∧ lower (c :: r) ≠ c% "nan" := by
  have hl : lowerC c = c := by
    rcases Bool.or_eq_true_iff.1 h with h | h
    · exact lowerC_digit h
    · rw [beq_iff_eq] at h; subst h; decide
  have h1 : c ≠ 'i' := by rintro rfl; revert h; decide
  have h2 : c ≠ 'n' := by rintro rfl; revert h; decide
  simp [lower, hl, h1, h2]

theorem parseSign_numChar {c : Char} {r : Str} (h : numChar c = true) : parseSign (c :: r) = (false, c :: r) := by
  have h1 : c ≠ '-' := by rintro rfl; revert h; decide
  have h2 : c ≠ '+' := by rintro rfl; revert h; decide
  simp [parseSign, h1, h2]

/-- `float()` of an unsigned number with white space around -/
theorem parseFloat_unsigned {c : Char} {r a b : Str} {q : Rat} (hc : numChar c = true) (hs : Solid (c :: r))
    (ha : ∀ c ∈ a, isSpace c = true) (hb : ∀ c ∈ b, isSpace c = true) (hq : parseUFloat (c :: r) = some q) :
    parseFloat (a ++ (c :: r) ++ b) = some (.fin q) := by
  unfold parseFloat
  rw [strip_pad hs ha hb, parseSign_numChar hc]
  obtain ⟨h1, h2, h3⟩ := not_special (r := r) hc
  simp [h1, h2, h3, hq]

theorem parseFloat_negative {c : Char} {r a b : Str} {q : Rat} (hc : numChar c = true) (hs : Solid (c :: r))
    (ha : ∀ c ∈ a, isSpace c = true) (hb : ∀ c ∈ b, isSpace c = true) (hq : parseUFloat (c :: r) = some q) :
    parseFloat (a ++ ('-' :: c :: r) ++ b) = some (.fin (-q)) := by
  have hs' : Solid ('-' :: c :: r) := by
    obtain ⟨_, t, d, h2, h3⟩ := hs
    exact ⟨⟨'-', c :: r, rfl, by decide⟩, '-' :: t, d, by simp [h2], h3⟩
  unfold parseFloat
  rw [strip_pad hs' ha hb]
  obtain ⟨h1, h2, h3⟩ := not_special (r := r) hc
  simp [parseSign, h1, h2, h3, hq]

theorem numChar_not_space {c : Char} (h : numChar c = true) : isSpace c = false := by
  rcases Bool.or_eq_true_iff.1 h with h | h
  · exact isDigit_not_space h
  · rw [beq_iff_eq] at h; subst h; decide

/-- blank strings are not numbers -/
theorem parseFloat_blank {s : Str} (h : ∀ c ∈ s, isSpace c = true) : parseFloat s = none := by
  have : strip s = [] := by
    unfold strip; rw [(rstrip_eq_nil_iff s).2 h]; rfl
  unfold parseFloat; rw [this]
  decide

theorem parseInt_blank {s : Str} (h : ∀ c ∈ s, isSpace c = true) : parseInt s = none := by
  have : strip s = [] := by
    unfold strip; rw [(rstrip_eq_nil_iff s).2 h]; rfl
  unfold parseInt; rw [this]
  decide

end Verif.Py
