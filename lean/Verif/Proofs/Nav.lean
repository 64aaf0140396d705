import Verif.Spec.Nav
import Verif.Model.Nav
import Verif.Proofs.HeaderLines
/-! # Navigation files: numbers and orbit lines -/
namespace Verif.Proofs
open Verif.Py Verif.Model Verif.Spec Verif.Props

theorem digits_isDigit {ds : List Nat} (h : ∀ x ∈ ds, x < 10) : ∀ c ∈ ds.map digit, isDigit c = true := by
  intro c hc
  obtain ⟨x, hx, rfl⟩ := List.mem_map.1 hc
  exact digit_isDigit (h x hx)

theorem decVal_digits {ds : List Nat} (h : ∀ x ∈ ds, x < 10) : decVal (ds.map digit) = numeral ds := by
  unfold decVal numeral
  rw [List.foldl_map]
  generalize 0 = a
  induction ds generalizing a with
  | nil => rfl
  | cons d ds ih =>
    simp only [List.foldl_cons]
    rw [digit_val (h d (by simp))]
    exact ih (fun x hx => h x (by simp [hx])) _

theorem numeral_append (a b : List Nat) : numeral (a ++ b) = numeral a * 10 ^ b.length + numeral b := by
  unfold numeral
  rw [List.foldl_append]
  generalize a.foldl (fun a d => a * 10 + d) 0 = x
  have : ∀ x y : Nat, b.foldl (fun a d => a * 10 + d) (x + y) = x * 10 ^ b.length + b.foldl (fun a d => a * 10 + d) y := by
    induction b with
    | nil => intro x y; simp
    | cons d b ih =>
      intro x y
      simp only [List.foldl_cons, List.length_cons]
      rw [show (x + y) * 10 + d = x * 10 + (y * 10 + d) by ring, ih]
      ring
  simpa using this x 0

theorem fixExp_append (a b : Str) : fixExp (a ++ b) = fixExp a ++ fixExp b := by simp [fixExp, lower, replaceChar]

theorem fixExp_same {s : Str} (h : ∀ c ∈ s, isDigit c = true ∨ isSpace c = true ∨ c = '.' ∨ c = '-' ∨ c = '+') : fixExp s = s := by
  unfold fixExp lower replaceChar
  rw [List.map_map]
  conv => rhs; rw [← List.map_id s]
  apply List.map_congr_left
  intro c hc
  have hl : lowerC c = c := by
    unfold lowerC
    rw [if_neg]
    rcases h c hc with h | h | h | h | h
    · unfold isDigit at h; simp only [Bool.and_eq_true, decide_eq_true_eq] at h; omega
    · unfold isSpace at h
      simp only [Bool.or_eq_true, Bool.and_eq_true, decide_eq_true_eq, beq_iff_eq] at h
      omega
    · subst h; decide
    · subst h; decide
    · subst h; decide
  have hd : c ≠ 'd' := by
    rcases h c hc with h | h | h | h | h
    · rintro rfl; revert h; decide
    · rintro rfl; revert h; decide
    · subst h; decide
    · subst h; decide
    · subst h; decide
  simp [hl, hd]

theorem fixExp_letter {c : Char} (h : c ∈ ['D', 'd', 'E', 'e']) : fixExp [c] = ['e'] := by
  simp only [List.mem_cons, List.not_mem_nil, or_false] at h
  rcases h with rfl | rfl | rfl | rfl <;> decide

theorem fixExp_text {d : DNum} (h : d.Ok) : fixExp d.text = (if d.neg then ['-'] else []) ++ d.whole.map digit ++ ['.'] ++
    d.frac.map digit ++ ['e'] ++ [if d.eneg then '-' else '+'] ++ d.exp.map digit := by
  obtain ⟨h1, h2, h3, h4, h5⟩ := h
  have hd : ∀ l : List Nat, (∀ x ∈ l, x ∈ d.whole ++ d.frac ++ d.exp) → fixExp (l.map digit) = l.map digit := fun l hl =>
    fixExp_same fun c hc => Or.inl (digits_isDigit (fun x hx => h1 x (hl x hx)) c hc)
  unfold DNum.text
  simp only [fixExp_append]
  rw [hd d.whole (by simp +contextual), hd d.frac (by simp +contextual), hd d.exp (by simp +contextual), fixExp_letter h4]
  congr 1; congr 1
  · congr 1; congr 1; congr 1
    congr 1
    split <;> exact fixExp_same (by simp)
  · exact fixExp_same (by split <;> simp)

theorem pow10_eq (neg : Bool) (n : Nat) (q : Rat) :
    q * pow10 (if neg then -(n : Int) else n) = if neg then q / 10 ^ n else q * 10 ^ n := by
  cases neg with
  | false => rfl
  | true =>
    simp only [if_true]
    cases n with
    | zero => simp [pow10]
    | succ n => show q * (1 / 10 ^ (n + 1)) = _; rw [mul_one_div]

/-- `float()` of a number written with any of the exponent letters, white space around it -/
theorem parseFloat_dnum {d : DNum} (h : d.Ok) {p q : Str} (hp : ∀ c ∈ p, isSpace c = true) (hq : ∀ c ∈ q, isSpace c = true) :
    parseFloat (p ++ fixExp d.text ++ q) = some (.fin d.value) := by
  rw [fixExp_text h]
  obtain ⟨h1, h2, h3, h4, h5⟩ := h
  have hw : ∀ c ∈ d.whole.map digit, isDigit c = true := digits_isDigit fun x hx => h1 x (by simp [hx])
  have hf : ∀ c ∈ d.frac.map digit, isDigit c = true := digits_isDigit fun x hx => h1 x (by simp [hx])
  have he : ∀ c ∈ d.exp.map digit, isDigit c = true := digits_isDigit fun x hx => h1 x (by simp [hx])
  generalize hW : d.whole.map digit = W at hw
  generalize hF : d.frac.map digit = F at hf
  generalize hE : d.exp.map digit = E at he
  obtain ⟨body, hbody⟩ : ∃ b, b = W ++ ['.'] ++ F ++ ['e'] ++ [if d.eneg then '-' else '+'] ++ E := ⟨_, rfl⟩
  have hu : parseUFloat body = some (let m : Rat := (numeral (d.whole ++ d.frac) : Rat) / 10 ^ d.frac.length
      if d.eneg then m / 10 ^ numeral d.exp else m * 10 ^ numeral d.exp) := by
    have hcut : cutAt (fun c => c == 'e' || c == 'E') body = (W ++ '.' :: F, some ([if d.eneg then '-' else '+'] ++ E)) := by
      rw [hbody, show W ++ ['.'] ++ F ++ ['e'] ++ [if d.eneg then '-' else '+'] ++ E =
        (W ++ '.' :: F) ++ 'e' :: ([if d.eneg then '-' else '+'] ++ E) by simp]
      apply cutAt_some
      · intro x hx
        apply numChar_not_exp
        simp only [List.mem_append, List.mem_cons] at hx
        rcases hx with hx | hx | hx
        · simp [numChar, hw x hx]
        · subst hx; decide
        · simp [numChar, hf x hx]
      · decide
    unfold parseUFloat
    rw [hcut]
    simp only
    rw [parseMant_point hw hf (by
      by_contra hc
      simp only [not_or, not_not] at hc
      apply h2
      rw [← hW, ← hF] at hc
      simp only [List.map_eq_nil_iff] at hc
      simp [hc])]
    have hs : parseSign ([if d.eneg then '-' else '+'] ++ E) = (d.eneg, E) := by
      cases d.eneg <;> simp [parseSign]
    simp only [hs]
    rw [parseDigits_digits he (by rw [← hE]; simpa using h3)]
    simp only [Option.map_some]
    rw [pow10_eq]
    have hval : (decVal W : Rat) + (decVal F : Rat) / 10 ^ F.length = (numeral (d.whole ++ d.frac) : Rat) / 10 ^ d.frac.length := by
      rw [← hW, ← hF, decVal_digits (fun x hx => h1 x (by simp [hx])), decVal_digits (fun x hx => h1 x (by simp [hx])),
        numeral_append, List.length_map]
      push_cast
      field_simp
    rw [hval, ← hE, decVal_digits (fun x hx => h1 x (by simp [hx]))]
  have hall : ∀ x ∈ body, isSpace x = false := by
    intro x hx
    rw [hbody] at hx
    simp only [List.mem_append, List.mem_singleton] at hx
    rcases hx with ((((hx | hx) | hx) | hx) | hx) | hx
    · exact isDigit_not_space (hw x hx)
    · subst hx; decide
    · exact isDigit_not_space (hf x hx)
    · subst hx; decide
    · subst hx; split <;> decide
    · exact isDigit_not_space (he x hx)
  obtain ⟨c, r, hcr, hc⟩ : ∃ c r, body = c :: r ∧ numChar c = true := by
    cases hWe : W with
    | nil => exact ⟨'.', _, by rw [hbody, hWe]; rfl, by decide⟩
    | cons c W' => exact ⟨c, _, by rw [hbody, hWe]; rfl, by simp [numChar, hw c (by simp [hWe])]⟩
  have hs : Solid (c :: r) := by rw [← hcr]; exact solid_of_all (by simp [hcr]) hall
  rw [hcr] at hu
  have hval : (if d.neg then -(let m : Rat := (numeral (d.whole ++ d.frac) : Rat) / 10 ^ d.frac.length
      if d.eneg then m / 10 ^ numeral d.exp else m * 10 ^ numeral d.exp) else (let m : Rat := (numeral (d.whole ++ d.frac) : Rat) / 10 ^ d.frac.length
      if d.eneg then m / 10 ^ numeral d.exp else m * 10 ^ numeral d.exp)) = d.value := by
    unfold DNum.value
    simp only
    split <;> split <;> ring
  rw [show (if d.neg then ['-'] else []) ++ W ++ ['.'] ++ F ++ ['e'] ++ [if d.eneg then '-' else '+'] ++ E =
    (if d.neg then ['-'] else []) ++ (c :: r) by rw [← hcr, hbody]; simp]
  cases hn : d.neg with
  | false =>
    rw [hn] at hval
    simp only [Bool.false_eq_true, if_false] at hval
    have := parseFloat_unsigned hc hs hp hq hu
    rw [hval] at this
    simpa using this
  | true =>
    rw [hn] at hval
    simp only [if_true] at hval
    have := parseFloat_negative hc hs hp hq hu
    rw [hval] at this
    simpa using this

theorem dnum_last {d : DNum} (h : d.Ok) : ∃ p c, d.text = p ++ [c] ∧ isSpace c = false := by
  obtain ⟨h1, h2, h3, h4, h5⟩ := h
  obtain ⟨es, e, hes⟩ : ∃ es e, d.exp = es ++ [e] := ⟨_, _, (List.dropLast_concat_getLast h3).symm⟩
  refine ⟨(if d.neg then ['-'] else []) ++ d.whole.map digit ++ ['.'] ++ d.frac.map digit ++ [d.letter] ++
    [if d.eneg then '-' else '+'] ++ es.map digit, digit e, ?_, ?_⟩
  · unfold DNum.text; rw [hes]; simp
  · exact isDigit_not_space (digit_isDigit (h1 e (by simp [hes])))

theorem fixExp_blanks (k : Nat) : fixExp (List.replicate k ' ') = List.replicate k ' ' :=
  fixExp_same fun _ hc => Or.inr (Or.inl (mem_blanks _ hc))

theorem parseFloat_dpad {d : DNum} (h : d.Ok) {q : Str} (hq : ∀ c ∈ q, isSpace c = true) (w : Nat) :
    parseFloat (fixExp (padLeft w d.text ++ q)) = some (.fin d.value) := by
  unfold padLeft
  rw [fixExp_append, fixExp_append, fixExp_blanks, fixExp_same (s := q) fun c hc => Or.inr (Or.inl (hq c hc))]
  exact parseFloat_dnum h mem_blanks hq

/-! ## orbit lines -/

theorem ofield_length {f : OField} (h : f.Ok) : f.render.length = 19 := by
  cases f with
  | none => rfl
  | some d => exact padLeft_length h.2.2.2.2

theorem rstrip_slice_rstrip (s : Str) (a b : Nat) : rstrip (slice (rstrip s) a b) = rstrip (slice s a b) := by
  obtain ⟨t, h, ht⟩ := slice_rstrip s a b
  rw [h, rstrip_append_space _ _ fun c hc => (ht c hc).1]

theorem slice_flatten {fs : List Str} (hl : ∀ f ∈ fs, f.length = 19) (p q : Str) (k : Nat) (hk : k < fs.length) :
    slice (p ++ fs.flatten ++ q) (p.length + 19 * k) (p.length + 19 * k + 19) = fs[k] := by
  have hsum : ∀ l : List Str, (∀ f ∈ l, f.length = 19) → l.flatten.length = 19 * l.length := by
    intro l hl
    induction l with
    | nil => rfl
    | cons x l ih =>
      simp only [List.flatten_cons, List.length_append, List.length_cons]
      rw [ih fun f hf => hl f (by simp [hf]), hl x (by simp)]; omega
  have hdec : fs = fs.take k ++ fs[k] :: fs.drop (k + 1) := by
    rw [List.getElem_cons_drop, List.take_append_drop]
  conv => lhs; rw [hdec]
  rw [List.flatten_append, List.flatten_cons, show p ++ ((fs.take k).flatten ++ (fs[k] ++ (fs.drop (k + 1)).flatten)) ++ q =
    (p ++ (fs.take k).flatten) ++ fs[k] ++ ((fs.drop (k + 1)).flatten ++ q) by simp]
  have h1 : (fs.take k).flatten.length = 19 * k := by
    rw [hsum _ fun f hf => hl f (List.mem_of_mem_take hf), List.length_take]; congr 1; omega
  apply slice_exact
  · rw [List.length_append, h1]
  · rw [List.length_append, h1, hl _ (List.getElem_mem _)]

/-- the value read from a field of an orbit line -/
def FieldValue (txt : Str) (v : PyFloat) : Prop :=
  ((∀ c ∈ txt, isSpace c = true) ∧ v = .fin 0) ∨ (¬ (∀ c ∈ txt, isSpace c = true) ∧ parseFloat (fixExp txt) = some v)

theorem fixExp_eq_nil {s : Str} : fixExp s = [] ↔ s = [] := by simp [fixExp, lower, replaceChar]

theorem fixExp_rstrip_float (s : Str) : parseFloat (fixExp (rstrip s)) = parseFloat (fixExp s) := by
  obtain ⟨t, h, ht⟩ := rstrip_decomp s
  conv => rhs; rw [h, fixExp_append]
  rw [parseFloat_append_space]
  intro c hc
  have : fixExp t = t := fixExp_same fun c hc => Or.inr (Or.inl (ht c hc))
  rw [this] at hc
  exact ht c hc

theorem orbitValue_ok (s : Str) (v : PyFloat) : orbitValue (fixExp (rstrip s)) = .ok v ↔ FieldValue s v := by
  unfold orbitValue FieldValue
  have hiff : fixExp (rstrip s) = [] ↔ ∀ c ∈ s, isSpace c = true := by rw [fixExp_eq_nil, rstrip_eq_nil_iff]
  by_cases h : ∀ c ∈ s, isSpace c = true
  · rw [if_pos (hiff.2 h)]
    constructor
    · rintro ⟨⟩; exact Or.inl ⟨h, rfl⟩
    · rintro (⟨_, rfl⟩ | ⟨h', _⟩)
      · rfl
      · exact absurd h h'
  · rw [if_neg fun hc => h (hiff.1 hc)]
    rw [show ((∀ c ∈ s, isSpace c = true) ∧ v = PyFloat.fin 0 ∨ (¬∀ c ∈ s, isSpace c = true) ∧ parseFloat (fixExp s) = some v) ↔
      parseFloat (fixExp s) = some v from ⟨fun hh => hh.elim (fun x => absurd x.1 h) (fun x => x.2), fun x => Or.inr ⟨h, x⟩⟩]
    unfold pyFloat
    rw [fixExp_rstrip_float]
    cases hp : parseFloat (fixExp s) with
    | none => simp [bind, Except.bind]
    | some w =>
      simp only [ok_bind, pure, Except.pure, Option.some.injEq, Except.ok.injEq]
      cases hw : w.truthy with
      | true => simp
      | false =>
        have : w = .fin 0 := by
          cases w with
          | fin q => simp only [PyFloat.truthy, bne_eq_false_iff_eq] at hw; rw [hw]
          | inf b => simp [PyFloat.truthy] at hw
          | nan => simp [PyFloat.truthy] at hw
        simp [this]

theorem orbitValue_error {s : Str} {e : PyErr} (h : orbitValue s = .error e) : e = .value := by
  unfold orbitValue at h
  split at h
  · cases h
  · rw [bind_eq_error] at h
    rcases h with h | ⟨a, _, h⟩
    · exact pyFloat_error h
    · cases h

theorem mapOrbit_error {l : List Str} {e : PyErr} (h : mapOrbit l = .error e) : e = .value := by
  induction l with
  | nil => cases h
  | cons s l ih =>
    simp only [mapOrbit, bind_eq_error, pure, Except.pure, reduceCtorEq, and_false, exists_false, or_false] at h
    rcases h with h | ⟨a, _, h⟩
    · exact orbitValue_error h
    · exact ih h

theorem mapOrbit_ok (l : List Str) (vs : List PyFloat) :
    mapOrbit l = .ok vs ↔ List.Forall₂ (fun s v => orbitValue s = .ok v) l vs := by
  induction l generalizing vs with
  | nil => simp [mapOrbit, eq_comm]
  | cons s l ih =>
    simp only [mapOrbit, bind_eq_ok, pure_eq_ok]
    constructor
    · rintro ⟨a, ha, b, hb, rfl⟩
      exact .cons ha ((ih b).1 hb)
    · intro h
      cases h with
      | cons h1 h2 => exact ⟨_, h1, _, (ih _).2 h2, rfl⟩

/-- the columns of an orbit line, cut in fields of 19 -/
def orbitCols (c : NavCfg) (line : Str) : List Str :=
  (pyRange c.orbitStart c.orbitEnd recLenN).map fun i => slice line i (i + 19)

theorem orbitLine_ok (c : NavCfg) (line : Str) (n : Nat) (vs : List PyFloat) :
    orbitLine c line n = .ok vs ↔ List.Forall₂ FieldValue ((orbitCols c line).take n) vs := by
  have key : ((pyRange c.orbitStart c.orbitEnd recLenN).map fun i =>
      fixExp (rstrip (slice (rstrip line) i (i + recLenN)))).take n = ((orbitCols c line).take n).map fun s => fixExp (rstrip s) := by
    unfold orbitCols
    rw [← List.map_take, ← List.map_take, List.map_map]
    apply List.map_congr_left
    intro i _
    simp only [Function.comp]
    rw [rstrip_slice_rstrip]; rfl
  unfold orbitLine
  simp only [key]
  have h2 : mapOrbit (((orbitCols c line).take n).map fun s => fixExp (rstrip s)) = .ok vs ↔
      List.Forall₂ FieldValue ((orbitCols c line).take n) vs := by
    rw [mapOrbit_ok, List.forall₂_map_left_iff]
    simp only [orbitValue_ok]
  rw [← h2]
  unfold catching
  cases hm : mapOrbit (((orbitCols c line).take n).map fun s => fixExp (rstrip s)) with
  | ok v => simp
  | error e => simp [mapOrbit_error hm]

theorem orbitLine_error (c : NavCfg) (line : Str) (n : Nat) (e : PyErr) (h : orbitLine c line n = .error e) : e = .rinex := by
  unfold orbitLine catching at h
  simp only at h
  split at h
  · cases h
  · rename_i e' hm
    rw [mapOrbit_error hm] at h
    simp at h; exact h.symm

theorem readOrbits_error (c : NavCfg) (ls : List Str) (ns : List Nat) (e : PyErr) (h : readOrbits c ls ns = .error e) :
    e = .rinex := by
  induction ls generalizing ns with
  | nil => simp [readOrbits] at h
  | cons l ls ih =>
    cases ns with
    | nil => simp [readOrbits] at h; exact h.symm
    | cons n ns =>
      simp only [readOrbits, bind_eq_error, pure, Except.pure, reduceCtorEq, and_false, exists_false, or_false] at h
      rcases h with h | ⟨a, _, h⟩
      · exact orbitLine_error _ _ _ _ h
      · exact ih _ h

/-- more lines than announced is an error -/
theorem readOrbits_long (c : NavCfg) (ls : List Str) (ns : List Nat) (h : ns.length < ls.length) :
    readOrbits c ls ns = .error .rinex := by
  cases hr : readOrbits c ls ns with
  | error e => rw [readOrbits_error _ _ _ _ hr]
  | ok v =>
    exfalso
    induction ls generalizing ns v with
    | nil => simp at h
    | cons l ls ih =>
      cases ns with
      | nil => simp [readOrbits] at hr
      | cons n ns =>
        simp only [readOrbits, bind_eq_ok, pure_eq_ok] at hr
        obtain ⟨a, _, b, hb, _⟩ := hr
        exact ih ns (by simpa using h) b hb

theorem cols2 (v : Nat) (line : Str) : orbitCols (navCfg2 v) line =
    [slice line 3 22, slice line 22 41, slice line 41 60, slice line 60 79] := by
  unfold orbitCols; rw [show pyRange (navCfg2 v).orbitStart (navCfg2 v).orbitEnd recLenN = [3, 22, 41, 60] from (by decide : pyRange 3 75 19 = [3, 22, 41, 60])]; rfl
theorem cols3 (v : Nat) (line : Str) : orbitCols (navCfg3 v) line =
    [slice line 4 23, slice line 23 42, slice line 42 61, slice line 61 80] := by
  unfold orbitCols; rw [show pyRange (navCfg3 v).orbitStart (navCfg3 v).orbitEnd recLenN = [4, 23, 42, 61] from (by decide : pyRange 4 76 19 = [4, 23, 42, 61])]; rfl

end Verif.Proofs
