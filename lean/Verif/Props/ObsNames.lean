import Verif.Proofs.Names
import Verif.Proofs.HeaderLines
import Verif.Spec.Fetch
/-!
# Property C38: recognition and decompression of observation files
-/
namespace Verif.Props
open Verif.Py Verif.Model Verif.Spec Verif.Proofs

theorem lowerC_lower (c d : Char) (hd : lowerC d = d) : lowerC c = lowerC d ↔ lowerC c = d := by rw [hd]

theorem isAX_iff (c : Char) : isAX c = true ↔ HourLetter c := by
  unfold isAX HourLetter OneOf
  simp only [Bool.and_eq_true, decide_eq_true_eq]
  constructor
  · intro h
    have hx : lowerC c = Char.ofNat (lowerC c).toNat := (Char.ofNat_toNat _).symm
    generalize (lowerC c).toNat = n at h hx
    obtain ⟨k, hk, rfl⟩ : ∃ k, k < 24 ∧ n = 97 + k := ⟨n - 97, by omega, by omega⟩
    rw [hx]
    clear hx h
    revert k
    decide
  · rintro ⟨x, hx, h⟩
    rw [h]
    clear h
    revert x
    decide

theorem sameCI_digits {a : Str} {b : Str} (hb : ∀ c ∈ b, isDigit c = true) : SameCI a b ↔ a = b := by
  unfold SameCI
  constructor
  · intro h
    induction a generalizing b with
    | nil => cases b with
      | nil => rfl
      | cons => simp [lower] at h
    | cons c a ih => cases b with
      | nil => simp [lower] at h
      | cons d b =>
        simp only [lower, List.map_cons, List.cons.injEq] at h
        have hd := hb d (by simp)
        have h1 : c = d := by
          have e := h.1
          refine (lowerC_eq_nocase ?_ (lowerC_digit hd)).1 e
          unfold isDigit at hd
          simp only [Bool.and_eq_true, decide_eq_true_eq] at hd
          omega
        rw [h1, ih (fun x hx => hb x (by simp [hx])) h.2]
  · rintro rfl; rfl

theorem ex_minutes (s : Str) (P : Hit → Prop) :
    (reAlt [reLit (c% "00"), reLit (c% "15"), reLit (c% "30"), reLit (c% "45")]).Ex s P ↔
      ∃ m u, s = m ++ u ∧ (m = c% "00" ∨ m = c% "15" ∨ m = c% "30" ∨ m = c% "45") ∧ P ⟨m, u, []⟩ := by
  have key : ∀ {a b : Str}, (∀ c ∈ b, isDigit c = true) → (lower a = lower b ↔ a = b) := fun hb => sameCI_digits hb
  have k1 : ∀ t, (lower t = lower (c% "00") ↔ t = c% "00") := fun t => key (by decide)
  have k2 : ∀ t, (lower t = lower (c% "15") ↔ t = c% "15") := fun t => key (by decide)
  have k3 : ∀ t, (lower t = lower (c% "30") ↔ t = c% "30") := fun t => key (by decide)
  have k4 : ∀ t, (lower t = lower (c% "45") ↔ t = c% "45") := fun t => key (by decide)
  simp only [reAlt, Re.ex_alt, Re.ex_lit, k1, k2, k3, k4]
  constructor
  · rintro (⟨t, u, h1, h2, h3⟩ | ⟨t, u, h1, h2, h3⟩ | ⟨t, u, h1, h2, h3⟩ | ⟨t, u, h1, h2, h3⟩)
    · exact ⟨t, u, h1, Or.inl h2, h3⟩
    · exact ⟨t, u, h1, Or.inr (Or.inl h2), h3⟩
    · exact ⟨t, u, h1, Or.inr (Or.inr (Or.inl h2)), h3⟩
    · exact ⟨t, u, h1, Or.inr (Or.inr (Or.inr h2)), h3⟩
  · rintro ⟨t, u, h1, h2 | h2 | h2 | h2, h3⟩
    · exact Or.inl ⟨t, u, h1, h2, h3⟩
    · exact Or.inr (Or.inl ⟨t, u, h1, h2, h3⟩)
    · exact Or.inr (Or.inr (Or.inl ⟨t, u, h1, h2, h3⟩))
    · exact Or.inr (Or.inr (Or.inr ⟨t, u, h1, h2, h3⟩))

theorem oneOf_od (c : Char) : (∃ x ∈ c% "od", lowerC c = lowerC x) ↔ ∃ hat : Bool, lowerC c = if hat then 'd' else 'o' := by
  simp only [List.mem_cons, List.not_mem_nil, or_false, exists_eq_or_imp, exists_eq_left, Bool.exists_bool]
  rw [show lowerC 'o' = 'o' by decide, show lowerC 'd' = 'd' by decide]
  simp

/-- the three patterns, without suffix, are the three shapes -/
theorem ex_stem (s : Str) (P : Hit → Prop) :
    (reClassicMin.Ex s P ∨ reClassicDay.Ex s P ∨ reModernObs.Ex s P) ↔
      ∃ stem u hat, s = stem ++ u ∧ ObsStem stem hat ∧ P ⟨stem, u, []⟩ := by
  simp only [reClassicMin, reClassicDay, reModernObs, reSeq, Re.ex_seq, reW, reD, Re.ex_rep, Re.ex_c, Re.ex_oneOf, Re.ex_eps,
    Re.ex_chr, ex_minutes, isAX_iff, lowerC_dot, lowerC_us, List.append_nil, oneOf_od, Re.ex_alt, Re.ex_lit]
  constructor
  · rintro (h | h | h)
    · obtain ⟨st, u, rfl, h1, h2, d, u, rfl, h3, h4, c, u, rfl, h5, m, u, rfl, h6, c', u, rfl, rfl, y, u, rfl, h7, h8, t, u, rfl, ⟨hat, h9⟩, hP⟩ := h
      refine ⟨_, u, hat, ?_, .quarter st d c m y t hat ⟨h1, h2⟩ ⟨h3, h4⟩ h5 h6 ⟨h7, h8⟩ h9, ?_⟩
      · simp
      · simpa using hP
    · obtain ⟨st, u, rfl, h1, h2, d, u, rfl, h3, h4, c, u, rfl, h5, c', u, rfl, rfl, y, u, rfl, h7, h8, t, u, rfl, ⟨hat, h9⟩, hP⟩ := h
      refine ⟨_, u, hat, ?_, .daily st d c y t hat ⟨h1, h2⟩ ⟨h3, h4⟩ h5 ⟨h7, h8⟩ h9, ?_⟩
      · simp
      · simpa using hP
    · obtain ⟨st, u, rfl, h1, h2, c1, u, rfl, rfl, c, u, rfl, h3, c2, u, rfl, rfl, d, u, rfl, h4, h5, c3, u, rfl, rfl,
        p, u, rfl, h6, h7, c4, u, rfl, rfl, f, u, rfl, h8, h9, c5, u, rfl, rfl, sy, u, rfl, h10, o, u, rfl, h11, c6, u, rfl, rfl, hx⟩ := h
      rcases hx with ⟨e, u, rfl, he, hP⟩ | ⟨e, u, rfl, he, hP⟩
      · refine ⟨_, u, true, ?_, .long st c d p f sy o e true ⟨h1, h2⟩ h3 ⟨h4, h5⟩ ⟨h6, h7⟩ ⟨h8, h9⟩ h10 h11 he, ?_⟩
        · simp
        · simpa using hP
      · refine ⟨_, u, false, ?_, .long st c d p f sy o e false ⟨h1, h2⟩ h3 ⟨h4, h5⟩ ⟨h6, h7⟩ ⟨h8, h9⟩ h10 h11 he, ?_⟩
        · simp
        · simpa using hP
  · rintro ⟨stem, u, hat, rfl, hs, hP⟩
    cases hs with
    | quarter st d c m y t _ h1 h2 h3 h4 h5 h6 =>
      refine Or.inl ⟨st, d ++ c :: m ++ '.' :: y ++ t :: u, by simp, h1.1, h1.2, d, c :: m ++ '.' :: y ++ t :: u, by simp, h2.1, h2.2, c,
        m ++ '.' :: y ++ t :: u, by simp, h3, m, '.' :: y ++ t :: u, by simp, h4, '.', y ++ t :: u, by simp, rfl, y, t :: u, rfl,
        h5.1, h5.2, t, u, rfl, ⟨hat, h6⟩, ?_⟩
      simpa using hP
    | daily st d c y t _ h1 h2 h3 h5 h6 =>
      refine Or.inr (Or.inl ⟨st, d ++ c :: '.' :: y ++ t :: u, by simp, h1.1, h1.2, d, c :: '.' :: y ++ t :: u, by simp, h2.1, h2.2, c,
        '.' :: y ++ t :: u, by simp, h3, '.', y ++ t :: u, by simp, rfl, y, t :: u, rfl,
        h5.1, h5.2, t, u, rfl, ⟨hat, h6⟩, ?_⟩)
      simpa using hP
    | long st c d p f sy o e _ h1 h2 h3 h4 h5 h6 h7 h8 =>
      refine Or.inr (Or.inr ⟨st, _, by simp; rfl, h1.1, h1.2, '_', _, rfl, rfl, c, _, rfl, h2, '_', _, rfl, rfl, d, _, rfl, h3.1, h3.2,
        '_', _, rfl, rfl, p, _, rfl, h4.1, h4.2, '_', _, rfl, rfl, f, _, rfl, h5.1, h5.2, '_', _, rfl, rfl, sy, _, rfl, h6, o, _, rfl, h7,
        '.', _, rfl, rfl, ?_⟩)
      cases hat with
      | true => exact Or.inl ⟨e, u, rfl, h8, by simpa using hP⟩
      | false => exact Or.inr ⟨e, u, rfl, h8, by simpa using hP⟩

theorem ex_obsExt (s : Str) (P : Hit → Prop) (hs : '\n' ∉ s) :
    reObsExt.Ex s P ↔ (s = [] ∨ SameCI s (c% ".z") ∨ SameCI s (c% ".gz")) ∧ P ⟨s, [], []⟩ := by
  simp only [reObsExt, reSeq, reAlt, Re.ex_seq, Re.ex_alt, Re.ex_lit, Re.ex_eps, Re.ex_eol, List.append_nil]
  have nonl : ∀ {t : Str}, s = t ++ ['\n'] → False := by rintro t rfl; simp at hs
  constructor
  · rintro (⟨t, u, rfl, h1, rfl | rfl, hP⟩ | ⟨t, u, rfl, h1, rfl | rfl, hP⟩ | ⟨rfl | rfl, hP⟩)
    · exact ⟨Or.inr (Or.inl (by unfold SameCI; simpa using h1)), by simpa using hP⟩
    · exact (nonl rfl).elim
    · exact ⟨Or.inr (Or.inr (by unfold SameCI; simpa using h1)), by simpa using hP⟩
    · exact (nonl rfl).elim
    · exact ⟨Or.inl rfl, hP⟩
    · exact absurd hs (by simp)
  · rintro ⟨rfl | h | h, hP⟩
    · exact Or.inr (Or.inr ⟨Or.inl rfl, hP⟩)
    · exact Or.inl ⟨s, [], by simp, h, Or.inl rfl, hP⟩
    · exact Or.inr (Or.inl ⟨s, [], by simp, h, Or.inl rfl, hP⟩)

theorem reObs_accepts (name : Str) (hn : '\n' ∉ name) : reObs.accepts name = true ↔ ∃ hat comp, ObsName name hat comp := by
  rw [Re.accepts_iff]
  simp only [reObs, reAlt, Re.ex_alt, Re.ex_seq]
  rw [ex_stem]
  constructor
  · rintro ⟨stem, u, hat, rfl, hs, hx⟩
    rw [ex_obsExt _ _ (by intro h; exact hn (by simp [h]))] at hx
    rcases hx.1 with h | h | h
    · exact ⟨hat, false, stem, u, rfl, hs, h⟩
    · exact ⟨hat, true, stem, u, rfl, hs, Or.inl h⟩
    · exact ⟨hat, true, stem, u, rfl, hs, Or.inr h⟩
  · rintro ⟨hat, comp, stem, u, rfl, hs, hx⟩
    refine ⟨stem, u, hat, rfl, hs, ?_⟩
    rw [ex_obsExt _ _ (by intro h; exact hn (by simp [h]))]
    refine ⟨?_, trivial⟩
    cases comp with
    | true => exact Or.inr hx
    | false => exact Or.inl hx

/-! ### marks -/

theorem lowerC_ne_of {a c : Char} (hc : lowerC c = a) {b : Char} (hb : lowerC b ≠ a) : c ≠ b := by
  rintro rfl; exact hb hc

theorem reMark_accepts (hat : Bool) (s : Str) (hn : '\n' ∉ s) :
    (if hat then reCrx else reRnx).accepts s = true ↔ Marked hat s := by
  have nn : ∀ {x : Str}, '\n' ∉ x → ∀ c ∈ x, (c != '\n') = true := by
    intro x hx c hc; rw [bne_iff_ne]; rintro rfl; exact hx hc
  cases hat with
  | true =>
    simp only [if_true, Re.accepts_iff, reCrx, reSeq, Re.ex_seq, Re.ex_grp, reAnys, Re.ex_many, Re.ex_c, lowerC_dot, Re.ex_alt, reD,
      Re.ex_rep, Re.ex_lit, Re.ex_eps]
    constructor
    · rintro ⟨x, u, rfl, -, c, u, rfl, rfl, ⟨y, u, rfl, h1, h2, t, u, rfl, h3, -⟩ | ⟨e, u, rfl, h1, -⟩⟩
      · exact ⟨x, '.' :: y ++ [t], u, by simp, Or.inl ⟨y, t, rfl, ⟨h1, h2⟩, h3⟩⟩
      · refine ⟨x, '.' :: e, u, by simp, Or.inr ?_⟩
        unfold SameCI; simp only [lower, List.map_cons] at h1 ⊢; simp [h1]
    · rintro ⟨x, m, r, rfl, hm⟩
      have hx : '\n' ∉ x := by intro h; exact hn (by simp [h])
      rcases hm with ⟨y, t, rfl, h1, h3⟩ | hm
      · exact ⟨x, '.' :: (y ++ t :: r), by simp, nn hx, '.', y ++ t :: r, rfl, rfl, Or.inl ⟨y, t :: r, rfl, h1.1, h1.2, t, r, rfl, h3, trivial⟩⟩
      · cases m with
        | nil => unfold SameCI at hm; simp [lower] at hm
        | cons d e =>
          unfold SameCI at hm
          simp only [lower, if_true, List.map_cons, List.cons.injEq] at hm
          rw [lowerC_dot] at hm
          obtain ⟨rfl, hm⟩ := hm
          exact ⟨x, '.' :: (e ++ r), by simp, nn hx, '.', e ++ r, rfl, rfl, Or.inr ⟨e, r, rfl, hm, trivial⟩⟩
  | false =>
    simp only [Bool.false_eq_true, if_false, Re.accepts_iff, reRnx, reSeq, Re.ex_seq, Re.ex_grp, reAnys, Re.ex_many, Re.ex_c, lowerC_dot, Re.ex_alt, reD,
      Re.ex_rep, Re.ex_lit, Re.ex_eps]
    constructor
    · rintro ⟨x, u, rfl, -, c, u, rfl, rfl, ⟨y, u, rfl, h1, h2, t, u, rfl, h3, -⟩ | ⟨e, u, rfl, h1, -⟩⟩
      · exact ⟨x, '.' :: y ++ [t], u, by simp, Or.inl ⟨y, t, rfl, ⟨h1, h2⟩, h3⟩⟩
      · refine ⟨x, '.' :: e, u, by simp, Or.inr ?_⟩
        unfold SameCI; simp only [lower, List.map_cons] at h1 ⊢; simp [h1]
    · rintro ⟨x, m, r, rfl, hm⟩
      have hx : '\n' ∉ x := by intro h; exact hn (by simp [h])
      rcases hm with ⟨y, t, rfl, h1, h3⟩ | hm
      · exact ⟨x, '.' :: (y ++ t :: r), by simp, nn hx, '.', y ++ t :: r, rfl, rfl, Or.inl ⟨y, t :: r, rfl, h1.1, h1.2, t, r, rfl, h3, trivial⟩⟩
      · cases m with
        | nil => unfold SameCI at hm; simp [lower] at hm
        | cons d e =>
          unfold SameCI at hm
          simp only [lower, Bool.false_eq_true, if_false, List.map_cons, List.cons.injEq] at hm
          rw [lowerC_dot] at hm
          obtain ⟨rfl, hm⟩ := hm
          exact ⟨x, '.' :: (e ++ r), by simp, nn hx, '.', e ++ r, rfl, rfl, Or.inr ⟨e, r, rfl, hm, trivial⟩⟩

/-- a mark is a dot and three characters that are neither dots nor slashes -/
theorem mark_shape {hat : Bool} {m : Str} (h : Mark hat m) :
    ∃ e, m = '.' :: e ∧ e.length = 3 ∧ '.' ∉ e ∧ '/' ∉ e ∧ (Mark hat ('.' :: e)) := by
  have hnot : ∀ {c d : Char} {l : Str}, lowerC d = d → (∀ x ∈ l, lowerC x ≠ d) → (c ∈ l → c ≠ d) := by
    intro c d l hd hl hc he; subst he; exact hl c hc hd
  rcases h with ⟨y, t, rfl, ⟨h1, h2⟩, h3⟩ | hm
  · refine ⟨y ++ [t], rfl, by simp [h1], ?_, ?_, Or.inl ⟨y, t, rfl, ⟨h1, h2⟩, h3⟩⟩
    · simp only [List.mem_append, List.mem_singleton, not_or]
      refine ⟨fun h => absurd (h2 _ h) (by decide), ?_⟩
      rintro rfl; cases hat <;> exact absurd h3 (by decide)
    · simp only [List.mem_append, List.mem_singleton, not_or]
      refine ⟨fun h => absurd (h2 _ h) (by decide), ?_⟩
      rintro rfl; cases hat <;> exact absurd h3 (by decide)
  · have hm' := hm
    cases m with
    | nil => unfold SameCI at hm; cases hat <;> simp [lower] at hm
    | cons d e =>
      have hd : d = '.' ∧ lower e = lower (if hat then c% "crx" else c% "rnx") := by
        unfold SameCI at hm
        cases hat <;> simp only [lower, Bool.false_eq_true, if_true, if_false, List.map_cons, List.cons.injEq] at hm ⊢ <;>
          rw [lowerC_dot] at hm <;> exact hm
      obtain ⟨rfl, he⟩ := hd
      refine ⟨e, rfl, ?_, ?_, ?_, Or.inr hm'⟩
      · have := congrArg List.length he
        cases hat <;> simpa [lower] using this
      · intro h
        have : lowerC '.' ∈ lower e := List.mem_map_of_mem h
        rw [he] at this
        cases hat <;> revert this <;> decide
      · intro h
        have : lowerC '/' ∈ lower e := List.mem_map_of_mem h
        rw [he] at this
        cases hat <;> revert this <;> decide

theorem mark_disjoint {m : Str} (h1 : Mark true m) (h2 : Mark false m) : False := by
  have key : ∀ {y : Str} {t : Char} {l : Str}, Digits 2 y → SameCI ('.' :: y ++ [t]) l → ∃ a b c d, l = [a, b, c, d] ∧ isDigit (lowerC b) = true := by
    rintro y t l ⟨hl, hd⟩ h
    match y, hl with
    | [y1, y2], _ =>
      unfold SameCI at h
      match l, h with
      | [a, b, c, d], h =>
        refine ⟨a, b, c, d, rfl, ?_⟩
        simp only [lower, List.cons_append, List.map_cons, List.cons.injEq] at h
        rw [← h.2.1]
        have := hd y1 (by simp)
        rw [lowerC_digit this]; exact this
      | [], h => simp [lower] at h
      | [_], h => simp [lower] at h
      | [_, _], h => simp [lower] at h
      | [_, _, _], h => simp [lower] at h
      | _ :: _ :: _ :: _ :: _ :: _, h => simp [lower] at h
  rcases h1 with ⟨y, t, rfl, k1, k2⟩ | h1 <;> rcases h2 with ⟨y', t', e, k3, k4⟩ | h2
  · obtain ⟨-, e⟩ := List.append_inj' e rfl
    simp only [List.cons.injEq, and_true] at e
    rw [e] at k2; rw [k2] at k4; exact absurd k4 (by decide)
  · obtain ⟨a, b, c, d, e, h⟩ := key k1 h2
    simp at e
    rw [← e.2.1] at h; exact absurd h (by decide)
  · rw [e] at h1
    obtain ⟨a, b, c, d, e, h⟩ := key k3 h1
    simp at e
    rw [← e.2.1] at h; exact absurd h (by decide)
  · unfold SameCI at h1 h2
    rw [h1] at h2
    exact absurd h2 (by decide)

theorem split_at {a : Char} {x y w v : Str} (hw : a ∉ w) (h : x ++ a :: y = w ++ a :: v) :
    (x = w ∧ y = v) ∨ ∃ x', x = w ++ a :: x' ∧ x' ++ a :: y = v := by
  induction x generalizing w with
  | nil =>
    cases w with
    | nil => simp at h; exact Or.inl ⟨rfl, h⟩
    | cons c w => simp at h; exact absurd (by simp [h.1]) hw
  | cons c x ih =>
    cases w with
    | nil => simp at h; exact Or.inr ⟨x, by simp [h.1], h.2⟩
    | cons d w =>
      simp only [List.cons_append, List.cons.injEq] at h
      rcases ih (w := w) (by intro hm; exact hw (by simp [hm])) h.2 with ⟨rfl, rfl⟩ | ⟨x', rfl, h2⟩
      · exact Or.inl ⟨by rw [h.1], rfl⟩
      · exact Or.inr ⟨x', by simp [h.1], h2⟩

/-- marks do not cross a slash -/
theorem marked_slash (hat : Bool) (a b : Str) : Marked hat (a ++ '/' :: b) ↔ Marked hat a ∨ Marked hat b := by
  constructor
  · rintro ⟨x, m, r, h, hm⟩
    obtain ⟨e, rfl, he, h1, h2, -⟩ := mark_shape hm
    -- where is the slash?
    rcases List.append_eq_append_iff.1 (show a ++ '/' :: b = (x ++ '.' :: e) ++ r from h) with ⟨z, hz1, hz2⟩ | ⟨z, hz1, hz2⟩
    · -- x ++ mark = a ++ z
      cases z with
      | nil =>
        refine Or.inl ⟨x, '.' :: e, [], by simpa using hz1.symm, hm⟩
      | cons c z =>
        simp only [List.cons_append, List.cons.injEq] at hz2
        obtain ⟨rfl, hz2⟩ := hz2
        -- the slash is inside x
        rcases List.append_eq_append_iff.1 hz1 with ⟨w, hw1, hw2⟩ | ⟨w, hw1, hw2⟩
        · -- a = x ++ w, mark = w ++ slash :: z
          exfalso
          have : '/' ∈ '.' :: e := by rw [hw2]; simp
          simp only [List.mem_cons] at this
          rcases this with h | h
          · exact absurd h (by decide)
          · exact h2 h
        · -- x = a ++ w, slash :: z = w ++ mark
          cases w with
          | nil => simp at hw2
          | cons c w =>
            simp only [List.cons_append, List.cons.injEq] at hw2
            refine Or.inr ⟨w, '.' :: e, r, ?_, hm⟩
            rw [hz2, hw2.2]
    · exact Or.inl ⟨x, '.' :: e, z, hz1, hm⟩
  · rintro (⟨x, m, r, rfl, hm⟩ | ⟨x, m, r, rfl, hm⟩)
    · exact ⟨x, m, r ++ '/' :: b, by simp, hm⟩
    · exact ⟨a ++ '/' :: x, m, r, by simp, hm⟩

theorem isWord_lower {c : Char} (h : isWord (lowerC c) = true) : isWord c = true := by
  unfold lowerC at h
  split at h
  · rename_i hc
    simp [isWord, hc.1, hc.2]
  · exact h

theorem oneOf_word {cs : Str} {c : Char} (h : OneOf cs c) (hcs : ∀ x ∈ cs, isWord (lowerC x) = true) : isWord c = true := by
  obtain ⟨x, hx, e⟩ := h
  exact isWord_lower (by rw [e]; exact hcs x hx)

theorem sameCI_word {a b : Str} (h : SameCI a b) (hb : ∀ x ∈ b, isWord (lowerC x) = true) : ∀ x ∈ a, isWord x = true := by
  intro x hx
  have h1 : lowerC x ∈ lower a := List.mem_map_of_mem hx
  unfold SameCI at h
  rw [h] at h1
  obtain ⟨y, hy, e⟩ := List.mem_map.1 h1
  exact isWord_lower (by rw [← e]; exact hb y hy)

/-- a stem is a row of word characters followed by the mark of its type -/
theorem stem_shape {stem : Str} {hat : Bool} (h : ObsStem stem hat) :
    ∃ w e, stem = w ++ '.' :: e ∧ (∀ x ∈ w, isWord x = true) ∧ (∀ x ∈ e, isWord x = true) ∧ Mark hat ('.' :: e) := by
  have dw : ∀ {k s}, Digits k s → ∀ x ∈ s, isWord x = true := fun h x hx => isWord_digit (h.2 x hx)
  have tw : ∀ {hat : Bool} {t : Char}, lowerC t = (if hat then 'd' else 'o') → isWord t = true := by
    intro hat t h; apply isWord_lower; rw [h]; cases hat <;> decide
  cases h with
  | quarter st d c m y t _ h1 h2 h3 h4 h5 h6 =>
    have hm : ∀ x ∈ m, isDigit x = true := by rcases h4 with rfl | rfl | rfl | rfl <;> decide
    refine ⟨st ++ d ++ c :: m, y ++ [t], by simp, ?_, ?_, Or.inl ⟨y, t, rfl, h5, h6⟩⟩
    · intro x hx
      simp only [List.mem_append, List.mem_cons] at hx
      rcases hx with (hx | hx) | rfl | hx
      · exact h1.2 x hx
      · exact dw h2 x hx
      · exact oneOf_word h3 (by decide)
      · exact isWord_digit (hm x hx)
    · intro x hx
      simp only [List.mem_append, List.mem_singleton] at hx
      rcases hx with hx | rfl
      · exact dw h5 x hx
      · exact tw h6
  | daily st d c y t _ h1 h2 h3 h5 h6 =>
    refine ⟨st ++ d ++ [c], y ++ [t], by simp, ?_, ?_, Or.inl ⟨y, t, rfl, h5, h6⟩⟩
    · intro x hx
      simp only [List.mem_append, List.mem_singleton] at hx
      rcases hx with (hx | hx) | rfl
      · exact h1.2 x hx
      · exact dw h2 x hx
      · exact h3
    · intro x hx
      simp only [List.mem_append, List.mem_singleton] at hx
      rcases hx with hx | rfl
      · exact dw h5 x hx
      · exact tw h6
  | long st c d p f sy o e _ h1 h2 h3 h4 h5 h6 h7 h8 =>
    refine ⟨st ++ '_' :: c :: '_' :: d ++ '_' :: p ++ '_' :: f ++ ['_', sy, o], e, by simp, ?_, ?_, Or.inr ?_⟩
    · intro x hx
      simp only [List.mem_append, List.mem_cons, List.not_mem_nil, or_false] at hx
      rcases hx with (((hx | rfl | rfl | rfl | hx) | rfl | hx) | rfl | hx) | rfl | rfl | rfl
      · exact h1.2 x hx
      · decide
      · exact oneOf_word h2 (by decide)
      · decide
      · exact dw h3 x hx
      · decide
      · exact h4.2 x hx
      · decide
      · exact h5.2 x hx
      · decide
      · exact h6
      · exact isWord_lower (by rw [h7]; decide)
    · exact sameCI_word h8 (by cases hat <;> decide)
    · unfold SameCI at h8 ⊢
      cases hat <;> simp only [lower, Bool.false_eq_true, if_true, if_false, List.map_cons] at h8 ⊢ <;> simp [h8]

/-- the suffix of a compressed name -/
def Suffix (comp : Bool) (s : Str) : Prop := if comp then SameCI s (c% ".z") ∨ SameCI s (c% ".gz") else s = []

theorem suffix_shape {comp : Bool} {s : Str} (h : Suffix comp s) :
    (comp = false ∧ s = []) ∨ (comp = true ∧ ∃ e, s = '.' :: e ∧ (∀ x ∈ e, isWord x = true) ∧ (SameCI e (c% "z") ∨ SameCI e (c% "gz"))) := by
  cases comp with
  | false => exact Or.inl ⟨rfl, h⟩
  | true =>
    refine Or.inr ⟨rfl, ?_⟩
    unfold Suffix at h
    simp only [if_true] at h
    cases s with
    | nil => rcases h with h | h <;> (unfold SameCI at h; simp [lower] at h)
    | cons d e =>
      rcases h with h | h <;>
      · unfold SameCI at h
        simp only [lower, List.map_cons, List.cons.injEq] at h
        rw [lowerC_dot] at h
        obtain ⟨rfl, h⟩ := h
        first
        | exact ⟨e, rfl, sameCI_word (b := c% "z") h (by decide), Or.inl h⟩
        | exact ⟨e, rfl, sameCI_word (b := c% "gz") h (by decide), Or.inr h⟩

theorem no_dot_of_words {s : Str} (h : ∀ x ∈ s, isWord x = true) : '.' ∉ s := fun hm => absurd (h _ hm) (by decide)
theorem no_slash_of_words {s : Str} (h : ∀ x ∈ s, isWord x = true) : '/' ∉ s := fun hm => absurd (h _ hm) (by decide)
theorem no_nl_of_words {s : Str} (h : ∀ x ∈ s, isWord x = true) : '\n' ∉ s := fun hm => absurd (h _ hm) (by decide)

/-- the marks inside a recognised name: only that of its own type -/
theorem marked_name {name : Str} {hat comp : Bool} (h : ObsName name hat comp) (k : Bool) : Marked k name ↔ k = hat := by
  obtain ⟨stem, suf, rfl, hs, hx⟩ := h
  obtain ⟨w, e, rfl, hw, he, hm⟩ := stem_shape hs
  have hlen : e.length = 3 := by
    obtain ⟨e', h1, h2, -⟩ := mark_shape hm
    simp only [List.cons.injEq, true_and] at h1
    rw [h1]; exact h2
  constructor
  · rintro ⟨x, m, r, hx1, hk⟩
    obtain ⟨e', rfl, hl', hd', -, -⟩ := mark_shape hk
    have hx2 : x ++ '.' :: (e' ++ r) = w ++ '.' :: (e ++ suf) := by
      rw [show w ++ '.' :: (e ++ suf) = w ++ '.' :: e ++ suf by simp, hx1]; simp
    rcases split_at (no_dot_of_words hw) hx2 with ⟨-, h2⟩ | ⟨x', -, h2⟩
    · obtain ⟨rfl, -⟩ := append_split (by rw [hl', hlen]) h2
      cases k <;> cases hat
      · rfl
      · exact (mark_disjoint hm hk).elim
      · exact (mark_disjoint hk hm).elim
      · rfl
    · exfalso
      -- the dot of the mark is that of the suffix
      rcases suffix_shape hx with ⟨-, rfl⟩ | ⟨-, s, rfl, hs1, hs2⟩
      · have : '.' ∈ e := by rw [List.append_nil] at h2; rw [← h2]; simp
        exact no_dot_of_words he this
      · rcases split_at (no_dot_of_words he) h2 with ⟨-, h3⟩ | ⟨x'', -, h3⟩
        · have h4 := congrArg List.length h3
          rw [List.length_append, hl'] at h4
          have : s.length = 1 ∨ s.length = 2 := by
            rcases hs2 with h | h
            · left; have := congrArg List.length h; simpa [lower] using this
            · right; have := congrArg List.length h; simpa [lower] using this
          omega
        · have : '.' ∈ s := by rw [← h3]; simp
          exact no_dot_of_words hs1 this
  · rintro rfl
    exact ⟨w, '.' :: e, suf, rfl, hm⟩

theorem reZ_accepts (path : Str) (hn : '\n' ∉ path) :
    reZ.accepts path = true ↔ ∃ x suf, path = x ++ suf ∧ Suffix true suf := by
  rw [Re.accepts_iff]
  simp only [reZ, reSeq, Re.ex_seq, Re.ex_grp, reAnys, Re.ex_many, Re.ex_c, lowerC_dot, Re.ex_alt, Re.ex_lit, Re.ex_eol, Re.ex_eps]
  have nonl : ∀ {t : Str}, path = t ++ ['\n'] → False := by rintro t rfl; simp at hn
  constructor
  · rintro ⟨x, u, rfl, -, c, u, rfl, rfl, ⟨z, u, rfl, h1, h2, -⟩ | ⟨z, u, rfl, h1, h2, -⟩⟩
    · rcases h2 with rfl | rfl
      · refine ⟨x, ['.', z], rfl, Or.inl ?_⟩
        unfold SameCI; simp [lower, h1]
      · exact (nonl (t := x ++ ['.', z]) (by simp)).elim
    · rcases h2 with rfl | rfl
      · refine ⟨x, '.' :: z, by simp, Or.inr ?_⟩
        unfold SameCI; simp only [lower, List.map_cons] at h1 ⊢; simp [h1]
      · exact (nonl (t := x ++ '.' :: z) (by simp)).elim
  · rintro ⟨x, suf, rfl, hs⟩
    have hx : ∀ c ∈ x, (c != '\n') = true := by
      intro c hc; rw [bne_iff_ne]; rintro rfl; exact hn (by simp [hc])
    rcases suffix_shape hs with ⟨h, -⟩ | ⟨-, e, rfl, -, h⟩
    · cases h
    · refine ⟨x, '.' :: e, rfl, hx, '.', e, rfl, rfl, ?_⟩
      rcases h with h | h
      · match e, h with
        | [z], h => exact Or.inl ⟨z, [], rfl, by unfold SameCI at h; simpa [lower] using h, Or.inl rfl, trivial⟩
        | [], h => unfold SameCI at h; simp [lower] at h
        | _ :: _ :: _, h => unfold SameCI at h; simp [lower] at h
      · exact Or.inr ⟨e, [], by simp, h, Or.inl rfl, trivial⟩

/-- a recognised name ends in the suffix exactly when it is compressed -/
theorem suffix_name {name : Str} {hat comp : Bool} (h : ObsName name hat comp) {d : Str} :
    (∃ x suf, d ++ name = x ++ suf ∧ Suffix true suf) ↔ comp = true := by
  obtain ⟨stem, suf, rfl, hs, hx⟩ := h
  obtain ⟨w, e, rfl, hw, he, hm⟩ := stem_shape hs
  have hlen : e.length = 3 := by
    obtain ⟨e', h1, h2, -⟩ := mark_shape hm
    simp only [List.cons.injEq, true_and] at h1
    rw [h1]; exact h2
  constructor
  · rintro ⟨x, s, hx1, h2⟩
    rcases suffix_shape hx with ⟨-, rfl⟩ | ⟨hc, -⟩
    · exfalso
      rcases suffix_shape h2 with ⟨h, -⟩ | ⟨-, s, rfl, hs1, h2⟩
      · cases h
      · have hl : s.length = 1 ∨ s.length = 2 := by
          rcases h2 with h | h
          · left; have := congrArg List.length h; simpa [lower] using this
          · right; have := congrArg List.length h; simpa [lower] using this
        -- the last three characters contain no dot
        have h3 : (d ++ w ++ ['.']) ++ e = x ++ '.' :: s := by rw [← hx1]; simp
        rcases List.append_eq_append_iff.1 h3 with ⟨z, h4, h5⟩ | ⟨z, h4, h5⟩
        · have : '.' ∈ e := by rw [h5]; simp
          exact no_dot_of_words he this
        · cases z with
          | nil =>
            have : '.' ∈ e := by rw [← (show '.' :: s = e from h5)]; simp
            exact no_dot_of_words he this
          | cons c z =>
            have h6 := congrArg List.length h5
            simp only [List.length_append, List.length_cons] at h6
            omega
    · exact hc
  · rintro rfl
    exact ⟨d ++ (w ++ '.' :: e), suf, by simp, hx⟩

theorem obsName_word {name : Str} {hat comp : Bool} (h : ObsName name hat comp) : '\n' ∉ name ∧ '/' ∉ name := by
  obtain ⟨stem, suf, rfl, hs, hx⟩ := h
  obtain ⟨w, e, rfl, hw, he, hm⟩ := stem_shape hs
  rcases suffix_shape hx with ⟨-, rfl⟩ | ⟨-, s, rfl, hs1, -⟩
  · simp only [List.append_nil, List.mem_append, List.mem_cons, not_or]
    exact ⟨⟨no_nl_of_words hw, by decide, no_nl_of_words he⟩, no_slash_of_words hw, by decide, no_slash_of_words he⟩
  · simp only [List.mem_append, List.mem_cons, not_or]
    exact ⟨⟨⟨no_nl_of_words hw, by decide, no_nl_of_words he⟩, by decide, no_nl_of_words hs1⟩,
      ⟨no_slash_of_words hw, by decide, no_slash_of_words he⟩, by decide, no_slash_of_words hs1⟩

/-- C38, recognition: a file is refused as "not an observation file" exactly when its name has none of the three shapes
(with an optional compression suffix). -/
theorem C38_recognised (path name : Str) (hp : LastComponent path name) (hn : '\n' ∉ path) :
    expandObs path = .error .uncompress ↔ ∀ hat comp, ¬ ObsName name hat comp := by
  have hname : '\n' ∉ name := by
    intro h; apply hn
    rcases hp.2 with rfl | ⟨d, rfl⟩ <;> simp [h]
  have hb := basename_of_last hp
  have hr := reObs_accepts name hname
  constructor
  · intro h hat comp ho
    have ha : reObs.accepts name = true := hr.2 ⟨hat, comp, ho⟩
    unfold expandObs at h
    rw [hb, ha] at h
    simp only [Bool.true_eq_false, if_false] at h
    have hmark : Marked hat path := by
      have := (marked_name ho hat).2 rfl
      rcases hp.2 with rfl | ⟨d, rfl⟩
      · exact this
      · exact (marked_slash _ _ _).2 (Or.inr this)
    have hacc := (reMark_accepts hat path hn).2 hmark
    cases hat <;> simp only [Bool.false_eq_true, if_false, if_true] at hacc <;> simp only [hacc, if_true] at h <;>
      (repeat' split at h) <;> simp at h
  · intro h
    have ha : reObs.accepts name = false := by
      rw [Bool.eq_false_iff]; intro ha
      obtain ⟨hat, comp, ho⟩ := hr.1 ha
      exact h hat comp ho
    unfold expandObs
    rw [hb, ha]; rfl

/-- C38, treatment: an observation file in a directory whose path has no mark of a RINEX type is decompressed exactly when its
name ends in `.z`/`.gz` and goes through the Hatanaka program exactly when it is of Hatanaka type. -/
theorem C38_treatment (path dir name : Str) (hat comp : Bool) (hp : path = name ∨ path = dir ++ '/' :: name)
    (hn : '\n' ∉ path) (ho : ObsName name hat comp) (hclean : path = name ∨ ∀ k, ¬ Marked k dir) :
    expandObs path = .ok (fetchOf hat comp) := by
  obtain ⟨n1, n2⟩ := obsName_word ho
  have hlast : LastComponent path name := ⟨n2, by rcases hp with h | h; exact Or.inl h; exact Or.inr ⟨dir, h⟩⟩
  have hb := basename_of_last hlast
  have ha : reObs.accepts name = true := (reObs_accepts name n1).2 ⟨hat, comp, ho⟩
  have hmark : ∀ k, Marked k path ↔ k = hat := by
    intro k
    rcases hp with rfl | rfl
    · exact marked_name ho k
    · rw [marked_slash, marked_name ho k]
      rcases hclean with h | h
      · exfalso
        have := congrArg List.length h
        simp at this
        omega
      · simp [h k]
  have hz : reZ.accepts path = comp := by
    have : reZ.accepts path = true ↔ comp = true := by
      rw [reZ_accepts path hn]
      rcases hp with rfl | rfl
      · simpa using suffix_name ho (d := [])
      · have := suffix_name ho (d := dir ++ ['/'])
        simpa using this
    cases h : reZ.accepts path <;> cases comp <;> simp_all
  have hc : reCrx.accepts path = hat := by
    have h1 := reMark_accepts true path hn
    rw [hmark] at h1
    simp only [if_true] at h1
    cases h : reCrx.accepts path <;> cases hat <;> simp_all
  have hr : reRnx.accepts path = !hat := by
    have h1 := reMark_accepts false path hn
    rw [hmark] at h1
    simp only [Bool.false_eq_true, if_false] at h1
    cases h : reRnx.accepts path <;> cases hat <;> simp_all
  unfold expandObs
  rw [hb, ha, hz, hc, hr]
  cases hat <;> cases comp <;> rfl

/-- C38, witness: the name of a directory is taken for the type of the file. A compressed Hatanaka file in a directory
`a.17o` is only decompressed, and a plain file in a directory `a.17d` goes through the Hatanaka program. -/
theorem C38_witness_directory :
    expandObs (c% "a.17o/irkj0010.17d.Z") = .ok .gunzip ∧ ObsName (c% "irkj0010.17d.Z") true true ∧
    expandObs (c% "a.17d/irkj0010.17o") = .ok .crx ∧ ObsName (c% "irkj0010.17o") false false := by
  refine ⟨by decide, ?_, by decide, ?_⟩
  · exact ⟨c% "irkj0010.17d", c% ".Z", by decide, .daily (c% "irkj") (c% "001") '0' (c% "17") 'd' true ⟨by decide, by decide⟩
      ⟨by decide, by decide⟩ (by decide) ⟨by decide, by decide⟩ (by decide), by simp [SameCI, lower]; decide⟩
  · exact ⟨c% "irkj0010.17o", [], by decide, .daily (c% "irkj") (c% "001") '0' (c% "17") 'o' false ⟨by decide, by decide⟩
      ⟨by decide, by decide⟩ (by decide) ⟨by decide, by decide⟩ (by decide), rfl⟩

example : expandObs (c% "data/IRKJ00RUS_R_20170010000_01D_30S_MO.crx.gz") = .ok .gunzipCrx := by decide
example : expandObs (c% "data/irkj001a15.17o.GZ") = .ok .gunzip := by decide
example : expandObs (c% "data/irkj001a10.17o.GZ") = .error .uncompress := by decide
example : expandObs (c% "data/irkj0010.17n") = .error .uncompress := by decide

end Verif.Props
