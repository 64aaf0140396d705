import Verif.Py.Re
/-!
# Facts about the pattern matcher
-/
namespace Verif.Py

/-- some success of `r` on `s` satisfies `P` -/
def Re.Ex (r : Re) (s : Str) (P : Hit → Prop) : Prop := ∃ h ∈ r.run s, P h

theorem Re.accepts_iff (r : Re) (s : Str) : r.accepts s = true ↔ r.Ex s fun _ => True := by
  unfold Re.accepts Re.Ex
  cases h : r.run s <;> simp

theorem Re.match1_none (r : Re) (s : Str) : r.match1 s = none ↔ r.accepts s = false := by
  unfold Re.match1 Re.accepts
  cases h : r.run s <;> simp

theorem Re.match1_some {r : Re} {s : Str} {h : Hit} (hm : r.match1 s = some h) : h ∈ r.run s := by
  unfold Re.match1 at hm
  exact List.mem_of_mem_head? hm

theorem Re.match1_ex {r : Re} {s : Str} {P : Hit → Prop} (ha : r.accepts s = true) (hP : ∀ h ∈ r.run s, P h) :
    ∃ h, r.match1 s = some h ∧ P h := by
  cases hm : r.match1 s with
  | none => rw [Re.match1_none] at hm; simp [hm] at ha
  | some h => exact ⟨h, rfl, hP h (Re.match1_some hm)⟩

theorem Re.mem_run {r : Re} {s : Str} {h : Hit} : h ∈ r.run s ↔ r.Ex s (· = h) := by
  unfold Re.Ex; simp

@[simp] theorem Re.ex_eps (s : Str) (P : Hit → Prop) : Re.Ex .eps s P ↔ P ⟨[], s, []⟩ := by
  simp [Re.Ex, Re.run]

theorem Re.ex_chr (p : Char → Bool) (s : Str) (P : Hit → Prop) :
    Re.Ex (.chr p) s P ↔ ∃ c t, s = c :: t ∧ p c = true ∧ P ⟨[c], t, []⟩ := by
  cases s with
  | nil => simp [Re.Ex, Re.run]
  | cons c t =>
    by_cases h : p c = true
    · simp only [Re.Ex, Re.run, h, if_true, List.mem_singleton, exists_eq_left]
      constructor
      · intro hP; exact ⟨c, t, rfl, h, hP⟩
      · rintro ⟨c', t', he, -, hP⟩
        simp only [List.cons.injEq] at he
        obtain ⟨rfl, rfl⟩ := he
        exact hP
    · simp only [Re.Ex, Re.run, h]
      constructor
      · simp
      · rintro ⟨c', t', he, hc, -⟩
        simp only [List.cons.injEq] at he
        obtain ⟨rfl, rfl⟩ := he
        exact absurd hc h

theorem Re.ex_seq (a b : Re) (s : Str) (P : Hit → Prop) :
    Re.Ex (.seq a b) s P ↔ a.Ex s fun h => b.Ex h.rest fun k => P ⟨h.text ++ k.text, k.rest, h.groups ++ k.groups⟩ := by
  simp only [Re.Ex, Re.run, List.mem_flatMap, List.mem_map]
  constructor
  · rintro ⟨h, ⟨x, hx, k, hk, rfl⟩, hP⟩; exact ⟨x, hx, k, hk, hP⟩
  · rintro ⟨x, hx, k, hk, hP⟩; exact ⟨_, ⟨x, hx, k, hk, rfl⟩, hP⟩

theorem Re.ex_alt (a b : Re) (s : Str) (P : Hit → Prop) : Re.Ex (.alt a b) s P ↔ a.Ex s P ∨ b.Ex s P := by
  simp only [Re.Ex, Re.run, List.mem_append]
  constructor
  · rintro ⟨h, h1 | h1, h2⟩
    · exact Or.inl ⟨h, h1, h2⟩
    · exact Or.inr ⟨h, h1, h2⟩
  · rintro (⟨h, h1, h2⟩ | ⟨h, h1, h2⟩)
    · exact ⟨h, Or.inl h1, h2⟩
    · exact ⟨h, Or.inr h1, h2⟩

theorem Re.ex_grp (n : Nat) (a : Re) (s : Str) (P : Hit → Prop) :
    Re.Ex (.grp n a) s P ↔ a.Ex s fun h => P { h with groups := (n, h.text) :: h.groups } := by
  simp only [Re.Ex, Re.run, List.mem_map]
  constructor
  · rintro ⟨h, ⟨x, hx, rfl⟩, hP⟩; exact ⟨x, hx, hP⟩
  · rintro ⟨x, hx, hP⟩; exact ⟨_, ⟨x, hx, rfl⟩, hP⟩

theorem Re.ex_eol (s : Str) (P : Hit → Prop) : Re.Ex .eol s P ↔ (s = [] ∨ s = ['\n']) ∧ P ⟨[], s, []⟩ := by
  unfold Re.Ex Re.run
  split <;> simp_all

theorem Re.ex_many (p : Char → Bool) (s : Str) (P : Hit → Prop) :
    Re.Ex (.many p) s P ↔ ∃ t u, s = t ++ u ∧ (∀ c ∈ t, p c = true) ∧ P ⟨t, u, []⟩ := by
  unfold Re.Ex Re.run
  induction s generalizing P with
  | nil =>
    simp only [manyRun, List.mem_singleton, exists_eq_left, List.nil_eq, List.append_eq_nil_iff]
    constructor
    · intro h; exact ⟨[], [], ⟨rfl, rfl⟩, by simp, h⟩
    · rintro ⟨t, u, ⟨rfl, rfl⟩, _, h⟩; exact h
  | cons c s ih =>
    unfold manyRun
    split
    · rename_i hc
      simp only [List.mem_append, List.mem_map, List.mem_singleton]
      constructor
      · rintro ⟨h, ⟨x, hx, rfl⟩ | rfl, hP⟩
        · obtain ⟨t, u, rfl, h2, h3⟩ := (ih (fun h => P { h with text := c :: h.text })).1 ⟨x, hx, hP⟩
          exact ⟨c :: t, u, rfl, by simpa [hc] using h2, h3⟩
        · exact ⟨[], c :: s, rfl, by simp, hP⟩
      · rintro ⟨t, u, h1, h2, h3⟩
        cases t with
        | nil => simp only [List.nil_append] at h1; subst h1; exact ⟨_, Or.inr rfl, h3⟩
        | cons d t =>
          simp only [List.cons_append, List.cons.injEq] at h1
          obtain ⟨rfl, rfl⟩ := h1
          obtain ⟨x, hx, hP⟩ := (ih (fun h => P { h with text := c :: h.text })).2
            ⟨t, u, rfl, fun y hy => h2 y (List.mem_cons_of_mem _ hy), h3⟩
          exact ⟨_, Or.inl ⟨x, hx, rfl⟩, hP⟩
    · rename_i hc
      simp only [List.mem_singleton, exists_eq_left]
      constructor
      · intro h; exact ⟨[], c :: s, rfl, by simp, h⟩
      · rintro ⟨t, u, h1, h2, h3⟩
        cases t with
        | nil => simp only [List.nil_append] at h1; subst h1; exact h3
        | cons d t =>
          simp only [List.cons_append, List.cons.injEq] at h1
          exact absurd (h2 c (by simp [h1.1])) hc

theorem Re.ex_opt (r : Re) (s : Str) (P : Hit → Prop) : Re.Ex (reOpt r) s P ↔ r.Ex s P ∨ P ⟨[], s, []⟩ := by
  simp [reOpt, Re.ex_alt]

theorem Re.ex_rep (p : Char → Bool) (n : Nat) (s : Str) (P : Hit → Prop) :
    Re.Ex (reRep (.chr p) n) s P ↔
      ∃ t u, s = t ++ u ∧ t.length = n ∧ (∀ c ∈ t, p c = true) ∧ P ⟨t, u, []⟩ := by
  induction n generalizing s P with
  | zero =>
    simp only [reRep, ex_eps, List.length_eq_zero_iff]
    constructor
    · intro h; exact ⟨[], s, rfl, rfl, by simp, h⟩
    · rintro ⟨t, u, rfl, rfl, _, h⟩; exact h
  | succ n ih =>
    simp only [reRep, ex_seq, ex_chr, ih, List.append_nil]
    constructor
    · rintro ⟨c, t, rfl, hc, t', u, rfl, hl, ha, hP⟩
      exact ⟨c :: t', u, rfl, by simp [hl], by simpa [hc] using ha, hP⟩
    · rintro ⟨t, u, rfl, hl, ha, hP⟩
      cases t with
      | nil => simp at hl
      | cons c t =>
        refine ⟨c, t ++ u, rfl, ha c (by simp), t, u, rfl, by simpa using hl, fun y hy => ha y (by simp [hy]), hP⟩

theorem Re.ex_lit (l : Str) (s : Str) (P : Hit → Prop) :
    Re.Ex (reLit l) s P ↔ ∃ t u, s = t ++ u ∧ lower t = lower l ∧ P ⟨t, u, []⟩ := by
  induction l generalizing s P with
  | nil =>
    simp only [reLit, ex_eps, lower, List.map_nil, List.map_eq_nil_iff]
    constructor
    · intro h; exact ⟨[], s, rfl, rfl, h⟩
    · rintro ⟨t, u, rfl, rfl, h⟩; exact h
  | cons a l ih =>
    simp only [reLit, reC, ex_seq, ex_chr, ih, List.append_nil, beq_iff_eq]
    constructor
    · rintro ⟨c, t, rfl, hc, t', u, rfl, hl, hP⟩
      exact ⟨c :: t', u, rfl, by simpa [lower, hc] using hl, hP⟩
    · rintro ⟨t, u, rfl, hl, hP⟩
      cases t with
      | nil => simp [lower] at hl
      | cons c t =>
        simp only [lower, List.map_cons, List.cons.injEq] at hl
        exact ⟨c, t ++ u, rfl, hl.1, t, u, rfl, hl.2, hP⟩

theorem Re.ex_c (a : Char) (s : Str) (P : Hit → Prop) :
    Re.Ex (reC a) s P ↔ ∃ c t, s = c :: t ∧ lowerC c = lowerC a ∧ P ⟨[c], t, []⟩ := by
  simp [reC, Re.ex_chr]

theorem Re.ex_oneOf (cs : Str) (s : Str) (P : Hit → Prop) :
    Re.Ex (reOneOf cs) s P ↔ ∃ c t, s = c :: t ∧ (∃ x ∈ cs, lowerC c = lowerC x) ∧ P ⟨[c], t, []⟩ := by
  simp [reOneOf, Re.ex_chr]

/-- characters whose lower case is a character that has no case -/
theorem lowerC_eq_nocase {a c : Char} (ha : ¬ (97 ≤ a.toNat ∧ a.toNat ≤ 122)) (ha' : lowerC a = a) :
    lowerC c = lowerC a ↔ c = a := by
  rw [ha']
  constructor
  · intro h
    unfold lowerC at h
    split at h
    · rename_i hc
      exfalso; apply ha
      rw [← h]
      have : (Char.ofNat (c.toNat + 32)).toNat = c.toNat + 32 := by
        have hv : (c.toNat + 32).isValidChar := Or.inl (by omega)
        unfold Char.ofNat; rw [dif_pos hv]; rfl
      omega
    · exact h
  · rintro rfl; exact ha'

@[simp] theorem lowerC_dot (c : Char) : lowerC c = lowerC '.' ↔ c = '.' := lowerC_eq_nocase (by decide) (by decide)
@[simp] theorem lowerC_us (c : Char) : lowerC c = lowerC '_' ↔ c = '_' := lowerC_eq_nocase (by decide) (by decide)

end Verif.Py
