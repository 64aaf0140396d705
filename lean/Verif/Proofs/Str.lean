import Verif.Py.Str
/-! # Lemmas about Python strings -/
namespace Verif.Py

@[simp] theorem isSpace_blank : isSpace ' ' = true := by decide
@[simp] theorem isSpace_nl : isSpace '\n' = true := by decide

theorem rstrip_nil : rstrip [] = [] := rfl

theorem rstrip_cons (c : Char) (cs : Str) :
    rstrip (c :: cs) = if rstrip cs = [] then (if isSpace c then [] else [c]) else c :: rstrip cs := by
  simp only [rstrip]
  cases h : rstrip cs <;> simp

/-- what `rstrip` removes is white space -/
theorem rstrip_decomp (s : Str) : ∃ t, s = rstrip s ++ t ∧ ∀ c ∈ t, isSpace c = true := by
  induction s with
  | nil => exact ⟨[], rfl, by simp⟩
  | cons c cs ih =>
    obtain ⟨t, h1, h2⟩ := ih
    rw [rstrip_cons]
    by_cases h : rstrip cs = []
    · rw [if_pos h]
      rw [h, List.nil_append] at h1
      by_cases hc : isSpace c = true
      · refine ⟨c :: cs, by simp [hc], ?_⟩
        intro x hx
        rcases List.mem_cons.1 hx with rfl | hx
        · exact hc
        · exact h2 x (h1 ▸ hx)
      · exact ⟨cs, by simp [hc], fun x hx => h2 x (h1 ▸ hx)⟩
    · rw [if_neg h]
      exact ⟨t, by rw [List.cons_append, ← h1], h2⟩

theorem rstrip_eq_nil_iff (s : Str) : rstrip s = [] ↔ ∀ c ∈ s, isSpace c = true := by
  induction s with
  | nil => simp [rstrip]
  | cons c cs ih =>
    rw [rstrip_cons]
    by_cases h : rstrip cs = []
    · rw [if_pos h]
      have := ih.1 h
      by_cases hc : isSpace c = true
      · simp [hc]; exact this
      · simp [hc]
    · rw [if_neg h]
      have := mt ih.2 h
      simp only [List.cons_ne_nil, List.mem_cons, forall_eq_or_imp, false_iff, not_and]
      intro _; exact this

theorem rstrip_append_space (s t : Str) (ht : ∀ c ∈ t, isSpace c = true) : rstrip (s ++ t) = rstrip s := by
  induction s with
  | nil => rw [List.nil_append, rstrip_nil]; exact (rstrip_eq_nil_iff t).2 ht
  | cons c cs ih => rw [List.cons_append, rstrip_cons, rstrip_cons, ih]

theorem rstrip_append_of_ne (s t : Str) (h : rstrip t ≠ []) : rstrip (s ++ t) = s ++ rstrip t := by
  induction s with
  | nil => rfl
  | cons c cs ih =>
    rw [List.cons_append, rstrip_cons, ih]
    have : cs ++ rstrip t ≠ [] := by simp [h]
    rw [if_neg this]; rfl

/-- nothing to strip: the last character is not a space -/
theorem rstrip_of_last (s : Str) (c : Char) (hc : isSpace c = false) : rstrip (s ++ [c]) = s ++ [c] := by
  rw [rstrip_append_of_ne]
  · simp [rstrip, hc]
  · simp [rstrip, hc]

theorem rstrip_idem (s : Str) : rstrip (rstrip s) = rstrip s := by
  induction s with
  | nil => rfl
  | cons c cs ih =>
    rw [rstrip_cons]
    by_cases h : rstrip cs = []
    · rw [if_pos h]
      by_cases hc : isSpace c = true
      · simp [hc, rstrip]
      · simp [hc, rstrip]
    · rw [if_neg h, rstrip_cons, ih, if_neg h]

theorem rstrip_length_le (s : Str) : (rstrip s).length ≤ s.length := by
  obtain ⟨t, h, _⟩ := rstrip_decomp s
  have := congrArg List.length h
  simp at this; omega

/-- non-empty, first and last character not white space -/
def Solid (s : Str) : Prop :=
  (∃ c r, s = c :: r ∧ isSpace c = false) ∧ (∃ r c, s = r ++ [c] ∧ isSpace c = false)

theorem lstrip_of_head {c : Char} {r : Str} (hc : isSpace c = false) : lstrip (c :: r) = c :: r := by
  simp [lstrip, List.dropWhile, hc]

theorem lstrip_append_space (t s : Str) (ht : ∀ c ∈ t, isSpace c = true) : lstrip (t ++ s) = lstrip s := by
  induction t with
  | nil => rfl
  | cons c cs ih =>
    have hc := ht c (by simp)
    simp only [List.cons_append, lstrip, List.dropWhile, hc]
    exact ih (fun x hx => ht x (by simp [hx]))

theorem Solid.ne_nil {s : Str} (h : Solid s) : s ≠ [] := by
  obtain ⟨⟨c, r, rfl, _⟩, _⟩ := h; simp

theorem Solid.rstrip {s : Str} (h : Solid s) : rstrip s = s := by
  obtain ⟨_, ⟨r, c, rfl, hc⟩⟩ := h
  exact rstrip_of_last r c hc

theorem strip_pad {a s b : Str} (hs : Solid s) (ha : ∀ c ∈ a, isSpace c = true) (hb : ∀ c ∈ b, isSpace c = true) :
    strip (a ++ s ++ b) = s := by
  unfold strip
  rw [rstrip_append_space _ _ hb, rstrip_append_of_ne _ _ (by rw [hs.rstrip]; exact hs.ne_nil), hs.rstrip,
    lstrip_append_space _ _ ha]
  obtain ⟨⟨c, r, rfl, hc⟩, _⟩ := hs
  exact lstrip_of_head hc

theorem mem_blanks {n : Nat} : ∀ c ∈ List.replicate n ' ', isSpace c = true := by
  intro c hc
  rw [(List.mem_replicate.1 hc).2]; rfl

theorem strip_append_space (s t : Str) (ht : ∀ c ∈ t, isSpace c = true) : strip (s ++ t) = strip s := by
  unfold strip; rw [rstrip_append_space _ _ ht]

theorem strip_prepend_space (t s : Str) (ht : ∀ c ∈ t, isSpace c = true) : strip (t ++ s) = strip s := by
  unfold strip
  by_cases h : rstrip s = []
  · have h2 := (rstrip_eq_nil_iff s).1 h
    rw [rstrip_append_space _ _ h2, h]
    have : rstrip t = [] := (rstrip_eq_nil_iff t).2 ht
    rw [this]
  · rw [rstrip_append_of_ne _ _ h, lstrip_append_space _ _ ht]

theorem strip_padLeft {s : Str} {w : Nat} (hs : Solid s) : strip (padLeft w s) = s := by
  have := strip_pad (b := []) hs (mem_blanks (n := w - s.length)) (by simp)
  simpa [padLeft] using this

theorem strip_padRight {s : Str} {w : Nat} (hs : Solid s) : strip (padRight w s) = s := by
  have := strip_pad (a := []) hs (by simp) (mem_blanks (n := w - s.length))
  simpa [padRight] using this

theorem strip_solid {s : Str} (hs : Solid s) : strip s = s := by
  have := strip_pad (a := []) (b := []) hs (by simp) (by simp)
  simpa using this

theorem padLeft_length {w : Nat} {s : Str} (h : s.length ≤ w) : (padLeft w s).length = w := by
  simp [padLeft]; omega

theorem padRight_length {w : Nat} {s : Str} (h : s.length ≤ w) : (padRight w s).length = w := by
  simp [padRight]; omega

theorem padLeft_of_len {w : Nat} {s : Str} (h : w ≤ s.length) : padLeft w s = s := by
  simp [padLeft, Nat.sub_eq_zero_of_le h]

theorem zfill_length {w : Nat} {s : Str} (h : s.length ≤ w) : (zfill w s).length = w := by
  simp [zfill]; omega

/-! ## slices -/

theorem slice_nil (a b : Nat) : slice [] a b = [] := by simp [slice]

theorem slice_length_le (s : Str) (a b : Nat) : (slice s a b).length ≤ b - a := by
  simp [slice]; omega

theorem slice_append_left {s t : Str} {a b : Nat} (h : b ≤ s.length) : slice (s ++ t) a b = slice s a b := by
  unfold slice
  by_cases ha : a ≤ s.length
  · rw [List.drop_append_of_le_length ha, List.take_append_of_le_length (by simp; omega)]
  · have : b - a = 0 := by omega
    rw [this]; simp

theorem slice_append_right {s t : Str} {a b : Nat} (h : s.length ≤ a) :
    slice (s ++ t) a b = slice t (a - s.length) (b - s.length) := by
  unfold slice
  rw [List.drop_append, List.drop_eq_nil_of_le h, List.nil_append]
  congr 1
  omega

theorem slice_exact {p m q : Str} {a b : Nat} (ha : p.length = a) (hb : p.length + m.length = b) :
    slice (p ++ m ++ q) a b = m := by
  subst ha; subst hb
  unfold slice
  simp [List.append_assoc]

theorem slice_zero (s : Str) (b : Nat) : slice s 0 b = s.take b := by simp [slice]

theorem slice_eq_take_drop (s : Str) (a b : Nat) : slice s a b = (s.take b).drop a := by
  unfold slice; rw [List.drop_take]

/-- a slice of the stripped line is the slice of the line without some trailing white space -/
theorem slice_rstrip (s : Str) (a b : Nat) :
    ∃ t, slice s a b = slice (rstrip s) a b ++ t ∧ ∀ c ∈ t, isSpace c = true ∧ c ∈ s := by
  obtain ⟨t, h, ht⟩ := rstrip_decomp s
  have hmem : ∀ c ∈ t, c ∈ s := by intro c hc; rw [h]; simp [hc]
  refine ⟨(t.drop (a - (rstrip s).length)).take (b - a - ((rstrip s).drop a).length), ?_, ?_⟩
  · conv => lhs; rw [h]
    unfold slice
    rw [List.drop_append, List.take_append]
  · intro c hc
    have := List.mem_of_mem_drop (List.mem_of_mem_take hc)
    exact ⟨ht c this, hmem c this⟩

/-- trailing blanks after the line only add blanks to a slice -/
theorem slice_append_blanks (s : Str) (k a b : Nat) :
    ∃ j, slice (s ++ List.replicate k ' ') a b = slice s a b ++ List.replicate j ' ' := by
  unfold slice
  rw [List.drop_append, List.take_append, List.drop_replicate, List.take_replicate]
  exact ⟨_, rfl⟩

theorem getElem?_append_blanks (v : Str) (j k : Nat) :
    (v ++ List.replicate j ' ')[k]? = v[k]? ∨ (v[k]? = none ∧ (v ++ List.replicate j ' ')[k]? = some ' ') := by
  by_cases h : k < v.length
  · left; rw [List.getElem?_append_left h]
  · rw [List.getElem?_append_right (by omega), List.getElem?_replicate]
    by_cases h2 : k - v.length < j
    · right; simp [h2]; omega
    · left; simp [h2]; omega

theorem all_eq_replicate {v : Str} {c : Char} : v = List.replicate v.length c ↔ ∀ x ∈ v, x = c := by
  constructor
  · intro h x hx; rw [h] at hx; exact (List.mem_replicate.1 hx).2
  · intro h; exact List.eq_replicate_iff.2 ⟨rfl, h⟩

theorem contains_of_append (a n b : Str) : contains n (a ++ n ++ b) = true := by
  induction a with
  | nil =>
    cases n with
    | nil => cases b <;> simp [contains]
    | cons c cs => simp [contains, List.isPrefixOf]
  | cons c cs ih => simp only [List.cons_append, contains, ih, Bool.or_true]

theorem contains_iff (n s : Str) : contains n s = true ↔ ∃ a b, s = a ++ n ++ b := by
  constructor
  · induction s with
    | nil =>
      intro h; simp [contains] at h; exact ⟨[], [], by simp [h]⟩
    | cons c cs ih =>
      intro h
      simp only [contains, Bool.or_eq_true, List.isPrefixOf_iff_prefix] at h
      rcases h with ⟨t, ht⟩ | h
      · exact ⟨[], t, by simp [ht]⟩
      · obtain ⟨a, b, hab⟩ := ih h; exact ⟨c :: a, b, by simp [hab]⟩
  · rintro ⟨a, b, rfl⟩; exact contains_of_append a n b

end Verif.Py
