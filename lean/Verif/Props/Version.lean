import Verif.Spec.Version
import Verif.Proofs.Names
import Verif.Proofs.Render
import Verif.Proofs.HeaderLines
/-!
# Property C24: version dispatch
-/
namespace Verif.Props
open Verif.Py Verif.Model Verif.Spec Verif.Proofs

theorem match1_seq {a b : Re} {s : Str} {h k : Hit} (h1 : a.match1 s = some h) (h2 : b.match1 h.rest = some k) :
    (Re.seq a b).match1 s = some ⟨h.text ++ k.text, k.rest, h.groups ++ k.groups⟩ := by
  unfold Re.match1 at *
  simp only [Re.run]
  obtain ⟨l, hl⟩ := List.head?_eq_some_iff.1 h1
  obtain ⟨l', hl'⟩ := List.head?_eq_some_iff.1 h2
  rw [hl, List.flatMap_cons, hl']
  rfl

theorem match1_many {p : Char → Bool} {t u : Str} (ht : ∀ c ∈ t, p c = true) (hu : ∀ c r, u = c :: r → p c = false) :
    (Re.many p).match1 (t ++ u) = some ⟨t, u, []⟩ := by
  unfold Re.match1
  simp only [Re.run]
  induction t with
  | nil =>
    cases u with
    | nil => rfl
    | cons c r => simp [manyRun, hu c r rfl]
  | cons c t ih =>
    rw [List.cons_append, manyRun, if_pos (ht c (by simp))]
    have := ih (fun c hc => ht c (by simp [hc]))
    obtain ⟨l, hl⟩ := List.head?_eq_some_iff.1 this
    rw [hl]; rfl

theorem match1_grp {n : Nat} {a : Re} {s : Str} {h : Hit} (h1 : a.match1 s = some h) :
    (Re.grp n a).match1 s = some ⟨h.text, h.rest, (n, h.text) :: h.groups⟩ := by
  unfold Re.match1 at *
  simp only [Re.run]
  obtain ⟨l, hl⟩ := List.head?_eq_some_iff.1 h1
  rw [hl]; rfl

/-- every number text ends in a digit row or `digits . digits` -/
theorem numText_chars {s : Str} {q : Rat} (h : NumText s q) : ∀ c ∈ s, isDigit c = true ∨ c = '.' := by
  obtain ⟨a, b, h1, h2, h3, ⟨rfl, -⟩ | ⟨rfl, -⟩⟩ := h
  · intro c hc; exact Or.inl (h2 c hc)
  · intro c hc
    simp only [List.mem_append, List.mem_cons] at hc
    rcases hc with hc | hc | hc
    · exact Or.inl (h2 c hc)
    · exact Or.inr hc
    · exact Or.inl (h3 c hc)

/-- the pattern of the number, on a maximal number -/
theorem match1_num {s u : Str} {q : Rat} (hs : NumText s q) (hmax : ∀ c r q', u = c :: r → ¬ NumText (s ++ [c]) q') :
    (Re.grp 1 (reSeq [reD, .many isDigit, reOpt (reC '.'), .many isDigit])).match1 (s ++ u) = some ⟨s, u, [(1, s)]⟩ := by
  apply match1_grp (h := ⟨s, u, []⟩)
  obtain ⟨a, b, h1, h2, h3, h⟩ := hs
  obtain ⟨c, a, rfl⟩ := List.exists_cons_of_ne_nil h1
  have hD : ∀ r, reD.match1 (c :: r) = some ⟨[c], r, []⟩ := by
    intro r; simp [reD, Re.match1, Re.run, h2 c (by simp)]
  have ha : ∀ x ∈ a, isDigit x = true := fun x hx => h2 x (by simp [hx])
  rcases h with ⟨rfl, -⟩ | ⟨rfl, -⟩
  · have hu : ∀ x r, u = x :: r → isDigit x = false ∧ x ≠ '.' := by
      intro x r hx
      constructor
      · rw [Bool.eq_false_iff]; intro hd
        apply hmax x r _ hx
        exact ⟨c :: a ++ [x], [], by simp, by
          intro y hy; simp only [List.cons_append, List.mem_cons, List.mem_append, List.not_mem_nil, or_false] at hy
          rcases hy with rfl | hy | rfl
          · exact h2 _ (by simp)
          · exact ha _ hy
          · exact hd, by simp, Or.inl ⟨rfl, rfl⟩⟩
      · rintro rfl
        exact hmax '.' r _ hx ⟨c :: a, [], by simp, h2, by simp, Or.inr ⟨rfl, rfl⟩⟩
    have e1 := match1_many (p := isDigit) ha (u := u) (fun x r hx => (hu x r hx).1)
    have e2 : (reOpt (reC '.')).match1 u = some ⟨[], u, []⟩ := by
      unfold reOpt Re.match1
      simp only [Re.run, reC]
      cases u with
      | nil => rfl
      | cons x r =>
        have := (hu x r rfl).2
        have h' : (lowerC x == lowerC '.') = false := by
          rw [beq_eq_false_iff_ne]; intro h; exact this ((lowerC_dot x).1 h)
        simp [Re.run, h']
    have e3 := match1_many (p := isDigit) (t := []) (by simp) (u := u) (fun x r hx => (hu x r hx).1)
    have e4 : (reSeq []).match1 u = some ⟨[], u, []⟩ := rfl
    have := match1_seq (b := reSeq [.many isDigit, reOpt (reC '.'), .many isDigit]) (hD (a ++ u))
      (match1_seq e1 (match1_seq e2 (match1_seq e3 e4)))
    simpa [reSeq] using this
  · have hu : ∀ x r, u = x :: r → isDigit x = false := by
      intro x r hx
      rw [Bool.eq_false_iff]; intro hd
      apply hmax x r _ hx
      exact ⟨c :: a, b ++ [x], by simp, h2, by
          intro y hy; simp only [List.mem_append, List.mem_singleton] at hy
          rcases hy with hy | rfl
          · exact h3 _ hy
          · exact hd, Or.inr ⟨by simp, rfl⟩⟩
    have e1 := match1_many (p := isDigit) ha (u := '.' :: (b ++ u)) (by
      intro x r hx; simp only [List.cons.injEq] at hx; rw [← hx.1]; decide)
    have e2 : (reOpt (reC '.')).match1 ('.' :: (b ++ u)) = some ⟨['.'], b ++ u, []⟩ := by
      simp [reOpt, Re.match1, Re.run, reC]
    have e3 := match1_many (p := isDigit) (t := b) h3 (u := u) hu
    have e4 : (reSeq []).match1 u = some ⟨[], u, []⟩ := rfl
    have := match1_seq (b := reSeq [.many isDigit, reOpt (reC '.'), .many isDigit]) (hD (a ++ '.' :: (b ++ u)))
      (match1_seq e1 (match1_seq e2 (match1_seq e3 e4)))
    simpa [reSeq] using this

theorem mem_takeWhile_p {p : Char → Bool} {s : Str} : ∀ c ∈ s.takeWhile p, p c = true := by
  intro c hc
  have := List.all_takeWhile (p := p) (l := s)
  rw [List.all_eq_true] at this
  exact this c hc

theorem dropWhile_head {p : Char → Bool} {s : Str} {c : Char} {r : Str} (h : s.dropWhile p = c :: r) : p c = false := by
  have := List.head?_dropWhile_not p s
  rw [h] at this
  simpa using this

/-- a text starting with a digit starts with a maximal number -/
theorem maximal_number (c : Char) (s : Str) (hc : isDigit c = true) :
    ∃ num u q, c :: s = num ++ u ∧ NumText num q ∧ ∀ x r q', u = x :: r → ¬ NumText (num ++ [x]) q' := by
  -- the digits, then possibly the point and more digits
  have hdec : (c :: s).takeWhile isDigit ++ (c :: s).dropWhile isDigit = c :: s := List.takeWhile_append_dropWhile
  have ha := mem_takeWhile_p (p := isDigit) (s := c :: s)
  have hne : (c :: s).takeWhile isDigit ≠ [] := by simp [hc]
  generalize (c :: s).takeWhile isDigit = a at hdec ha hne
  have hhead : ∀ x r, (c :: s).dropWhile isDigit = x :: r → isDigit x = false := fun x r h => dropWhile_head h
  generalize (c :: s).dropWhile isDigit = t at hdec hhead
  -- splitting a number at its point
  have key : ∀ {l : Str} {q'}, NumText l q' → ∀ {d e}, (∀ x ∈ d, isDigit x = true) → l = d ++ '.' :: e →
      ∀ x ∈ e, isDigit x = true := by
    rintro l q' ⟨a', b', g1, g2, g3, ⟨rfl, -⟩ | ⟨rfl, -⟩⟩ d e hd he
    · have := g2 '.' (by rw [he]; simp)
      exact absurd this (by decide)
    · obtain ⟨-, h2⟩ := words_dot (fun c hc => isWord_digit (g2 c hc)) (fun c hc => isWord_digit (hd c hc)) he
      rw [← h2]; exact g3
  cases t with
  | nil => exact ⟨a, [], _, hdec.symm, ⟨a, [], hne, ha, by simp, Or.inl ⟨rfl, rfl⟩⟩, by simp⟩
  | cons x r =>
    by_cases hx : x = '.'
    · subst hx
      have hdec2 : r.takeWhile isDigit ++ r.dropWhile isDigit = r := List.takeWhile_append_dropWhile
      refine ⟨a ++ '.' :: r.takeWhile isDigit, r.dropWhile isDigit, _, ?_, ⟨a, r.takeWhile isDigit, hne, ha, mem_takeWhile_p, Or.inr ⟨rfl, rfl⟩⟩, ?_⟩
      · rw [← hdec]; simp [hdec2]
      · intro x r' q' hx hN
        have h1 := dropWhile_head hx
        have := key hN (d := a) (e := r.takeWhile isDigit ++ [x]) ha (by simp) x (by simp)
        rw [h1] at this; cases this
    · refine ⟨a, x :: r, _, hdec.symm, ⟨a, [], hne, ha, by simp, Or.inl ⟨rfl, rfl⟩⟩, ?_⟩
      intro y r' q' hy hN
      simp only [List.cons.injEq] at hy
      obtain ⟨rfl, rfl⟩ := hy
      rcases numText_chars hN x (by simp) with h | h
      · rw [hhead x r rfl] at h; cases h
      · exact hx h

/-- a prefix of digits and points does not reach the label -/
theorem prefix_before_label {p q y lab : Str} (hp : ∀ c ∈ p, isDigit c = true ∨ c = '.')
    (hl : SameCI lab (c% "RINEX VERSION / TYPE")) (h : p ++ q = y ++ lab) : ∃ x, q = x ++ lab ∧ y = p ++ x := by
  by_cases hlen : p.length ≤ y.length
  · have h1 := congrArg (List.drop p.length) h
    have h2 := congrArg (List.take p.length) h
    rw [List.drop_left, List.drop_append_of_le_length hlen] at h1
    rw [List.take_left, List.take_append_of_le_length hlen] at h2
    refine ⟨y.drop p.length, h1, ?_⟩
    conv_lhs => rw [← List.take_append_drop p.length y, ← h2]
  · exfalso
    cases lab with
    | nil => unfold SameCI at hl; simp [lower] at hl
    | cons c lab =>
      have hc : c ∈ p := by
        have := congrArg (fun l => l[y.length]?) h
        simp only [List.getElem?_append_left (show y.length < p.length by omega),
          List.getElem?_append_right (Nat.le_refl _), Nat.sub_self, List.getElem?_cons_zero] at this
        exact List.mem_of_getElem? this
      unfold SameCI at hl
      simp only [lower, List.map_cons, List.cons.injEq] at hl
      have hcl := hl.1
      rcases hp c hc with hd | rfl
      · rw [lowerC_digit hd] at hcl
        rw [hcl] at hd
        exact absurd hd (by decide)
      · exact absurd hcl (by decide)

/-- the part of the pattern after the number -/
def reVerTail : Re := reSeq [reAnys, reLit (c% "RINEX VERSION / TYPE"), .eol]

theorem ex_verTail (u : Str) (P : Hit → Prop) : reVerTail.Ex u P ↔
    ∃ x lab r, u = x ++ (lab ++ r) ∧ '\n' ∉ x ∧ SameCI lab (c% "RINEX VERSION / TYPE") ∧ (r = [] ∨ r = ['\n']) ∧
      P ⟨x ++ lab, r, []⟩ := by
  simp only [reVerTail, reSeq, Re.ex_seq, reAnys, Re.ex_many, Re.ex_lit, Re.ex_eol, Re.ex_eps, List.append_nil]
  constructor
  · rintro ⟨x, u, rfl, h1, lab, r, rfl, h2, h3, hP⟩
    refine ⟨x, lab, r, rfl, ?_, h2, h3, hP⟩
    intro hm; have := h1 _ hm; simp at this
  · rintro ⟨x, lab, r, rfl, h1, h2, h3, hP⟩
    refine ⟨x, _, rfl, ?_, lab, r, rfl, h2, h3, hP⟩
    intro c hc
    simp only [bne_iff_ne, ne_eq]
    rintro rfl; exact h1 hc

theorem rstrip_no_nl {s x : Str} (h : rstrip s = x ++ ['\n']) : False := by
  have h1 : rstrip (rstrip s) = rstrip x := by
    rw [h]; exact rstrip_append_space _ _ (by simp)
  rw [rstrip_idem, h] at h1
  have h2 := rstrip_length_le x
  rw [← h1] at h2
  simp at h2

theorem reVer_eq : reVer = .seq reSpaces (.seq (.grp 1 (reSeq [reD, .many isDigit, reOpt (reC '.'), .many isDigit])) reVerTail) := rfl

theorem parseFloat_num {s : Str} {q : Rat} (h : NumText s q) : parseFloat s = some (.fin q) := by
  obtain ⟨a, b, h1, h2, h3, ⟨rfl, rfl⟩ | ⟨rfl, rfl⟩⟩ := h
  · obtain ⟨c, r, rfl⟩ := List.exists_cons_of_ne_nil h1
    have := parseFloat_unsigned (c := c) (r := r) (a := []) (b := []) (q := decVal (c :: r))
      (by simp [numChar, h2 c (by simp)]) (solid_digits h1 h2) (by simp) (by simp)
      (by rw [parseUFloat_plain (fun x hx => by simp [numChar, h2 x hx])]; exact parseMant_int h2 h1)
    simpa [decVal, rowVal] using this
  · have := parseFloat_fixed [] [] false a b (by simp) (by simp) h2 h3 h1
    simpa [decVal, rowVal] using this

/-- a line announcing a version is matched, with the number in the group -/
theorem reVer_announced {line : Str} {q : Rat} (h : VersionLine line q) :
    ∃ h, reVer.match1 (rstrip line) = some h ∧ parseFloat (h.group 1) = some (.fin q) := by
  obtain ⟨ws, num, rest, lab, e, h1, h2, h3, h4, h5⟩ := h
  have e' : rstrip line = ws ++ (num ++ (rest ++ lab)) := by rw [e]; simp
  have hd : ∃ c r, num = c :: r ∧ isDigit c = true := by
    obtain ⟨a, b, g1, g2, g3, g⟩ := h2
    obtain ⟨c, r, rfl⟩ := List.exists_cons_of_ne_nil g1
    rcases g with ⟨rfl, -⟩ | ⟨rfl, -⟩
    · exact ⟨c, r, rfl, g2 c (by simp)⟩
    · exact ⟨c, _, rfl, g2 c (by simp)⟩
  obtain ⟨c, r, hcr, hc⟩ := hd
  have m1 : reSpaces.match1 (ws ++ (num ++ (rest ++ lab))) = some ⟨ws, num ++ (rest ++ lab), []⟩ := by
    apply match1_many h1
    intro x r' hx
    rw [hcr, List.cons_append, List.cons.injEq] at hx
    rw [← hx.1]; exact isDigit_not_space hc
  have m2 := match1_num (u := rest ++ lab) h2 h3
  have m3 : ∃ k, reVerTail.match1 (rest ++ lab) = some k ∧ True := by
    apply Re.match1_ex
    · rw [Re.accepts_iff, ex_verTail]
      exact ⟨rest, lab, [], by simp, h4, h5, Or.inl rfl, trivial⟩
    · intros; trivial
  obtain ⟨k, m3, -⟩ := m3
  have m := match1_seq m1 (match1_seq m2 m3)
  rw [← reVer_eq, ← e'] at m
  refine ⟨_, m, ?_⟩
  simp only [Hit.group, List.nil_append, List.cons_append, List.find?_cons]
  exact parseFloat_num h2

/-- a matched line announces a version -/
theorem announced_of_reVer {line : Str} {h : Hit} (hm : reVer.match1 (rstrip line) = some h) : ∃ q, VersionLine line q := by
  have hm := Re.match1_some hm
  rw [Re.mem_run, reVer_eq] at hm
  simp only [Re.ex_seq, reSpaces, Re.ex_many, Re.ex_grp, ex_verTail, reSeq, reD, Re.ex_chr] at hm
  obtain ⟨ws, u, e, h1, c, t, rfl, hc, hm⟩ := hm
  obtain ⟨num, w, q, g1, g2, g3⟩ := maximal_number c t hc
  -- the end of the line
  have hend : ∃ y lab, c :: t = y ++ lab ∧ '\n' ∉ y ∧ SameCI lab (c% "RINEX VERSION / TYPE") := by
    obtain ⟨d1, u1, rfl, k1, hm⟩ := hm
    rw [Re.ex_opt, Re.ex_c] at hm
    have fin : ∀ {p : Str} {x lab r : Str}, (∀ y ∈ p, isDigit y = true ∨ y = '.') → c :: (d1 ++ u1) = p ++ (x ++ (lab ++ r)) →
        '\n' ∉ x → SameCI lab (c% "RINEX VERSION / TYPE") → (r = [] ∨ r = ['\n']) →
        ∃ y lab, c :: (d1 ++ u1) = y ++ lab ∧ '\n' ∉ y ∧ SameCI lab (c% "RINEX VERSION / TYPE") := by
      intro p x lab r hp he hx hl hr
      rcases hr with rfl | rfl
      · refine ⟨p ++ x, lab, by rw [he]; simp, ?_, hl⟩
        simp only [List.mem_append, not_or]
        refine ⟨fun hn => ?_, hx⟩
        rcases hp _ hn with h | h <;> exact absurd h (by decide)
      · exfalso
        rw [he] at e
        exact rstrip_no_nl (s := line) (x := ws ++ (p ++ (x ++ lab))) (by rw [e]; simp)
    have hd1 : ∀ y ∈ c :: d1, isDigit y = true ∨ y = '.' := by
      intro y hy
      simp only [List.mem_cons] at hy
      rcases hy with rfl | hy
      · exact Or.inl hc
      · exact Or.inl (k1 _ hy)
    rcases hm with ⟨c', t', rfl, hdot, hm⟩ | hm
    · rw [lowerC_dot] at hdot
      subst hdot
      obtain ⟨d2, u2, rfl, k2, hm⟩ := hm
      simp only [Re.ex_eps] at hm
      obtain ⟨x, lab, r, hu, hx, hl, hr, -⟩ := hm
      subst hu
      apply fin (p := c :: d1 ++ '.' :: d2) (x := x) (lab := lab) (r := r) _ (by simp) hx hl hr
      intro y hy
      simp only [List.mem_append] at hy
      rcases hy with hy | hy
      · exact hd1 _ hy
      · simp only [List.mem_cons] at hy
        rcases hy with hy | hy
        · exact Or.inr hy
        · exact Or.inl (k2 _ hy)
    · obtain ⟨d2, u2, rfl, k2, hm⟩ := hm
      simp only [Re.ex_eps] at hm
      obtain ⟨x, lab, r, hu, hx, hl, hr, -⟩ := hm
      subst hu
      apply fin (p := c :: d1 ++ d2) (x := x) (lab := lab) (r := r) _ (by simp) hx hl hr
      intro y hy
      rw [List.mem_append] at hy
      rcases hy with hy | hy
      · exact hd1 _ hy
      · exact Or.inl (k2 _ hy)
  obtain ⟨y, lab, ey, hny, hl⟩ := hend
  rw [g1] at ey
  obtain ⟨x, rfl, rfl⟩ := prefix_before_label (numText_chars g2) hl ey
  refine ⟨q, ws, num, x, lab, ?_, h1, g2, g3, ?_, hl⟩
  · rw [e, g1]; simp
  · intro hn; exact hny (by simp [hn])

theorem obsClass_iff (q : Rat) (v : Nat) : obsClass q = some v ↔ (q, v) ∈ obsReaders := by
  unfold obsClass obsReaders
  simp only [List.mem_cons, Prod.mk.injEq, List.not_mem_nil, or_false]
  constructor
  · intro h
    split at h
    · simp only [Option.some.injEq] at h; left; constructor <;> [(rename_i h'; rw [h']; norm_num); exact h.symm]
    · (repeat' split at h) <;> simp only [Option.some.injEq, reduceCtorEq] at h <;> rename_i h' <;> subst h h' <;> norm_num
  · rintro (⟨rfl, rfl⟩ | ⟨rfl, rfl⟩ | ⟨rfl, rfl⟩ | ⟨rfl, rfl⟩ | ⟨rfl, rfl⟩ | ⟨rfl, rfl⟩ | ⟨rfl, rfl⟩) <;> norm_num

theorem navClass_iff (q : Rat) (v : Nat) : navClass q = some v ↔ (q, v) ∈ navReaders := by
  unfold navClass navReaders
  simp only [List.mem_cons, Prod.mk.injEq, List.not_mem_nil, or_false]
  constructor
  · intro h
    split at h
    · simp only [Option.some.injEq] at h; left; constructor <;> [(rename_i h'; rw [h']; norm_num); exact h.symm]
    · (repeat' split at h) <;> simp only [Option.some.injEq, reduceCtorEq] at h <;> rename_i h' <;> subst h h' <;> norm_num
  · rintro (⟨rfl, rfl⟩ | ⟨rfl, rfl⟩ | ⟨rfl, rfl⟩ | ⟨rfl, rfl⟩ | ⟨rfl, rfl⟩ | ⟨rfl, rfl⟩ | ⟨rfl, rfl⟩ | ⟨rfl, rfl⟩ | ⟨rfl, rfl⟩) <;> norm_num

theorem obsVersion_eq {line : Str} {q : Rat} (h : VersionLine line q) :
    obsVersion line = match obsClass q with | some c => .ok c | none => .error .rinex := by
  obtain ⟨k, h1, h2⟩ := reVer_announced h
  unfold obsVersion
  rw [h1]
  simp only [h2]
  cases obsClass q <;> rfl

/-- C24, observation files: reader `v` is used exactly when the first line announces a version that has the reader `v`. -/
theorem C24_obs (line : Str) (v : Nat) :
    obsVersion line = .ok v ↔ ∃ q, VersionLine line q ∧ (q, v) ∈ obsReaders := by
  constructor
  · intro h
    have hm : ∃ k, reVer.match1 (rstrip line) = some k := by
      unfold obsVersion at h
      cases hm : reVer.match1 (rstrip line) with
      | none => rw [hm] at h; simp at h
      | some k => exact ⟨k, rfl⟩
    obtain ⟨k, hm⟩ := hm
    obtain ⟨q, hq⟩ := announced_of_reVer hm
    refine ⟨q, hq, ?_⟩
    rw [obsVersion_eq hq] at h
    rw [← obsClass_iff]
    cases hc : obsClass q with
    | none => rw [hc] at h; simp at h
    | some c => rw [hc] at h; simp only [Except.ok.injEq] at h; rw [h]
  · rintro ⟨q, hq, hv⟩
    rw [obsVersion_eq hq, (obsClass_iff q v).2 hv]

/-- C24, observation files: every other first line is a RinexError. -/
theorem C24_obs_rejected (line : Str) (h : ∀ q v, VersionLine line q → (q, v) ∉ obsReaders) :
    obsVersion line = .error .rinex := by
  by_cases hq : ∃ q, VersionLine line q
  · obtain ⟨q, hq⟩ := hq
    rw [obsVersion_eq hq]
    cases hc : obsClass q with
    | none => rfl
    | some c => exact absurd ((obsClass_iff q c).1 hc) (h q c hq)
  · unfold obsVersion
    cases hm : reVer.match1 (rstrip line) with
    | none => rfl
    | some k => exact absurd (announced_of_reVer hm) hq

/-- C24, navigation files: reader `v` is used exactly when the first nine columns are a number with that reader
(`parseFloat` is Python's `float`), every other first line is a RinexError. -/
theorem C24_nav (line : Str) (v : Nat) :
    (navVersion line = .ok v ↔ ∃ q, parseFloat (line.take 9) = some (.fin q) ∧ (q, v) ∈ navReaders) ∧
    ((∀ q w, parseFloat (line.take 9) = some (.fin q) → (q, w) ∉ navReaders) → navVersion line = .error .rinex) := by
  unfold navVersion
  cases h : parseFloat (line.take 9) with
  | none => simp
  | some f =>
    cases f with
    | fin q =>
      simp only [Option.some.injEq, PyFloat.fin.injEq, exists_eq_left', ← navClass_iff]
      cases hc : navClass q with
      | none => simp
      | some c => simp; exact ⟨c, hc⟩
    | _ => simp

/-- C24, navigation files as they are written: the version in hundredths as F9.2, then anything. -/
theorem C24_nav_written (n : Nat) (hn : n < 100000) (more : Str) (v : Nat) :
    navVersion (padLeft 9 (fixedDec 2 n) ++ more) = .ok v ↔ ((n : Rat) / 100, v) ∈ navReaders := by
  have hlen : (padLeft 9 (fixedDec 2 (n : Int))).length = 9 := by
    apply padLeft_length
    unfold fixedDec
    rw [if_neg (by omega)]
    have h1 := natStr_length_le (n := (n : Int).natAbs / 10 ^ 2) (k := 3) (by omega) (by simp; omega)
    have h2 := zfill_natStr_length (w := 2) (n := (n : Int).natAbs % 10 ^ 2) (by omega) (by omega)
    simp only [List.length_append, List.length_nil, List.length_cons] at *
    omega
  have htake : (padLeft 9 (fixedDec 2 (n : Int)) ++ more).take 9 = padLeft 9 (fixedDec 2 (n : Int)) := by
    rw [List.take_append_of_le_length (by omega), List.take_of_length_le (by omega)]
  rw [(C24_nav _ v).1, htake, parseFloat_padFixed 2 (by omega) 9 n]
  simp only [Option.some.injEq, PyFloat.fin.injEq, exists_eq_left']
  norm_num

/-- the hypotheses are met -/
theorem C24_example : VersionLine (c% "     2.11           OBSERVATION DATA    M (MIXED)           RINEX VERSION / TYPE\n") (211/100) := by
  refine ⟨c% "     ", c% "2.11", c% "           OBSERVATION DATA    M (MIXED)           ", c% "RINEX VERSION / TYPE", by decide, by decide,
    ⟨c% "2", c% "11", by decide, by decide, by decide, Or.inr ⟨by decide, ?_⟩⟩, ?_, by decide, by unfold SameCI; decide⟩
  · rw [show rowVal (c% "2") = 2 by decide, show rowVal (c% "11") = 11 by decide]; norm_num
  · rintro c r q' hc hN
    simp only [List.cons_append, List.cons.injEq] at hc
    rcases numText_chars hN c (by simp) with h | h <;> rw [← hc.1] at h <;> exact absurd h (by decide)

example : obsVersion (c% "     2.11           OBSERVATION DATA    M (MIXED)           RINEX VERSION / TYPE\n") = .ok 211 :=
  (C24_obs _ _).2 ⟨_, C24_example, by simp [obsReaders]⟩
example : navVersion (padLeft 9 (fixedDec 2 304) ++ c% "           N: GNSS NAV DATA    M: MIXED            RINEX VERSION / TYPE") = .ok 303 :=
  (C24_nav_written 304 (by omega) _ _).2 (by norm_num [navReaders])

end Verif.Props
