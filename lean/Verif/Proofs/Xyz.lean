import Verif.Spec.Xyz
import Verif.Proofs.Names
import Verif.Proofs.HeaderLines
import Verif.Props.Version
/-!
# Coordinate files: proofs
-/
namespace Verif.Proofs
open Verif.Py Verif.Model Verif.Spec Verif.Props

theorem match1_det {r : Re} {s t u : Str} (hex : r.Ex s (· = ⟨t, u, []⟩)) (huniq : ∀ h ∈ r.run s, h = ⟨t, u, []⟩) :
    r.match1 s = some ⟨t, u, []⟩ := by
  obtain ⟨h, hm, rfl⟩ := Re.match1_ex (P := (· = ⟨t, u, []⟩)) ((Re.accepts_iff r s).2 (by
    obtain ⟨h, h1, -⟩ := hex; exact ⟨h, h1, trivial⟩)) huniq
  exact hm

theorem match1_rep {p : Char → Bool} {n : Nat} {t u : Str} (hl : t.length = n) (hp : ∀ c ∈ t, p c = true) :
    (reRep (.chr p) n).match1 (t ++ u) = some ⟨t, u, []⟩ := by
  apply match1_det
  · rw [Re.ex_rep]; exact ⟨t, u, rfl, hl, hp, rfl⟩
  · intro h hm
    rw [Re.mem_run, Re.ex_rep] at hm
    obtain ⟨t', u', e, h1, h2, rfl⟩ := hm
    obtain ⟨rfl, rfl⟩ := append_split (by rw [hl, h1]) e
    rfl

theorem match1_month {m : Nat} (h1 : 1 ≤ m) (h2 : m ≤ 12) (r : Str) :
    (reAlt [reSeq [reC '1', reRange '0' '2'], reSeq [reC '0', reRange '1' '9'], reRange '1' '9']).match1 (dig2 m ++ r) =
      some ⟨dig2 m, r, []⟩ := by
  interval_cases m <;> rfl

theorem match1_day {d : Nat} (h1 : 1 ≤ d) (h2 : d ≤ 31) (r : Str) :
    (reAlt [reSeq [reC '3', reRange '0' '1'], reSeq [reRange '1' '2', reD], reSeq [reC '0', reRange '1' '9'],
    reRange '1' '9', reSeq [reC ' ', reRange '1' '9']]).match1 (dig2 d ++ r) =
      some ⟨dig2 d, r, []⟩ := by
  interval_cases d <;> rfl

theorem match1_hour {d : Nat} (h2 : d < 24) (r : Str) :
    (reAlt [reSeq [reC '2', reRange '0' '3'], reSeq [reRange '0' '1', reD], reD]).match1 (dig2 d ++ r) =
      some ⟨dig2 d, r, []⟩ := by
  interval_cases d <;> rfl

theorem match1_minute {d : Nat} (h2 : d < 60) (r : Str) :
    (reAlt [reSeq [reRange '0' '5', reD], reD]).match1 (dig2 d ++ r) =
      some ⟨dig2 d, r, []⟩ := by
  interval_cases d <;> rfl

theorem match1_second {d : Nat} (h2 : d < 60) (r : Str) :
    (reAlt [reSeq [reC '6', reRange '0' '1'], reSeq [reRange '0' '5', reD], reD]).match1 (dig2 d ++ r) =
      some ⟨dig2 d, r, []⟩ := by
  interval_cases d <;> rfl

theorem match1_c (c : Char) (r : Str) : (reC c).match1 (c :: r) = some ⟨[c], r, []⟩ := by
  simp [reC, Re.match1, Re.run]

theorem filter_dig2 (n : Nat) : (dig2 n).filter isDigit = dig2 n := by
  rw [List.filter_eq_self]; exact (dig2_digits n).2

theorem legal_fields {t : DateTime} (h : Legal t) : t.year < 10000 ∧ 1 ≤ t.month ∧ t.month ≤ 12 ∧ 1 ≤ t.day ∧ t.day ≤ 31 ∧
    t.hour < 24 ∧ t.minute < 60 ∧ t.second < 60 := by
  obtain ⟨hd, h1, h2, h3, h4⟩ := h
  have hv := (legalDate_iff _ _ _).1 hd
  have := daysInMonth_le t.year t.month
  obtain ⟨a, b, c, d, e, f⟩ := hv
  omega

theorem mkDateTime7_legal {t : DateTime} (h : Legal t) :
    mkDateTime7 t.year t.month t.day t.hour t.minute t.second t.micro = .ok t := by
  have hv := (legal_iff t).1 h
  obtain ⟨⟨a, b, c, d, e, f⟩, g1, g2, g3, g4⟩ := hv
  have hle := daysInMonth_le t.year t.month
  unfold mkDateTime7
  rw [if_neg, if_pos]
  · simp
  · simp only [Int.toNat_natCast]; omega
  · simp only [fitsCInt, Bool.not_eq_true, Bool.not_eq_false', Bool.and_eq_true, decide_eq_true_eq]
    omega

/-- the date and time of a line are read back -/
theorem strptimeXyz_written {t : DateTime} (h : Legal t) (h0 : t.micro = 0) :
    strptimeXyz (dateText t ++ timeText t) = .ok t := by
  obtain ⟨hy, hm1, hm2, hd1, hd2, hh, hmi, hs⟩ := legal_fields h
  have e : dateText t ++ timeText t = dig4 t.year ++ ('-' :: (dig2 t.month ++ ('-' :: (dig2 t.day ++ (dig2 t.hour ++
    (':' :: (dig2 t.minute ++ (':' :: (dig2 t.second ++ []))))))))) := by simp [dateText, timeText]
  have m := match1_seq (match1_grp (n := 1) (match1_rep (p := isDigit) (n := 4) (t := dig4 t.year) rfl (dig4_digits _).2
      (u := '-' :: (dig2 t.month ++ ('-' :: (dig2 t.day ++ (dig2 t.hour ++
    (':' :: (dig2 t.minute ++ (':' :: (dig2 t.second ++ []))))))))))) (match1_seq (match1_c '-' _)
    (match1_seq (match1_grp (n := 2) (match1_month hm1 hm2 _)) (match1_seq (match1_c '-' _)
    (match1_seq (match1_grp (n := 3) (match1_day hd1 hd2 _)) (match1_seq (match1_grp (n := 4) (match1_hour hh _))
    (match1_seq (match1_c ':' _) (match1_seq (match1_grp (n := 5) (match1_minute hmi _)) (match1_seq (match1_c ':' _)
    (match1_seq (match1_grp (n := 6) (match1_second hs [])) (b := reSeq []) (k := ⟨[], [], []⟩) rfl)))))))))
  rw [← e] at m
  unfold strptimeXyz
  rw [show reXyzTime = _ from rfl]
  have m' : reXyzTime.match1 (dateText t ++ timeText t) = _ := m
  rw [m']
  simp only [Hit.group, List.append_nil, List.nil_append, List.cons_append, List.find?_cons]
  simp only [ne_eq, not_true_eq_false, if_false, decide_true, Option.map_some, Option.getD_some,
    show decide ((1 : Nat) = 2) = false by decide, show decide ((1 : Nat) = 3) = false by decide,
    show decide ((1 : Nat) = 4) = false by decide, show decide ((1 : Nat) = 5) = false by decide,
    show decide ((1 : Nat) = 6) = false by decide, show decide ((2 : Nat) = 3) = false by decide,
    show decide ((2 : Nat) = 4) = false by decide, show decide ((2 : Nat) = 5) = false by decide,
    show decide ((2 : Nat) = 6) = false by decide, show decide ((3 : Nat) = 4) = false by decide,
    show decide ((3 : Nat) = 5) = false by decide, show decide ((3 : Nat) = 6) = false by decide,
    show decide ((4 : Nat) = 5) = false by decide, show decide ((4 : Nat) = 6) = false by decide,
    show decide ((5 : Nat) = 6) = false by decide, filter_dig2]
  rw [digitsVal_dig4 hy, digitsVal_dig2 (show t.month < 100 by omega), digitsVal_dig2 (show t.day < 100 by omega),
    digitsVal_dig2 (show t.hour < 100 by omega), digitsVal_dig2 (show t.minute < 100 by omega), digitsVal_dig2 (show t.second < 100 by omega)]
  have := mkDateTime7_legal h
  rw [h0] at this
  exact this

/-! ## splitting -/

def NoSpace (w : Str) : Prop := ∀ c ∈ w, isSpace c = false

theorem splitSpaces_char {c : Char} (s : Str) (h : isSpace c = false) :
    splitSpaces (c :: s) = match splitSpaces s with
      | [] => [[c]]
      | w :: ws => (c :: w) :: ws := by
  rw [splitSpaces.eq_def (c :: s)]
  simp only [h]
  rfl

theorem splitSpaces_blank {c d : Char} (s : Str) (h : isSpace c = true) :
    splitSpaces (c :: d :: s) = if isSpace d then splitSpaces (d :: s) else [] :: splitSpaces (d :: s) := by
  simp [splitSpaces.eq_def (c :: d :: s), h]

theorem splitSpaces_word_end {w : Str} (hw : NoSpace w) : splitSpaces w = [w] := by
  induction w with
  | nil => rfl
  | cons c w ih =>
    rw [splitSpaces_char _ (hw c (by simp)), ih (fun x hx => hw x (by simp [hx]))]

theorem splitSpaces_spaces {sp s : Str} (hsp : Blank sp) (hne : sp ≠ []) (hs : ∀ c r, s = c :: r → isSpace c = false) (hsne : s ≠ []) :
    splitSpaces (sp ++ s) = [] :: splitSpaces s := by
  induction sp with
  | nil => exact absurd rfl hne
  | cons c sp ih =>
    obtain ⟨d, s', rfl⟩ := List.exists_cons_of_ne_nil hsne
    cases sp with
    | nil =>
      rw [List.cons_append, List.nil_append, splitSpaces_blank _ (hsp c (by simp))]
      rw [if_neg (by simp [hs d s' rfl])]
    | cons c' sp =>
      rw [List.cons_append, List.cons_append, splitSpaces_blank _ (hsp c (by simp))]
      rw [if_pos (hsp c' (by simp))]
      exact ih (fun x hx => hsp x (by simp at hx ⊢; right; exact hx)) (by simp)

theorem splitSpaces_word {w sp s : Str} (hw : NoSpace w) (hsp : Blank sp) (hne : sp ≠ [])
    (hs : ∀ c r, s = c :: r → isSpace c = false) (hsne : s ≠ []) :
    splitSpaces (w ++ (sp ++ s)) = w :: splitSpaces s := by
  induction w with
  | nil => exact splitSpaces_spaces hsp hne hs hsne
  | cons c w ih =>
    rw [List.cons_append, splitSpaces_char _ (hw c (by simp)), ih (fun x hx => hw x (by simp [hx]))]

theorem digits_noSpace {s : Str} (h : ∀ c ∈ s, isDigit c = true) : NoSpace s := fun c hc => isDigit_not_space (h c hc)

theorem noSpace_append {a b : Str} (ha : NoSpace a) (hb : NoSpace b) : NoSpace (a ++ b) := by
  intro c hc
  rcases List.mem_append.1 hc with h | h
  · exact ha c h
  · exact hb c h

theorem noSpace_cons {c : Char} {b : Str} (ha : isSpace c = false) (hb : NoSpace b) : NoSpace (c :: b) := by
  intro x hx
  rcases List.mem_cons.1 hx with rfl | h
  · exact ha
  · exact hb x h

theorem dateText_noSpace (t : DateTime) : NoSpace (dateText t) := by
  unfold dateText
  exact noSpace_append (noSpace_append (digits_noSpace (dig4_digits _).2) (noSpace_cons (by decide) (digits_noSpace (dig2_digits _).2)))
    (noSpace_cons (by decide) (digits_noSpace (dig2_digits _).2))

theorem timeText_noSpace (t : DateTime) : NoSpace (timeText t) := by
  unfold timeText
  exact noSpace_append (noSpace_append (digits_noSpace (dig2_digits _).2) (noSpace_cons (by decide) (digits_noSpace (dig2_digits _).2)))
    (noSpace_cons (by decide) (digits_noSpace (dig2_digits _).2))

theorem coord_noSpace (c : Coord) : NoSpace c.text := by
  unfold Coord.text fixedDec
  refine noSpace_append (noSpace_append (noSpace_append ?_ (digits_noSpace (natStr_digits _))) (noSpace_cons (by decide) (by intro c hc; cases hc)))
    (digits_noSpace (zfill_digits (natStr_digits _)))
  split
  · exact noSpace_cons (by decide) (by intro c hc; cases hc)
  · intro c hc; cases hc

theorem coord_ne_nil (c : Coord) : c.text ≠ [] := by
  unfold Coord.text fixedDec; simp

theorem head_noSpace {w s : Str} (hw : NoSpace w) (hne : w ≠ []) : ∀ c r, w ++ s = c :: r → isSpace c = false := by
  obtain ⟨d, w, rfl⟩ := List.exists_cons_of_ne_nil hne
  intro c r h
  simp only [List.cons_append, List.cons.injEq] at h
  rw [← h.1]; exact hw d (by simp)

theorem rstrip_noSpace {a w tr : Str} (hw : NoSpace w) (hne : w ≠ []) (htr : Blank tr) : rstrip (a ++ w ++ tr) = a ++ w := by
  rw [rstrip_append_space _ _ htr]
  obtain ⟨w', c, rfl⟩ := List.eq_nil_or_concat w |>.resolve_left hne
  rw [List.concat_eq_append, ← List.append_assoc]
  exact rstrip_of_last _ _ (hw c (by simp))

theorem parseFloat_coord (c : Coord) (h : 1 ≤ c.k) : parseFloat c.text = some (.fin c.value) := by
  have := parseFloat_fixedDec c.k h [] [] c.n (by simp) (by simp)
  simpa [Coord.text, Coord.value] using this

theorem reComment_accepts (s : Str) : reComment.accepts s = true ↔ ∃ i t, s = i ++ '#' :: t ∧ Blank i := by
  rw [Re.accepts_iff]
  simp only [reComment, reSeq, Re.ex_seq, reSpaces, Re.ex_many, Re.ex_c, reAnys, Re.ex_eps]
  have hh : ∀ c : Char, lowerC c = lowerC '#' ↔ c = '#' := fun c => lowerC_eq_nocase (by decide) (by decide)
  simp only [hh]
  constructor
  · rintro ⟨i, u, rfl, h1, c, u, rfl, rfl, -⟩
    exact ⟨i, u, rfl, h1⟩
  · rintro ⟨i, t, rfl, h1⟩
    exact ⟨i, '#' :: t, rfl, h1, '#', t, rfl, rfl, [], t, rfl, by simp, trivial⟩

theorem not_comment {c : Char} {s : Str} (h1 : isSpace c = false) (h2 : c ≠ '#') : reComment.accepts (c :: s) = false := by
  rw [Bool.eq_false_iff, ne_eq, reComment_accepts]
  rintro ⟨i, t, e, hi⟩
  cases i with
  | nil => simp only [List.nil_append, List.cons.injEq] at e; exact h2 e.1
  | cons d i =>
    simp only [List.cons_append, List.cons.injEq] at e
    rw [e.1, hi d (by simp)] at h1; cases h1

/-- the words of a point line -/
theorem splitSpaces_point (t : DateTime) (s1 : Str) (x : Coord) (s2 : Str) (y : Coord) (s3 : Str) (s0 : Str) (rest : Str)
    (h0 : Blank s0 ∧ s0 ≠ []) (h1 : Blank s1 ∧ s1 ≠ []) (h2 : Blank s2 ∧ s2 ≠ []) (h3 : Blank s3 ∧ s3 ≠ [])
    (hr : ∀ c r, rest = c :: r → isSpace c = false) (hne : rest ≠ []) :
    splitSpaces (dateText t ++ s0 ++ timeText t ++ s1 ++ x.text ++ s2 ++ y.text ++ s3 ++ rest) =
      dateText t :: timeText t :: x.text :: y.text :: splitSpaces rest := by
  have e : dateText t ++ s0 ++ timeText t ++ s1 ++ x.text ++ s2 ++ y.text ++ s3 ++ rest =
    dateText t ++ (s0 ++ (timeText t ++ (s1 ++ (x.text ++ (s2 ++ (y.text ++ (s3 ++ rest))))))) := by simp
  have tne : timeText t ≠ [] := by simp [timeText, dig2]
  rw [e, splitSpaces_word (dateText_noSpace t) h0.1 h0.2 (head_noSpace (timeText_noSpace t) tne) (by simp [tne]),
    splitSpaces_word (timeText_noSpace t) h1.1 h1.2 (head_noSpace (coord_noSpace x) (coord_ne_nil x)) (by simp [coord_ne_nil]),
    splitSpaces_word (coord_noSpace x) h2.1 h2.2 (head_noSpace (coord_noSpace y) (coord_ne_nil y)) (by simp [coord_ne_nil]),
    splitSpaces_word (coord_noSpace y) h3.1 h3.2 hr hne]

theorem date_head (t : DateTime) : ∃ c r, dateText t = c :: r ∧ isDigit c = true :=
  ⟨_, _, rfl, dig_isDigit _⟩

/-- one line -/
theorem xyzLine_written (l : XyzLine) (h : l.Ok) : xyzLine l.render = .ok l.entry := by
  cases l with
  | comment i t =>
    unfold xyzLine
    have e : rstrip (i ++ '#' :: t) = i ++ '#' :: rstrip t := by
      by_cases ht : rstrip t = []
      · have hb := (rstrip_eq_nil_iff t).1 ht
        rw [ht, show i ++ '#' :: t = (i ++ ['#']) ++ t by simp, rstrip_append_space _ _ hb, rstrip_of_last _ _ (by decide)]
      · rw [show i ++ '#' :: t = (i ++ ['#']) ++ t by simp, rstrip_append_of_ne _ _ ht]; simp
    simp only [XyzLine.render, e, XyzLine.entry]
    rw [if_pos ((reComment_accepts _).2 ⟨i, _, rfl, h⟩)]
  | blank ws =>
    unfold xyzLine
    simp only [XyzLine.render, XyzLine.entry, (rstrip_eq_nil_iff ws).2 h]
    rfl
  | point t s1 x s2 y s3 z s0 trail =>
    obtain ⟨hl, hm, a0, b0, a1, b1, a2, b2, a3, b3, at', kx, ky, kz⟩ := h
    have er : rstrip (XyzLine.point t s1 x s2 y s3 z s0 trail).render =
        dateText t ++ s0 ++ timeText t ++ s1 ++ x.text ++ s2 ++ y.text ++ s3 ++ z.text := by
      simp only [XyzLine.render]
      exact rstrip_noSpace (coord_noSpace z) (coord_ne_nil z) at'
    have hsp := splitSpaces_point t s1 x s2 y s3 s0 z.text ⟨a0, b0⟩ ⟨a1, b1⟩ ⟨a2, b2⟩ ⟨a3, b3⟩ (by
      have := head_noSpace (s := []) (coord_noSpace z) (coord_ne_nil z); simpa using this) (coord_ne_nil z)
    rw [splitSpaces_word_end (coord_noSpace z)] at hsp
    unfold xyzLine
    simp only [er, hsp, strptimeXyz_written hl hm, parseFloat_coord x kx, parseFloat_coord y ky, parseFloat_coord z kz]
    obtain ⟨c, r, hc, hd⟩ := date_head t
    have hcom : reComment.accepts (dateText t ++ s0 ++ timeText t ++ s1 ++ x.text ++ s2 ++ y.text ++ s3 ++ z.text) = false := by
      rw [hc]; simp only [List.cons_append]
      exact not_comment (isDigit_not_space hd) (isDigit_ne hd '#' (by decide))
    rw [hcom, hc]
    simp [XyzLine.entry]

theorem loadXyz_written (ls : List XyzLine) (h : ∀ l ∈ ls, l.Ok) (d : Dict DateTime (List PyFloat)) :
    loadXyz (ls.map XyzLine.render) d = .ok ((ls.filterMap XyzLine.entry).foldl (fun d e => d.set e.1 e.2) d) := by
  induction ls generalizing d with
  | nil => rfl
  | cons l ls ih =>
    have := xyzLine_written l (h l (by simp))
    rw [List.map_cons, loadXyz, this]
    cases he : l.entry with
    | none => simp only [List.filterMap_cons, he]; exact ih (fun x hx => h x (by simp [hx])) d
    | some e =>
      obtain ⟨t, p⟩ := e
      simp only [List.filterMap_cons, he, List.foldl_cons]
      exact ih (fun x hx => h x (by simp [hx])) _

theorem foldl_set_get (es : List (DateTime × List PyFloat)) (d : Dict DateTime (List PyFloat)) (t : DateTime) :
    (es.foldl (fun d e => d.set e.1 e.2) d).get? t =
      match (es.reverse.find? fun e => e.1 = t) with
      | some e => some e.2
      | none => d.get? t := by
  induction es generalizing d with
  | nil => rfl
  | cons e es ih =>
    rw [List.foldl_cons, ih, List.reverse_cons, List.find?_append]
    cases hf : es.reverse.find? (fun e => e.1 = t) with
    | some x => rfl
    | none =>
      simp only [Option.none_or, List.find?_cons, List.find?_nil]
      rw [Dict.get?_set]
      by_cases ht : e.1 = t
      · simp [ht]
      · simp [ht]

end Verif.Proofs
