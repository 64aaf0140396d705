import Verif.Proofs.HeaderLines
/-!
# Property C23: header values

A header is a list of lines; each is one of the four kinds whose values are kept, or any other line.  Physical lines may
carry trailing white space.
-/
namespace Verif.Props
open Verif.Py Verif.Model Verif.Spec Verif.Proofs

theorem render_fits {v : Nat} {h : HLine} (hok : h.Ok) (w : Str) (hw : ∀ c ∈ w, isSpace c = true) :
    labelOf (h.render v ++ w) = HLine.lbl h := by
  cases h with
  | version n f s d =>
    obtain ⟨hn, hd1, hd2, -⟩ := hok
    have := padLeft_length (fixedDec2_length hn)
    exact headerLabel_hline (by simp only [List.length_append, this, padRight, List.length_replicate, List.length_singleton]; omega) (by decide) hw
  | firstObs t sub sys =>
    obtain ⟨hl, hy, hsub, hsys⟩ := hok
    obtain ⟨f1, f2, f3, f4, f5, f6⟩ := fields_of_legal hl
    have hy9 : t.year ≤ 9999 := hl.1.2.1
    have d6 : ∀ n, n < 1000000 → (padLeft 6 (natStr n)).length = 6 := fun n hn =>
      padLeft_length (natStr_length_le (by omega) (by omega))
    have p6 := secCols_length v t sub (by omega) (by omega) hsub
    refine headerLabel_hline ?_ (by decide) hw
    simp only [List.length_append] at *
    rw [p6, d6 _ (by omega), d6 _ (by omega), d6 _ (by omega), d6 _ (by omega), d6 _ (by omega)]
    simp [hsys]
  | position x y z =>
    simp only [HLine.Ok, List.mem_cons, List.not_mem_nil, or_false, forall_eq_or_imp, forall_eq] at hok
    refine headerLabel_hline ?_ (by decide) hw
    simp [padLeft_length hok.1, padLeft_length hok.2.1, padLeft_length hok.2.2]
  | interval ms r =>
    refine headerLabel_hline ?_ (by decide) hw
    have := padLeft_length hok.1
    have h6 : (padLeft 6 (natStr (ms / 1000))).length = 6 :=
      padLeft_length (natStr_length_le (by omega) (by have := hok.2.1; omega))
    have h7 := hok.2.2.1
    rw [List.length_append]
    split <;> omega
  | other l =>
    show rstrip ((l ++ w).drop 60) = rstrip (l.drop 60)
    rw [List.drop_append]
    exact rstrip_append_space _ _ fun c hc => hw c (List.mem_of_mem_drop hc)

theorem headerText_mem {v : Nat} {ls : List Str} {hs : List HLine} (h : HeaderText v ls hs) {l : Str} (hl : l ∈ ls) :
    ∃ x ∈ hs, ∃ w, l = x.render v ++ w ∧ ∀ c ∈ w, isSpace c = true := by
  induction ls generalizing hs with
  | nil => simp at hl
  | cons a ls ih =>
    cases hs with
    | nil => simp [HeaderText] at h
    | cons x hs =>
      rcases List.mem_cons.1 hl with rfl | hl
      · exact ⟨x, by simp, h.1⟩
      · obtain ⟨y, hy, hh⟩ := ih h.2 hl
        exact ⟨y, by simp [hy], hh⟩

/-- a label never begins the label of another kind -/
theorem labels_distinct : lblVersion = lbl1 ∧ lblTofo = lbl2 ∧ lblXyz = lbl3 ∧ lblInterval = lbl4 := ⟨rfl, rfl, rfl, rfl⟩

/-- generic: the first line of a kind -/
theorem first_of_kind {α : Type} {v : Nat} (lbl : Str) (tell : HLine → Option α) (p : Str → Except PyErr α)
    (hyes : ∀ x : HLine, x.Ok → ∀ w, (∀ c ∈ w, isSpace c = true) → ∀ a, tell x = some a →
      labelOf (x.render v ++ w) = lbl ∧ p (x.render v ++ w) = .ok a)
    (hno : ∀ x : HLine, x.Ok → ∀ w, (∀ c ∈ w, isSpace c = true) → tell x = none → labelOf (x.render v ++ w) ≠ lbl)
    {ls : List Str} {hs : List HLine} (hok : ∀ h ∈ hs, h.Ok) (ht : HeaderText v ls hs) :
    (hs.findSome? tell = none → firstLine lbl ls = none) ∧
    (∀ a, hs.findSome? tell = some a → ∃ l, firstLine lbl ls = some l ∧ p l = .ok a) := by
  induction ls generalizing hs with
  | nil =>
    cases hs with
    | nil => simp [firstLine]
    | cons => simp [HeaderText] at ht
  | cons l ls ih =>
    cases hs with
    | nil => simp [HeaderText] at ht
    | cons x hs =>
      obtain ⟨⟨w, rfl, hw⟩, ht⟩ := ht
      have hx := hok x (by simp)
      have ih := ih (fun h hh => hok h (by simp [hh])) ht
      simp only [List.findSome?_cons, firstLine, List.find?_cons]
      cases hsx : tell x with
      | none =>
        have := hno x hx w hw hsx
        rw [show labelOf = headerLabel from rfl] at this
        simp only [this, decide_false]
        exact ih
      | some a =>
        obtain ⟨h1, h2⟩ := hyes x hx w hw a hsx
        rw [show labelOf = headerLabel from rfl] at h1
        simp only [h1, decide_true, Option.some.injEq, reduceCtorEq, false_implies, true_and]
        rintro b rfl
        exact ⟨_, rfl, h2⟩

/-- C23: for every header made of well-formed lines (in any order, any number of each kind, mixed with any other lines)
reading succeeds, and every value is the one of the first line of its kind; values without a line stay as they were. -/
theorem C23_header (v : Nat) (ls : List Str) (hs : List HLine) (hok : ∀ h ∈ hs, h.Ok) (ht : HeaderText v ls hs)
    (old : HeaderVals) :
    parseHeader v ls old = .ok
      { verType := (hs.findSome? (HLine.saysVersion v)).or old.verType
        tofo := (hs.findSome? HLine.saysFirstObs).or old.tofo
        xyz := (hs.findSome? HLine.saysPosition).getD old.xyz
        interval := (hs.findSome? (HLine.saysInterval v)).or old.interval } := by
  have k1 := first_of_kind (v := v) lbl1 (HLine.saysVersion v) (parseVerType v)
    (by
      intro x hx w hw a ha
      cases x <;> simp only [HLine.saysVersion, Option.some.injEq, reduceCtorEq] at ha
      subst ha
      exact ⟨render_fits (h := .version _ _ _ _) hx w hw, parseVerType_render v _ _ _ _ hx w⟩)
    (by
      intro x hx w hw ha
      rw [render_fits hx w hw]
      cases x <;> simp only [HLine.saysVersion, reduceCtorEq] at ha <;>
        first | (simp only [HLine.lbl]; decide) | exact fun h => hx (by simp only [HLine.lbl] at h; simp [h])) hok ht
  have k2 := first_of_kind (v := v) lbl2 HLine.saysFirstObs (parseTofo v)
    (by
      intro x hx w hw a ha
      cases x <;> simp only [HLine.saysFirstObs, Option.some.injEq, reduceCtorEq] at ha
      subst ha
      exact ⟨render_fits (h := .firstObs ..) hx w hw, parseTofo_render v _ _ _ hx w⟩)
    (by
      intro x hx w hw ha
      rw [render_fits hx w hw]
      cases x <;> simp only [HLine.saysFirstObs, reduceCtorEq] at ha <;>
        first | (simp only [HLine.lbl]; decide) | exact fun h => hx (by simp only [HLine.lbl] at h; simp [h])) hok ht
  have k3 := first_of_kind (v := v) lbl3 HLine.saysPosition parseXyz
    (by
      intro x hx w hw a ha
      cases x <;> simp only [HLine.saysPosition, Option.some.injEq, reduceCtorEq] at ha
      subst ha
      exact ⟨render_fits (h := .position ..) hx w hw, parseXyz_render v _ _ _ hx w⟩)
    (by
      intro x hx w hw ha
      rw [render_fits hx w hw]
      cases x <;> simp only [HLine.saysPosition, reduceCtorEq] at ha <;>
        first | (simp only [HLine.lbl]; decide) | exact fun h => hx (by simp only [HLine.lbl] at h; simp [h])) hok ht
  have k4 := first_of_kind (v := v) lbl4 (HLine.saysInterval v) (parseInterval v)
    (by
      intro x hx w hw a ha
      cases x <;> simp only [HLine.saysInterval, Option.some.injEq, reduceCtorEq] at ha
      subst ha
      exact ⟨render_fits (h := .interval _ _) hx w hw, parseInterval_render v _ _ hx w⟩)
    (by
      intro x hx w hw ha
      rw [render_fits hx w hw]
      cases x <;> simp only [HLine.saysInterval, reduceCtorEq] at ha <;>
        first | (simp only [HLine.lbl]; decide) | exact fun h => hx (by simp only [HLine.lbl] at h; simp [h])) hok ht
  have total : ∀ i : HItem, ∀ l, firstLine i.label ls = some l → ∀ g er, i.assign v l g ≠ .error er := by
    intro i l hl g er he
    cases i with
    | verType =>
      cases hf : hs.findSome? (HLine.saysVersion v) with
      | none => rw [show HItem.label .verType = lbl1 from rfl, k1.1 hf] at hl; simp at hl
      | some a =>
        obtain ⟨l', h1, h2⟩ := k1.2 a hf
        rw [show HItem.label .verType = lbl1 from rfl, h1, Option.some.injEq] at hl
        subst hl
        simp [HItem.assign, h2, bind, Except.bind, pure, Except.pure] at he
    | tofo =>
      cases hf : hs.findSome? HLine.saysFirstObs with
      | none => rw [show HItem.label .tofo = lbl2 from rfl, k2.1 hf] at hl; simp at hl
      | some a =>
        obtain ⟨l', h1, h2⟩ := k2.2 a hf
        rw [show HItem.label .tofo = lbl2 from rfl, h1, Option.some.injEq] at hl
        subst hl
        simp [HItem.assign, h2, bind, Except.bind, pure, Except.pure] at he
    | xyz =>
      cases hf : hs.findSome? HLine.saysPosition with
      | none => rw [show HItem.label .xyz = lbl3 from rfl, k3.1 hf] at hl; simp at hl
      | some a =>
        obtain ⟨l', h1, h2⟩ := k3.2 a hf
        rw [show HItem.label .xyz = lbl3 from rfl, h1, Option.some.injEq] at hl
        subst hl
        simp [HItem.assign, h2, bind, Except.bind, pure, Except.pure] at he
    | interval =>
      cases hf : hs.findSome? (HLine.saysInterval v) with
      | none => rw [show HItem.label .interval = lbl4 from rfl, k4.1 hf] at hl; simp at hl
      | some a =>
        obtain ⟨l', h1, h2⟩ := k4.2 a hf
        rw [show HItem.label .interval = lbl4 from rfl, h1, Option.some.injEq] at hl
        subst hl
        simp [HItem.assign, h2, bind, Except.bind, pure, Except.pure] at he
  cases hp : parseHeader v ls old with
  | error er =>
    obtain ⟨i, _, l, hl, g, hg⟩ := parseHeaderGo_error ls _ old items_nodup hp
    exact absurd hg (total i l hl g er)
  | ok h' =>
    have a1 := parseHeader_opt .verType HeaderVals.verType (parseVerType v) assign_verType hp
    have a2 := parseHeader_opt .tofo HeaderVals.tofo (parseTofo v) assign_tofo hp
    have a3 := parseHeader_xyz hp
    have a4 := parseHeader_opt .interval HeaderVals.interval (parseInterval v) assign_interval hp
    have e1 : h'.verType = (hs.findSome? (HLine.saysVersion v)).or old.verType := by
      cases hf : hs.findSome? (HLine.saysVersion v) with
      | none => simpa using a1.1 (k1.1 hf)
      | some a =>
        obtain ⟨l, h1, h2⟩ := k1.2 a hf
        obtain ⟨x, hx1, hx2⟩ := a1.2 l h1
        rw [h2, Except.ok.injEq] at hx1
        subst hx1; simpa using hx2
    have e2 : h'.tofo = (hs.findSome? HLine.saysFirstObs).or old.tofo := by
      cases hf : hs.findSome? HLine.saysFirstObs with
      | none => simpa using a2.1 (k2.1 hf)
      | some a =>
        obtain ⟨l, h1, h2⟩ := k2.2 a hf
        obtain ⟨x, hx1, hx2⟩ := a2.2 l h1
        rw [h2, Except.ok.injEq] at hx1
        subst hx1; simpa using hx2
    have e3 : h'.xyz = (hs.findSome? HLine.saysPosition).getD old.xyz := by
      cases hf : hs.findSome? HLine.saysPosition with
      | none => simpa using a3.1 (k3.1 hf)
      | some a =>
        obtain ⟨l, h1, h2⟩ := k3.2 a hf
        have hx1 := a3.2 l h1
        rw [h2, Except.ok.injEq] at hx1
        simpa using hx1.symm
    have e4 : h'.interval = (hs.findSome? (HLine.saysInterval v)).or old.interval := by
      cases hf : hs.findSome? (HLine.saysInterval v) with
      | none => simpa using a4.1 (k4.1 hf)
      | some a =>
        obtain ⟨l, h1, h2⟩ := k4.2 a hf
        obtain ⟨x, hx1, hx2⟩ := a4.2 l h1
        rw [h2, Except.ok.injEq] at hx1
        subst hx1; simpa using hx2
    cases h'
    simp only at e1 e2 e3 e4
    subst e1 e2 e3 e4
    rfl

/-- C23, whatever the text: the first line of each label decides, lines of other labels have no influence. -/
theorem C23_first_line (v : Nat) (ls : List Str) (old new : HeaderVals) (h : parseHeader v ls old = .ok new) :
    (∀ l, ls.find? (fun l => labelOf l = lbl3) = some l → parseXyz l = .ok new.xyz) ∧
    (ls.find? (fun l => labelOf l = lbl3) = none → new.xyz = old.xyz) ∧
    (∀ l, ls.find? (fun l => labelOf l = lbl2) = some l → ∃ x, parseTofo v l = .ok x ∧ new.tofo = some x) ∧
    (ls.find? (fun l => labelOf l = lbl2) = none → new.tofo = old.tofo) ∧
    (∀ l, ls.find? (fun l => labelOf l = lbl1) = some l → ∃ x, parseVerType v l = .ok x ∧ new.verType = some x) ∧
    (ls.find? (fun l => labelOf l = lbl1) = none → new.verType = old.verType) ∧
    (∀ l, ls.find? (fun l => labelOf l = lbl4) = some l → ∃ x, parseInterval v l = .ok x ∧ new.interval = some x) ∧
    (ls.find? (fun l => labelOf l = lbl4) = none → new.interval = old.interval) := by
  have a1 := parseHeader_opt .verType HeaderVals.verType (parseVerType v) assign_verType h
  have a2 := parseHeader_opt .tofo HeaderVals.tofo (parseTofo v) assign_tofo h
  have a3 := parseHeader_xyz h
  have a4 := parseHeader_opt .interval HeaderVals.interval (parseInterval v) assign_interval h
  exact ⟨a3.2, a3.1, a2.2, a2.1, a1.2, a1.1, a4.2, a4.1⟩

/-- the words of a version line: `OBSERVATION DATA    M (MIXED)` -/
def obsWords : Str × Str := (c% "BSERVATION DATA", c% " (MIXED)")

/-- `NAVIGATION DATA     M: MIXED` -/
def navWords : Str × Str := (c% "AVIGATION DATA", c% ": MIXED")

/-- a header with two position lines: the first one counts -/
def exampleHeader : List HLine :=
  [.version 211 'O' ' ' (c% "BSERVATION DATA", c% " (GPS)"), .other (hline (c% "a comment") (c% "COMMENT")), .position 33000000000 (-20000001) 5,
   .firstObs ⟨2017, 2, 28, 23, 59, 59, 999999⟩ 9 (c% "GPS"), .interval 30000 (c% "0"), .position 1 2 3, .interval 15000]

example : ∀ h ∈ exampleHeader, h.Ok := by
  intro h hh
  simp only [exampleHeader, List.mem_cons, List.not_mem_nil, or_false] at hh
  rcases hh with rfl | rfl | rfl | rfl | rfl | rfl | rfl
  · exact ⟨by decide, by decide⟩
  · exact (by decide : labelOf (hline (c% "a comment") (c% "COMMENT")) ∉ [lbl1, lbl2, lbl3, lbl4])
  · exact (by decide +kernel : ∀ n ∈ [(33000000000 : Int), -20000001, 5], (fixedDec 4 n).length ≤ 14)
  · refine ⟨(legal_iff _).2 (by decide), by decide, by decide, by decide⟩
  · exact (by decide +kernel : (fixedDec 3 ((30000 : Nat) : Int)).length ≤ 10 ∧ 30000 < 1000000000 ∧ (c% "0").length ≤ 50 ∧ '\n' ∉ (c% "0"))
  · exact (by decide +kernel : ∀ n ∈ [(1 : Int), 2, 3], (fixedDec 4 n).length ≤ 14)
  · exact (by decide +kernel : (fixedDec 3 ((15000 : Nat) : Int)).length ≤ 10 ∧ 15000 < 1000000000 ∧ ([] : Str).length ≤ 50 ∧ '\n' ∉ ([] : Str))

example : parseHeader 211 (exampleHeader.map (HLine.render 211)) .empty = .ok
    ⟨some (.fin (211 / 100), 'O', 'G'), some (⟨2017, 2, 28, 23, 59, 59, 999999⟩, c% "GPS"),
      [.fin 3300000, .fin (-20000001 / 10000), .fin (1 / 2000)], some (.fin 30)⟩ := by decide +kernel

end Verif.Props
