import Verif.Spec.Rinex3
import Verif.Model.Obs3
import Verif.Proofs.HeaderLines
/-! # RINEX 3: epoch lines and satellite lines -/
namespace Verif.Proofs
open Verif.Py Verif.Model Verif.Spec Verif.Props

/-- a text whose last character is not white keeps its place when trailing white space changes -/
theorem sameLine_head {l h c : Str} (hl : SameLine l (h ++ c)) (hh : rstrip h = h) :
    ∃ q, l = h ++ q ∧ rstrip q = rstrip c := by
  unfold SameLine at hl
  obtain ⟨t, ht, hw⟩ := rstrip_decomp l
  by_cases hc : rstrip c = []
  · have : rstrip (h ++ c) = h := by
      rw [rstrip_append_space _ _ ((rstrip_eq_nil_iff c).1 hc), hh]
    rw [hl, this] at ht
    refine ⟨t, ht, ?_⟩
    rw [hc, rstrip_eq_nil_iff]; exact hw
  · rw [rstrip_append_of_ne _ _ hc] at hl
    rw [hl] at ht
    refine ⟨rstrip c ++ t, by rw [ht]; simp, ?_⟩
    rw [rstrip_append_space _ _ hw, rstrip_idem]

/-! ## Epoch lines -/

/-- the fixed part of an epoch line -/
def markHead (date : Option (DateTime × Nat)) (flag num : Nat) : Str :=
  ['>'] ++ dateCols date ++ [' ', ' ', digit flag] ++ padLeft 3 (natStr num)

theorem markLine_eq (date : Option (DateTime × Nat)) (flag num : Nat) (clock : Option Int) :
    markLine date flag num clock = markHead date flag num ++ clockCols clock := rfl

theorem markHead_rstrip (date : Option (DateTime × Nat)) (flag num : Nat) :
    rstrip (markHead date flag num) = markHead date flag num := by
  obtain ⟨r, c, hc⟩ := List.eq_nil_or_concat (natStr num) |>.resolve_left (natStr_ne_nil _)
  have hd : isSpace c = false := isDigit_not_space (natStr_digits num c (by simp [hc]))
  have : markHead date flag num = (['>'] ++ dateCols date ++ [' ', ' ', digit flag] ++
    (List.replicate (3 - (natStr num).length) ' ' ++ r)) ++ [c] := by
    unfold markHead
    conv => lhs; rw [show padLeft 3 (natStr num) = List.replicate (3 - (natStr num).length) ' ' ++ natStr num from rfl]
    generalize 3 - (natStr num).length = k
    rw [hc]; simp
  rw [this]
  exact rstrip_of_last _ c hd

theorem two_digits {n : Nat} (h : n < 100) : (zfill 2 (natStr n)).length = 2 := zfill_natStr_length (by omega) (by omega)

theorem dateCols_length {date : Option (DateTime × Nat)} (h : DateOk date) : (dateCols date).length = 28 := by
  cases date with
  | none => simp [dateCols]
  | some p =>
    obtain ⟨t, sub⟩ := p
    obtain ⟨hl, hy, hsub⟩ := h
    obtain ⟨h1, h2, h3, h4, h5⟩ := hl
    obtain ⟨a1, a2, a3, a4, a5, a6⟩ := (legalDate_iff _ _ _).1 h1
    have := daysInMonth_le t.year t.month
    have y4 : (padLeft 4 (natStr t.year)).length = 4 := padLeft_length (natStr_length_le (by omega) (by omega))
    have s11 := secs_text_length (s := t.second) (m := t.micro * 10 + sub) (by omega) (by omega)
    unfold dateCols
    rw [List.length_append, s11]
    simp [y4, two_digits (n := t.month) (by omega), two_digits (n := t.day) (by omega),
      two_digits (n := t.hour) (by omega), two_digits (n := t.minute) (by omega)]

theorem markHead_length {date : Option (DateTime × Nat)} {flag num : Nat} (h : DateOk date) (hn : num < 1000) :
    (markHead date flag num).length = 35 := by
  simp [markHead, dateCols_length h, pad3_length hn]

/-- the columns of a date -/
theorem dateCols_slices {A Y M D H N S q : Str} (hY : Y.length = 4) (hM : M.length = 2) (hD : D.length = 2)
    (hH : H.length = 2) (hN : N.length = 2) (hS : S.length = 11) {L : Str} (hA : A.length = 1)
    (hL : L = A ++ ([' '] ++ Y ++ [' '] ++ M ++ [' '] ++ D ++ [' '] ++ H ++ [' '] ++ N ++ S) ++ q) :
    slice L 1 6 = [' '] ++ Y ∧ slice L 6 9 = [' '] ++ M ∧ slice L 9 12 = [' '] ++ D ∧ slice L 12 15 = [' '] ++ H ∧
    slice L 15 18 = [' '] ++ N ∧ slice L 18 29 = S := by
  refine ⟨?_, ?_, ?_, ?_, ?_, ?_⟩
  · rw [hL, show A ++ ([' '] ++ Y ++ [' '] ++ M ++ [' '] ++ D ++ [' '] ++ H ++ [' '] ++ N ++ S) ++ q =
      A ++ ([' '] ++ Y) ++ ([' '] ++ M ++ [' '] ++ D ++ [' '] ++ H ++ [' '] ++ N ++ S ++ q) by simp]
    exact slice_exact hA (by simp [*])
  · rw [hL, show A ++ ([' '] ++ Y ++ [' '] ++ M ++ [' '] ++ D ++ [' '] ++ H ++ [' '] ++ N ++ S) ++ q =
      (A ++ [' '] ++ Y) ++ ([' '] ++ M) ++ ([' '] ++ D ++ [' '] ++ H ++ [' '] ++ N ++ S ++ q) by simp]
    exact slice_exact (by simp [*]) (by simp [*])
  · rw [hL, show A ++ ([' '] ++ Y ++ [' '] ++ M ++ [' '] ++ D ++ [' '] ++ H ++ [' '] ++ N ++ S) ++ q =
      (A ++ [' '] ++ Y ++ [' '] ++ M) ++ ([' '] ++ D) ++ ([' '] ++ H ++ [' '] ++ N ++ S ++ q) by simp]
    exact slice_exact (by simp [*]) (by simp [*])
  · rw [hL, show A ++ ([' '] ++ Y ++ [' '] ++ M ++ [' '] ++ D ++ [' '] ++ H ++ [' '] ++ N ++ S) ++ q =
      (A ++ [' '] ++ Y ++ [' '] ++ M ++ [' '] ++ D) ++ ([' '] ++ H) ++ ([' '] ++ N ++ S ++ q) by simp]
    exact slice_exact (by simp [*]) (by simp [*])
  · rw [hL, show A ++ ([' '] ++ Y ++ [' '] ++ M ++ [' '] ++ D ++ [' '] ++ H ++ [' '] ++ N ++ S) ++ q =
      (A ++ [' '] ++ Y ++ [' '] ++ M ++ [' '] ++ D ++ [' '] ++ H) ++ ([' '] ++ N) ++ (S ++ q) by simp]
    exact slice_exact (by simp [*]) (by simp [*])
  · rw [hL, show A ++ ([' '] ++ Y ++ [' '] ++ M ++ [' '] ++ D ++ [' '] ++ H ++ [' '] ++ N ++ S) ++ q =
      (A ++ [' '] ++ Y ++ [' '] ++ M ++ [' '] ++ D ++ [' '] ++ H ++ [' '] ++ N) ++ S ++ q by simp]
    exact slice_exact (by simp [*]) (by simp [*])

theorem epochDate3_cols {date : Option (DateTime × Nat)} (h : DateOk date) (q : Str) :
    epochDate3 (['>'] ++ dateCols date ++ q) = .ok (date.map (·.1)) := by
  cases date with
  | none =>
    have : slice (['>'] ++ dateCols none ++ q) 18 29 = List.replicate 11 ' ' := by
      rw [show ['>'] ++ dateCols none ++ q = (['>'] ++ List.replicate 17 ' ') ++ List.replicate 11 ' ' ++ q by
        simp [dateCols, List.replicate]]
      exact slice_exact (by simp) (by simp)
    unfold epochDate3
    rw [this]
    simp only [pyFloat, parseFloat_blank mem_blanks, error_bind, catching_error]
    decide
  | some p =>
    obtain ⟨t, sub⟩ := p
    obtain ⟨hl, hy, hsub⟩ := h
    obtain ⟨h1, h2, h3, h4, h5⟩ := hl
    obtain ⟨a1, a2, a3, a4, a5, a6⟩ := (legalDate_iff _ _ _).1 h1
    have hdm := daysInMonth_le t.year t.month
    obtain ⟨L, hL⟩ : ∃ L, L = ['>'] ++ dateCols (some (t, sub)) ++ q := ⟨_, rfl⟩
    obtain ⟨e1, e2, e3, e4, e5, e6⟩ := dateCols_slices (A := ['>']) (Y := padLeft 4 (natStr t.year))
      (M := zfill 2 (natStr t.month)) (D := zfill 2 (natStr t.day)) (H := zfill 2 (natStr t.hour))
      (N := zfill 2 (natStr t.minute)) (S := padLeft 11 (natStr t.second ++ ['.'] ++ zfill 7 (natStr (t.micro * 10 + sub))))
      (q := q) (padLeft_length (natStr_length_le (by omega) (by omega))) (two_digits (by omega)) (two_digits (by omega))
      (two_digits (by omega)) (two_digits (by omega))
      (secs_text_length (s := t.second) (m := t.micro * 10 + sub) (by omega) (by omega)) rfl hL
    rw [← hL]
    unfold epochDate3
    rw [show pyRange 6 17 3 = [6, 9, 12, 15] from rfl]
    simp only [List.map_cons, List.map_nil, Nat.reduceAdd, e1, e2, e3, e4, e5, e6]
    have sp : ∀ x : Str, parseInt (' ' :: x) = parseInt x := fun x => parseInt_prepend_space [' '] _ (by simp)
    simp only [pyFloat, parseFloat_secs t.second (t.micro * 10 + sub) (by omega), ok_bind, sec2secMs,
      secSplit_seven 1 t.second (t.micro * 10 + sub) (by omega) (by omega), mapInt, pyInt, List.cons_append, List.nil_append,
      sp, parseInt_zfill_natStr, parseInt_padLeft_natStr, pure, Except.pure]
    rw [show (t.micro * 10 + sub) / 10 = t.micro by omega,
      validateEpoch_legal (t.year : Int) t ⟨h1, h2, h3, h4, h5⟩ (by unfold YearMeans; omega)]
    rfl

theorem strip_mem {s : Str} {c : Char} (h : c ∈ strip s) : c ∈ s := by
  unfold strip lstrip at h
  have h := (List.dropWhile_sublist _).subset h
  obtain ⟨t, ht, _⟩ := rstrip_decomp s
  rw [ht]; exact List.mem_append_left _ h

theorem lowerC_n {c : Char} (h : lowerC c = 'n') : c = 'n' ∨ c = 'N' := by
  unfold lowerC at h
  split at h
  · rename_i hr
    right
    have key : ∀ k : Nat, k ≤ 90 → 65 ≤ k → Char.ofNat (k + 32) = 'n' → k = 78 := by decide
    have := key c.toNat hr.2 hr.1 h
    apply Char.ext
    apply UInt32.toNat.inj
    exact this
  · exact Or.inl h

/-- without the letter n a number is neither infinite nor not-a-number -/
theorem parseFloat_no_n {s : Str} (h : ∀ c ∈ s, c ≠ 'n' ∧ c ≠ 'N') : parseFloat s = none ∨ ∃ q, parseFloat s = some (.fin q) := by
  unfold parseFloat
  have hr : ∀ c ∈ (parseSign (strip s)).2, c ∈ s := by
    intro c hc
    apply strip_mem
    unfold parseSign at hc
    split at hc
    · simp at hc
    · rename_i x xs hx
      rw [hx]
      split at hc
      · exact List.mem_cons_of_mem _ hc
      · split at hc
        · exact List.mem_cons_of_mem _ hc
        · exact hc
  have hl : ∀ w : Str, 'n' ∈ w → lower (parseSign (strip s)).2 ≠ w := by
    intro w hw e
    rw [← e] at hw
    obtain ⟨c, hc, hcn⟩ := List.mem_map.1 hw
    have := h c (hr c hc)
    rcases lowerC_n hcn with h | h
    · exact this.1 h
    · exact this.2 h
  simp only [hl (c% "inf") (by decide), hl (c% "infinity") (by decide), hl (c% "nan") (by decide), or_self, if_false]
  cases parseUFloat (parseSign (strip s)).2 with
  | none => exact Or.inl rfl
  | some q => exact Or.inr ⟨_, rfl⟩

theorem clockOffset3_ok {l : Str} (h : ∀ c ∈ l.drop 42, c ≠ 'n' ∧ c ≠ 'N') : clockOffset3 l = .ok () := by
  unfold clockOffset3
  rcases parseFloat_no_n h with h | ⟨q, h⟩
  · simp only [pyFloat, h, error_bind, catching_error]; decide
  · simp only [pyFloat, h, ok_bind, sec2secMs, secSplitWith]; rfl

theorem clockCols_no_n (clock : Option Int) : ∀ c ∈ clockCols clock, c ≠ 'n' ∧ c ≠ 'N' := by
  intro c hc
  cases clock with
  | none => simp [clockCols] at hc
  | some n =>
    simp only [clockCols, padLeft, fixedDec_eq, List.mem_append, List.mem_replicate] at hc
    have hdig : isDigit c = true → c ≠ 'n' ∧ c ≠ 'N' := by
      intro h; constructor <;> (rintro rfl; revert h; decide)
    rcases hc with hc | hc | ((hc | hc) | hc) | hc
    · rw [hc.2]; decide
    · rw [hc.2]; decide
    · split at hc
      · rw [List.mem_singleton.1 hc]; decide
      · simp at hc
    · exact hdig (natStr_digits _ c hc)
    · rw [List.mem_singleton.1 hc]; decide
    · exact hdig (zfill_digits (natStr_digits _) c hc)

theorem isSpace_not_n {c : Char} (h : isSpace c = true) : c ≠ 'n' ∧ c ≠ 'N' := by
  constructor <;> (rintro rfl; revert h; decide)

/-- an epoch or event line is read back -/
theorem parseEpoch3_mark {date : Option (DateTime × Nat)} {flag num : Nat} {clock : Option Int} (hd : DateOk date)
    (hf : flag < 10) (hn : num < 1000) {l : Str} (hl : SameLine l (markLine date flag num clock)) :
    parseEpoch3 l = .ok ⟨date.map (·.1), flag, num⟩ := by
  rw [markLine_eq] at hl
  obtain ⟨q, rfl, hq⟩ := sameLine_head hl (markHead_rstrip date flag num)
  have hlen := markHead_length (flag := flag) hd hn
  have hq' : ∀ c ∈ q, c ≠ 'n' ∧ c ≠ 'N' := by
    intro c hc
    obtain ⟨t, ht, hw⟩ := rstrip_decomp q
    rw [ht, hq] at hc
    rcases List.mem_append.1 hc with hc | hc
    · obtain ⟨t', ht', _⟩ := rstrip_decomp (clockCols clock)
      exact clockCols_no_n clock c (by rw [ht']; exact List.mem_append_left _ hc)
    · exact isSpace_not_n (hw c hc)
  have hdate : epochDate3 (markHead date flag num ++ q) = .ok (date.map (·.1)) := by
    unfold markHead
    rw [List.append_assoc, List.append_assoc]
    exact epochDate3_cols hd _
  have hdl := dateCols_length hd
  have hflag : (markHead date flag num ++ q)[31]? = some (digit flag) := by
    unfold markHead
    rw [show ['>'] ++ dateCols date ++ [' ', ' ', digit flag] ++ padLeft 3 (natStr num) ++ q =
      (['>'] ++ dateCols date ++ [' ', ' ']) ++ (digit flag :: (padLeft 3 (natStr num) ++ q)) by simp]
    rw [List.getElem?_append_right (by simp [hdl])]
    simp [hdl]
  have hnum : slice (markHead date flag num ++ q) 32 35 = padLeft 3 (natStr num) := by
    unfold markHead
    exact slice_exact (by simp [hdl]) (by simp [hdl, pad3_length hn])
  have hclk : clockOffset3 (markHead date flag num ++ q) = .ok () := by
    apply clockOffset3_ok
    intro c hc
    rw [List.drop_append, List.drop_of_length_le (by omega), List.nil_append] at hc
    exact hq' c (List.mem_of_mem_drop hc)
  have hpf : parseInt [digit flag] = some (flag : Int) := by
    have := parseInt_natStr flag
    rwa [natStr_lt hf] at this
  unfold parseEpoch3 epochFlag3
  rw [hdate, hflag, hnum, hclk, parseInt_padLeft_natStr]
  simp only [hpf]
  rfl

/-! ## Satellite lines -/

theorem indicator3_eq (c : Str) (i : Nat) :
    indicator3 c i = match c[i]? with | none => 0 | some v => (parseInt [v]).getD 0 := by
  unfold indicator3
  cases c[i]? with
  | none => rfl
  | some v =>
    simp only
    split
    · rename_i h
      rw [parseInt_blank (s := [v]) (by simpa using h)]; rfl
    · rfl

/-- a field in short: the first 14 columns as a number (or 0), two digit columns (or 0) -/
theorem parseChunk3_eq (c : Str) :
    parseChunk3 c = ((parseFloat (c.take 14)).getD (.fin 0), indicator3 c 14, indicator3 c 15) := by
  unfold parseChunk3
  have hblank : ∀ s : Str, (s = [] ∨ isSpaceStr s = true) → ∀ x ∈ s, isSpace x = true := by
    rintro s (rfl | h)
    · simp
    · simp only [isSpaceStr, Bool.and_eq_true, List.all_eq_true] at h
      exact h.2
  split
  · rename_i h
    have hb := hblank c h
    rw [parseFloat_blank fun x hx => hb x (List.mem_of_mem_take hx)]
    have : ∀ i, indicator3 c i = 0 := by
      intro i
      unfold indicator3
      split
      · rfl
      · rename_i v hv
        rw [if_pos (hb v (List.mem_of_getElem? hv))]
    rw [this, this]; rfl
  · simp only
    split
    · rename_i h
      rw [parseFloat_blank (hblank _ h)]; rfl
    · rfl

/-- trailing white space is irrelevant in a field -/
theorem parseChunk3_space (r t : Str) (ht : ∀ c ∈ t, isSpace c = true) : parseChunk3 (r ++ t) = parseChunk3 r := by
  rw [parseChunk3_eq, parseChunk3_eq, List.take_append,
    parseFloat_append_space _ _ fun c hc => ht c (List.mem_of_mem_take hc)]
  have : ∀ i, indicator3 (r ++ t) i = indicator3 r i := by
    intro i
    rw [indicator3_eq, indicator3_eq]
    by_cases hi : i < r.length
    · rw [List.getElem?_append_left hi]
    · rw [List.getElem?_append_right (by omega), List.getElem?_eq_none (l := r) (by omega)]
      cases h : t[i - r.length]? with
      | none => rfl
      | some v =>
        have := ht v (List.mem_of_getElem? h)
        simp only [parseInt_blank (s := [v]) (by simpa using this), Option.getD_none]
  rw [this, this]

theorem parseChunk3_rstrip {a b : Str} (h : rstrip a = rstrip b) : parseChunk3 a = parseChunk3 b := by
  obtain ⟨t, ht, hw⟩ := rstrip_decomp a
  obtain ⟨u, hu, hx⟩ := rstrip_decomp b
  rw [ht, hu, parseChunk3_space _ _ hw, parseChunk3_space _ _ hx, h]

theorem parseInt_digit {d : Nat} (h : d < 10) : parseInt [digit d] = some (d : Int) := by
  have := parseInt_natStr d
  rwa [natStr_lt h] at this

theorem parseChunk3_render {f : Field} (h : f.Ok) : parseChunk3 f.render = f.says3 := by
  rw [parseChunk3_eq]
  cases f with
  | blank =>
    rw [parseFloat_blank (s := (Field.render .blank).take 14) (by simp [Field.render])]
    simp only [indicator3_eq, Field.render, Field.says3]
    rfl
  | val n l s z =>
    obtain ⟨h1, h2, h3⟩ := h
    have hp := padLeft_length h1
    have e1 : (Field.render (.val n l s z)).take 14 = padLeft 14 (fixed3 n z) := by
      simp only [Field.render]
      rw [List.take_append_of_le_length (by omega), List.take_of_length_le (by omega)]
    have hpf := parseFloat_fixed3 (List.replicate (14 - (fixed3 n z).length) ' ') [] n z mem_blanks (by simp)
    rw [List.append_nil] at hpf
    have e2 : indicator3 (Field.render (.val n l s z)) 14 = ((l.getD 0 : Nat) : Int) := by
      rw [indicator3_eq]
      simp only [Field.render]
      rw [List.getElem?_append_right (by omega), hp]
      cases l with
      | none => rfl
      | some d => simp [indCol, parseInt_digit (h2 d rfl)]
    have e3 : indicator3 (Field.render (.val n l s z)) 15 = ((s.getD 0 : Nat) : Int) := by
      rw [indicator3_eq]
      simp only [Field.render]
      rw [List.getElem?_append_right (by omega), hp]
      cases s with
      | none => rfl
      | some d => simp [indCol, parseInt_digit (h3 d rfl)]
    rw [e1, e2, e3]
    unfold padLeft
    rw [hpf]
    rfl

theorem slice_fields (p : Str) (fs : List Field) (hok : ∀ f ∈ fs, f.Ok) (k : Nat) (f : Field)
    (hk : fs[k]? = some f) :
    slice (p ++ (fs.map Field.render).flatten) (p.length + 16 * k) (p.length + 16 * (k + 1)) = f.render := by
  induction fs generalizing p k with
  | nil => simp at hk
  | cons g fs ih =>
    have hg := Field.render_length (hok g (by simp))
    cases k with
    | zero =>
      simp only [List.getElem?_cons_zero, Option.some.injEq] at hk
      subst hk
      simp only [List.map_cons, List.flatten_cons]
      rw [← List.append_assoc]
      exact slice_exact (by omega) (by omega)
    | succ k =>
      rw [List.getElem?_cons_succ] at hk
      have := ih (p ++ g.render) (fun x hx => hok x (by simp [hx])) k hk
      simp only [List.map_cons, List.flatten_cons]
      rw [← List.append_assoc, ← this]
      congr 1 <;> simp [hg] <;> omega

/-- the columns of the fields, `_det_data_chunks` -/
theorem dataChunks3_get {m : SysMap} {ch : List (Nat × Nat)} (h : dataChunks3 m = .ok ch) {ts : List Str}
    {c : Str} (hm : m.get? c = some ts) {k : Nat} (hk : k < ts.length) : ch[k]? = some (3 + 16 * k, 3 + 16 * (k + 1)) := by
  unfold dataChunks3 at h
  have hmem : ts.length ∈ m.map (fun p => p.2.length) := List.mem_map.2 ⟨(c, ts), Dict.get?_mem m c ts hm, rfl⟩
  split at h
  · rename_i he; rw [he] at hmem; simp at hmem
  · rename_i n ns he
    rw [he] at hmem
    have hmax : ∀ (l : List Nat) (a x : Nat), (x = a ∨ x ∈ l) → x ≤ l.foldl max a := by
      intro l
      induction l with
      | nil => intro a x hx; simp at hx; simp [hx]
      | cons y l ih =>
        intro a x hx
        simp only [List.foldl_cons]
        rcases hx with rfl | hx
        · exact le_trans (le_max_left _ _) (ih (max x y) (max x y) (Or.inl rfl))
        · rcases List.mem_cons.1 hx with rfl | hx
          · exact le_trans (le_max_right _ _) (ih (max a x) (max a x) (Or.inl rfl))
          · exact ih _ x (Or.inr hx)
    have hle := hmax ns n ts.length (by simpa using hmem)
    generalize ns.foldl max n = mx at *
    simp only [Except.ok.injEq] at h
    subst h
    have hc : (mx * 16 + 16 - 3 + (16 - 1)) / 16 = mx + 1 := by omega
    unfold pyRange
    rw [hc]
    have h1 : ((List.range (mx + 1)).map fun k => 3 + 16 * k)[k]? = some (3 + 16 * k) := by
      rw [List.getElem?_map, List.getElem?_range (by omega)]; rfl
    have h2 : ((List.range (mx + 1)).map fun k => 3 + 16 * k).tail[k]? = some (3 + 16 * (k + 1)) := by
      rw [List.getElem?_tail, List.getElem?_map, List.getElem?_range (by omega)]; rfl
    rw [List.getElem?_zip_eq_some]
    exact ⟨h1, h2⟩

theorem parseChunks3_map {rec : Str} {ch : List (Nat × Nat)} (ns : List Nat)
    (h : ∀ k ∈ ns, ch[k]? = some (3 + 16 * k, 3 + 16 * (k + 1))) :
    parseChunks3 rec ch ns = .ok (ns.map fun k => parseChunk3 (slice rec (3 + 16 * k) (3 + 16 * (k + 1)))) := by
  induction ns with
  | nil => rfl
  | cons n ns ih =>
    simp only [parseChunks3, h n (by simp), ih fun k hk => h k (by simp [hk]), List.map_cons]

theorem satRender_length {s : SatId} (h : s.num < 100) : s.render.length = 3 := by
  unfold SatId.render
  split
  · simp [two_digits h]
  · simp [padLeft_length (w := 2) (natStr_length_le (n := s.num) (k := 2) (by omega) (by omega))]

theorem natStr_two {n : Nat} (h : n < 100) :
    zfill 2 (natStr n) = [digit (n / 10), digit (n % 10)] ∧
    padLeft 2 (natStr n) = (if n < 10 then [' ', digit n] else [digit (n / 10), digit (n % 10)]) := by
  by_cases h1 : n < 10
  · rw [natStr_lt h1, show n / 10 = 0 by omega, show n % 10 = n by omega, if_pos h1]
    exact ⟨rfl, rfl⟩
  · rw [natStr_ge (by omega), natStr_lt (n := n / 10) (by omega), if_neg h1]
    exact ⟨rfl, rfl⟩

theorem replace_satId {s : SatId} (h : s.Ok3) : replaceChar ' ' '0' s.render = s.name3 := by
  obtain ⟨hn, hs, _⟩ := h
  obtain ⟨z, p⟩ := natStr_two hn
  have hd : ∀ d, d < 10 → digit d ≠ ' ' := by
    intro d hd e
    have := isDigit_not_space (digit_isDigit hd)
    rw [e] at this
    exact absurd this (by decide)
  have hsne : s.sys ≠ ' ' := by
    intro e; rw [e] at hs; exact absurd hs (by decide)
  unfold SatId.render SatId.name3 replaceChar
  split
  · rw [z]
    simp [hsne, hd _ (show s.num / 10 < 10 by omega), hd _ (show s.num % 10 < 10 by omega)]
  · rw [p]
    by_cases h1 : s.num < 10
    · rw [if_pos h1, show s.num / 10 = 0 by omega, show s.num % 10 = s.num by omega]
      simp only [List.map_cons, List.map_nil, if_neg hsne, if_neg (hd _ h1), if_true]
      rfl
    · rw [if_neg h1]
      simp [hsne, hd _ (show s.num / 10 < 10 by omega), hd _ (show s.num % 10 < 10 by omega)]

theorem satRender_last {s : SatId} (h : s.num < 100) : ∃ p d, s.render = p ++ [d] ∧ isSpace d = false := by
  obtain ⟨z, p⟩ := natStr_two h
  unfold SatId.render
  split
  · rw [z]; exact ⟨[s.sys, _], _, rfl, isDigit_not_space (digit_isDigit (by omega))⟩
  · rw [p]
    by_cases h1 : s.num < 10
    · rw [if_pos h1]; exact ⟨[s.sys, _], _, rfl, isDigit_not_space (digit_isDigit h1)⟩
    · rw [if_neg h1]; exact ⟨[s.sys, _], _, rfl, isDigit_not_space (digit_isDigit (by omega))⟩

theorem rstrip_slice_same {l c : Str} (h : SameLine l c) (a b : Nat) : rstrip (slice l a b) = rstrip (slice c a b) := by
  obtain ⟨t, ht, hw⟩ := slice_rstrip l a b
  obtain ⟨u, hu, hx⟩ := slice_rstrip c a b
  rw [ht, hu, rstrip_append_space _ _ fun c hc => (hw c hc).1, rstrip_append_space _ _ fun c hc => (hx c hc).1]
  rw [show rstrip l = rstrip c from h]

/-- a satellite line is read back -/
theorem parseObs3_render {m : SysMap} {ch : List (Nat × Nat)} (hch : dataChunks3 m = .ok ch) {s : SatId} {fs : List Field}
    {ts : List Str} (hs : s.Ok3) (hfs : ∀ f ∈ fs, f.Ok) (hm : m.get? [s.sys] = some ts) (hlen : fs.length = ts.length)
    {l : Str} (hl : SameLine l (satLine s fs)) :
    parseObs3 m ch l = .ok (s.name3, fs.map Field.says3) := by
  obtain ⟨p, d, hpd, hd⟩ := satRender_last hs.1
  have hr : rstrip s.render = s.render := by rw [hpd]; exact rstrip_of_last p d hd
  obtain ⟨q, hq, _⟩ := sameLine_head (h := s.render) hl hr
  have h3 := satRender_length hs.1
  have htake : l.take 3 = s.render := by
    rw [hq, List.take_append_of_le_length (by omega), List.take_of_length_le (by omega)]
  unfold parseObs3
  rw [htake, replace_satId hs]
  unfold SatId.name3
  simp only [hm]
  rw [parseChunks3_map _ fun k hk => dataChunks3_get hch hm (List.mem_range.1 hk)]
  simp only [Except.ok.injEq, Prod.mk.injEq, true_and]
  rw [← hlen]
  apply List.ext_getElem?
  intro k
  rw [List.getElem?_map, List.getElem?_map]
  by_cases hk : k < fs.length
  · rw [List.getElem?_range hk, List.getElem?_eq_getElem hk]
    simp only [Option.map_some, Option.some.injEq]
    have hf := hfs fs[k] (List.getElem_mem hk)
    rw [← parseChunk3_render hf]
    apply parseChunk3_rstrip
    rw [rstrip_slice_same hl]
    unfold satLine
    have := slice_fields s.render fs hfs k fs[k] (List.getElem?_eq_getElem hk)
    rw [h3] at this
    rw [this]
  · rw [List.getElem?_eq_none (by simpa using hk), List.getElem?_eq_none (by omega)]; rfl

theorem zipTypes3_zip (ts : List Str) (vs : List ObsVal3) (d : ObsDict3) (hl : vs.length ≤ ts.length)
    (hn : ts.Nodup) (hd : ∀ t ∈ ts, t ∉ d.keys) : zipTypes3 ts vs d = .ok (d ++ ts.zip vs) := by
  induction ts generalizing vs d with
  | nil =>
    have : vs = [] := List.length_eq_zero_iff.1 (by simpa using hl)
    subst this; simp [zipTypes3]
  | cons t ts ih =>
    cases vs with
    | nil => simp [zipTypes3]
    | cons v vs =>
      simp only [zipTypes3]
      have hset := dict_set_append d t v (hd t (by simp))
      rw [hset, ih vs _ (by simpa using hl) (List.nodup_cons.1 hn).2]
      · simp
      · intro t' ht'
        simp only [Dict.keys, List.map_append, List.map_cons, List.map_nil, List.mem_append, List.mem_singleton, not_or]
        refine ⟨hd t' (by simp [ht']), ?_⟩
        rintro rfl
        exact (List.nodup_cons.1 hn).1 ht'

end Verif.Proofs
