import Verif.Spec.Columns
import Verif.Model.Config
import Verif.Proofs.Rat
import Verif.Proofs.Num
import Verif.Proofs.Str
import Verif.Props.Label
/-!
# C50, C51: the output columns and the Fortran format
-/
namespace Verif.Props
open Verif.Py Verif.Model Verif.Spec

/-! ## the table -/

private def colCheck (nk : Str × ColKind) (i : Nat) : Bool :=
  match (formatDef 0).get? nk.1 with
  | none => false
  | some c =>
    let body := (c.fmt.drop 1).dropLast
    decide (c.fmt = '{' :: (body ++ ['}'])) && body.all (· != '}') &&
    match cutAt (· == ':') body, nk.2 with
    | (ix, none), .text => decide (parseDigits ix = some i)
    | (ix, some sp), .int w => decide (parseDigits ix = some i) && decide (sp ≠ []) && decide (parseSpec sp = some ⟨false, w, 6, 'd'⟩)
    | (ix, some sp), .fix sg w d => decide (parseDigits ix = some i) && decide (sp ≠ []) && decide (parseSpec sp = some ⟨sg, w, d, 'f'⟩) && decide (d ≠ 0)
    | _, _ => false

private theorem colCheck_all : ∀ p ∈ columns.zipIdx, colCheck p.1 p.2 = true := by decide +kernel

private def fortCheck (nk : Str × ColKind) : Bool :=
  match nk.2, (formatDef 0).get? nk.1 with
  | .text, _ => decide (nk.1 = c% "datetime")
  | k, some c =>
    decide (nk.1 ≠ c% "datetime") &&
    if nk.1 ∈ [c% "site.l", c% "site.b", c% "site.h"] then decide (c.fortran = (FItem.F 23 12).text) else decide (c.fortran = (itemOf 0 k).text)
  | _, none => false

private theorem fortCheck_all : ∀ p ∈ columns, fortCheck p = true := by decide +kernel

private theorem keys_eq : (formatDef 0).keys = columns.map Prod.fst := by decide +kernel

private theorem get?_formatDef (n : Nat) (x : Str) :
    (formatDef n).get? x = ((formatDef 0).get? x).map fun c => if x = c% "datetime" then ⟨c.fmt, 'A' :: natStr n⟩ else c := by
  have gen : ∀ d : Dict Str ColDef, Dict.get? (d.map fun p => (p.1, if p.1 = c% "datetime" then (⟨p.2.fmt, 'A' :: natStr n⟩ : ColDef) else p.2)) x =
      (Dict.get? d x).map fun c => if x = c% "datetime" then ⟨c.fmt, 'A' :: natStr n⟩ else c := by
    intro d
    induction d with
    | nil => rfl
    | cons p d ih =>
      obtain ⟨k, v⟩ := p
      by_cases h : k = x
      · subst h; simp [Dict.get?]
      · simp only [List.map_cons, Dict.get?, if_neg h, ih]
  rw [← gen]
  rfl

/-! ## numbers -/

private theorem roundsTo (q : Rat) (hq : 0 ≤ q) (d : Nat) : RoundsTo q d (roundHalfEven (q * 10 ^ d)).toNat := by
  have hp : (0 : Rat) ≤ q * 10 ^ d := by positivity
  have h0 : 0 ≤ roundHalfEven (q * 10 ^ d) := by
    have := roundHalfEven_mono_int (n := 0) (q := q * 10 ^ d) (by simpa using hp)
    exact this
  have hc : ((roundHalfEven (q * 10 ^ d)).toNat : Rat) = (roundHalfEven (q * 10 ^ d) : Rat) := by
    have : ((roundHalfEven (q * 10 ^ d)).toNat : Int) = roundHalfEven (q * 10 ^ d) := Int.toNat_of_nonneg h0
    exact_mod_cast this
  obtain ⟨a, b⟩ := roundHalfEven_bounds (q * 10 ^ d)
  refine ⟨by rw [hc]; linarith, by rw [hc]; linarith, ?_⟩
  intro ht
  rw [hc] at ht
  have he : roundHalfEven (q * 10 ^ d) % 2 = 0 := by
    generalize q * 10 ^ d = x at *
    have h1 := ratFloor_le x
    have h2 := ratFloor_lt x
    unfold roundHalfEven at ht ⊢
    simp only at ht ⊢
    split at ht
    · rcases ht with h | h <;> (exfalso; linarith)
    · rename_i hh1
      split at ht
      · rcases ht with h | h
        · exfalso; push_cast at h; linarith
        · exfalso; push_cast at h; linarith
      · rename_i hh2
        rw [if_neg hh1, if_neg hh2]
        split
        · assumption
        · omega
  omega

private theorem fixedStr_text (sg : Bool) (d : Nat) (hd : d ≠ 0) (q : Rat) :
    ∃ n, RoundsTo |q| d n ∧ fixedStr sg d (.fin q) =
      (if q < 0 then ['-'] else if sg then [' '] else []) ++ natStr (n / 10 ^ d) ++ '.' :: zfill d (natStr (n % 10 ^ d)) := by
  refine ⟨_, roundsTo |q| (abs_nonneg q) d, ?_⟩
  unfold fixedStr fixedAbs
  by_cases h : q < 0
  · simp only [h, if_true, abs_of_neg h, if_neg hd]; simp
  · have h' : 0 ≤ q := not_lt.1 h
    simp only [h, if_false, abs_of_nonneg h', if_neg hd]
    cases sg <;> simp

private theorem intStr_text (i : Int) : intStr i = (if i < 0 then ['-'] else []) ++ natStr i.natAbs := by
  unfold intStr; split <;> simp

/-! ## the format string -/

private theorem formatGo_body (vals : List FVal) (body : Str) (h : ∀ c ∈ body, c ≠ '}') (acc rest : Str) :
    formatGo vals (some acc) (body ++ '}' :: rest) =
      match formatField vals (acc.reverse ++ body) with
      | .error e => .error e
      | .ok t =>
        match formatGo vals none rest with
        | .error e => .error e
        | .ok r => .ok (t ++ r) := by
  induction body generalizing acc with
  | nil =>
    rw [List.nil_append, formatGo, if_pos rfl, List.append_nil]
    cases formatField vals acc.reverse with
    | error e => rfl
    | ok t => cases formatGo vals none rest <;> rfl
  | cons c body ih =>
    rw [List.cons_append, formatGo, if_neg (h c (by simp)), ih (fun x hx => h x (by simp [hx]))]
    simp

private theorem column_field (n : Nat) (vals : List FVal) (hr : IsRecord vals) (name : Str) (kind : ColKind) (hm : (name, kind) ∈ columns) :
    ∃ c body s, (formatDef n).get? name = some c ∧ c.fmt = '{' :: (body ++ ['}']) ∧ (∀ x ∈ body, x ≠ '}') ∧
      formatField vals body = .ok s ∧ IsColumnText vals name s := by
  obtain ⟨i, hi, he⟩ := List.mem_iff_getElem.1 hm
  have hi2 : columns[i]? = some (name, kind) := by rw [List.getElem?_eq_getElem hi, he]
  have hv : i < vals.length := by rw [hr.1]; exact hi
  obtain ⟨v, hv2⟩ : ∃ v, vals[i]? = some v := ⟨vals[i], List.getElem?_eq_getElem hv⟩
  have hfit : ColFits kind v := hr.2 i (name, kind) v hi2 hv2
  have hz : ((name, kind), i) ∈ columns.zipIdx := by
    rw [List.mem_zipIdx_iff_getElem?]; exact hi2
  have hck := colCheck_all _ hz
  unfold colCheck at hck
  simp only at hck
  split at hck
  · cases hck
  rename_i c hc
  simp only [Bool.and_eq_true, decide_eq_true_eq, List.all_eq_true, bne_iff_ne] at hck
  obtain ⟨⟨h1, h2⟩, h3⟩ := hck
  have hget : ∃ c', (formatDef n).get? name = some c' ∧ c'.fmt = c.fmt := by
    rw [get?_formatDef, hc]
    exact ⟨_, rfl, by dsimp only; split <;> rfl⟩
  obtain ⟨c', hc', hf'⟩ := hget
  have key : ∃ s, formatField vals (c.fmt.drop 1).dropLast = .ok s ∧ ColText kind v s := by
    generalize (c.fmt.drop 1).dropLast = body at h2 h3 h1
    unfold formatField
    split at h3
    · rename_i ix hcut
      rw [hcut]
      simp only [decide_eq_true_eq] at h3
      simp only [h3, hv2]
      obtain ⟨s, rfl⟩ := hfit
      exact ⟨s, by simp [formatVal], rfl⟩
    · rename_i ix sp w hcut
      rw [hcut]
      simp only [Bool.and_eq_true, decide_eq_true_eq] at h3
      obtain ⟨⟨h4, h5⟩, h6⟩ := h3
      simp only [h4, hv2]
      obtain ⟨j, rfl⟩ := hfit
      refine ⟨_, ?_, j, rfl, rfl⟩
      unfold formatVal
      rw [if_neg h5, h6]
      simp [intStr_text]
    · rename_i ix sp sg w d hcut
      rw [hcut]
      simp only [Bool.and_eq_true, decide_eq_true_eq] at h3
      obtain ⟨⟨⟨h4, h5⟩, h6⟩, h7⟩ := h3
      simp only [h4, hv2]
      obtain ⟨q, hq⟩ := hfit
      obtain ⟨m, hm1, hm2⟩ := fixedStr_text sg d h7 q
      refine ⟨_, ?_, q, m, hq, hm1, rfl⟩
      unfold formatVal
      rw [if_neg h5, h6]
      rw [← hm2]
      rcases hq with rfl | ⟨j, rfl, rfl⟩
      · simp
      · simp
    · cases h3
  obtain ⟨s, hs1, hs2⟩ := key
  exact ⟨c', _, s, hc', by rw [hf']; exact h1, h2, hs1, i, kind, v, hi2, hv2, hs2⟩

/-! ## C50 -/

private theorem strFormat_rest (n : Nat) (vals : List FVal) (hr : IsRecord vals) (fields : List Str) (hcols : ∀ f ∈ fields, ∃ k, (f, k) ∈ columns) :
    ∀ (r f : Str) (t : Str), (∀ tail, formatGo vals none (r ++ tail) = match formatGo vals none tail with
        | .error e => .error e
        | .ok x => .ok (t ++ x)) →
      ∃ r' f' texts, composeRest (formatDef n) fields r f = .ok (r', f') ∧ List.Forall₂ (IsColumnText vals) fields texts ∧
        ∀ tail, formatGo vals none (r' ++ tail) = match formatGo vals none tail with
        | .error e => .error e
        | .ok x => .ok (t ++ (texts.map fun s => ' ' :: s).flatten ++ x) := by
  induction fields with
  | nil =>
    intro r f t h
    exact ⟨r, f, [], rfl, .nil, by simpa using h⟩
  | cons a fields ih =>
    intro r f t h
    obtain ⟨k, hk⟩ := hcols a (by simp)
    obtain ⟨c, body, s, hc, hfmt, hb, hfield, htext⟩ := column_field n vals hr a k hk
    have step : ∀ tail, formatGo vals none ((r ++ ' ' :: c.fmt) ++ tail) = match formatGo vals none tail with
        | .error e => .error e
        | .ok x => .ok ((t ++ ' ' :: s) ++ x) := by
      intro tail
      rw [List.append_assoc, h, List.cons_append, formatGo, if_neg (by decide), if_neg (by decide), hfmt]
      rw [List.cons_append, formatGo, if_pos rfl, List.append_assoc, List.singleton_append, formatGo_body vals body hb]
      simp only [List.reverse_nil, List.nil_append, hfield]
      cases formatGo vals none tail <;> simp
    obtain ⟨r', f', texts, h1, h2, h3⟩ := ih (fun x hx => hcols x (by simp [hx])) _ (f ++ (c% ",1X,") ++ c.fortran) _ step
    refine ⟨r', f', s :: texts, ?_, .cons htext h2, ?_⟩
    · simp only [composeRest, hc]; exact h1
    · intro tail
      rw [h3]
      cases formatGo vals none tail <;> simp

/-- what `compose_rec_format` returns does not depend on the values -/
private theorem composeRest_fort (n : Nat) (fields : List Str) (hcols : ∀ f ∈ fields, ∃ k, (f, k) ∈ columns) (r f : Str) :
    ∃ r' items, composeRest (formatDef n) fields r f = .ok (r', f ++ ((items.map fun i => (c% ",1X,") ++ FItem.text i).flatten)) ∧
      List.Forall₂ (fun x it => ∃ k, (x, k) ∈ columns ∧ (x ∉ [c% "site.l", c% "site.b", c% "site.h"] → it = itemOf n k) ∧
        (x ∈ [c% "site.l", c% "site.b", c% "site.h"] → it = .F 23 12)) fields items := by
  induction fields generalizing r f with
  | nil => exact ⟨r, [], by simp [composeRest], .nil⟩
  | cons a fields ih =>
    obtain ⟨k, hk⟩ := hcols a (by simp)
    have hfc := fortCheck_all _ hk
    have hc : ∃ c it, (formatDef n).get? a = some c ∧ c.fortran = FItem.text it ∧
        (a ∉ [c% "site.l", c% "site.b", c% "site.h"] → it = itemOf n k) ∧ (a ∈ [c% "site.l", c% "site.b", c% "site.h"] → it = .F 23 12) := by
      rw [get?_formatDef]
      have hg : ∃ c, (formatDef 0).get? a = some c := by
        apply Option.isSome_iff_exists.1
        rw [Dict.get?_isSome_iff, keys_eq]
        exact List.mem_map.2 ⟨_, hk, rfl⟩
      obtain ⟨c, hc⟩ := hg
      rw [hc]
      cases k with
      | text =>
        simp only [fortCheck, decide_eq_true_eq] at hfc
        subst hfc
        exact ⟨_, .A n, rfl, rfl, fun _ => rfl, fun h => absurd h (by decide)⟩
      | int w =>
        simp only [fortCheck, hc, Bool.and_eq_true, decide_eq_true_eq] at hfc
        refine ⟨_, if a ∈ [c% "site.l", c% "site.b", c% "site.h"] then .F 23 12 else .I w, rfl, ?_, fun h => by rw [if_neg h]; rfl, fun h => by rw [if_pos h]⟩
        dsimp only
        rw [if_neg hfc.1]
        by_cases h : a ∈ [c% "site.l", c% "site.b", c% "site.h"]
        · rw [if_pos h] at hfc ⊢; simpa using hfc.2
        · rw [if_neg h] at hfc ⊢; exact of_decide_eq_true hfc.2
      | fix sg w d =>
        simp only [fortCheck, hc, Bool.and_eq_true, decide_eq_true_eq] at hfc
        refine ⟨_, if a ∈ [c% "site.l", c% "site.b", c% "site.h"] then .F 23 12 else .F w d, rfl, ?_, fun h => by rw [if_neg h]; rfl, fun h => by rw [if_pos h]⟩
        dsimp only
        rw [if_neg hfc.1]
        by_cases h : a ∈ [c% "site.l", c% "site.b", c% "site.h"]
        · rw [if_pos h] at hfc ⊢; simpa using hfc.2
        · rw [if_neg h] at hfc ⊢; exact of_decide_eq_true hfc.2
    obtain ⟨c, it, hc1, hc2, hc3, hc4⟩ := hc
    obtain ⟨r', items, h1, h2⟩ := ih (fun x hx => hcols x (by simp [hx])) (r ++ ' ' :: c.fmt) (f ++ (c% ",1X,") ++ c.fortran)
    refine ⟨r', it :: items, ?_, .cons ⟨k, hk, hc3, hc4⟩ h2⟩
    simp only [composeRest, hc1, h1]
    rw [hc2]
    simp

private theorem intercalate_flat (sep : Str) (t : Str) (texts : List Str) :
    List.intercalate sep (t :: texts) = t ++ (texts.map fun s => sep ++ s).flatten := by
  induction texts generalizing t with
  | nil => simp [List.intercalate]
  | cons a l ih =>
    have e : List.intercalate sep (t :: a :: l) = t ++ (sep ++ List.intercalate sep (a :: l)) := by
      simp [List.intercalate, List.intersperse]
    rw [e, ih]; simp

/-- For every non-empty list of columns (in any order, repeated or not) the record format makes of every record the line holding the texts of exactly the
requested columns, in the requested order, separated by single blanks; and the Fortran format has one item per column. -/
theorem C50_record (dtLen : Nat) (fields : List Str) (hne : fields ≠ []) (hcols : ∀ f ∈ fields, ∃ k, (f, k) ∈ columns) :
    ∃ fmt fort, composeRecFormat (formatDef dtLen) fields = .ok (fields, fmt, fort) ∧
      (∀ vals, IsRecord vals → ∃ texts, List.Forall₂ (IsColumnText vals) fields texts ∧
        strFormat fmt vals = .ok (List.intercalate [' '] texts ++ ['\n'])) ∧
      ∃ items, items.length = fields.length ∧ FortranFormat items fort ∧
        List.Forall₂ (fun x it => ∃ k, (x, k) ∈ columns ∧ (x ∉ [c% "site.l", c% "site.b", c% "site.h"] → it = itemOf dtLen k) ∧
          (x ∈ [c% "site.l", c% "site.b", c% "site.h"] → it = .F 23 12)) fields items := by
  have hall : c% "all" ∉ fields := by
    intro h
    obtain ⟨k, hk⟩ := hcols _ h
    have : c% "all" ∈ columns.map Prod.fst := List.mem_map.2 ⟨_, hk, rfl⟩
    revert this; decide
  cases fields with
  | nil => exact absurd rfl hne
  | cons a rest =>
    have hcomp : ∃ r' items, composeRest (formatDef dtLen) (a :: rest) [] [] = .ok (' ' :: r', ((items.map fun i => (c% ",1X,") ++ FItem.text i).flatten)) ∧
        List.Forall₂ (fun x it => ∃ k, (x, k) ∈ columns ∧ (x ∉ [c% "site.l", c% "site.b", c% "site.h"] → it = itemOf dtLen k) ∧
        (x ∈ [c% "site.l", c% "site.b", c% "site.h"] → it = .F 23 12)) (a :: rest) items ∧
        ∃ c, (formatDef dtLen).get? a = some c ∧ ∃ f', composeRest (formatDef dtLen) rest c.fmt c.fortran = .ok (r', f') ∧
          (items.map fun i => (c% ",1X,") ++ FItem.text i).flatten = (c% ",1X,") ++ f' := by
      obtain ⟨k, hk⟩ := hcols a (by simp)
      have hg : ∃ c, (formatDef dtLen).get? a = some c := by
        rw [get?_formatDef]
        have : ((formatDef 0).get? a).isSome := by
          rw [Dict.get?_isSome_iff, keys_eq]
          exact List.mem_map.2 ⟨_, hk, rfl⟩
        obtain ⟨c, hc⟩ := Option.isSome_iff_exists.1 this
        rw [hc]; exact ⟨_, rfl⟩
      obtain ⟨c, hc⟩ := hg
      have pre : ∀ (is : List Str) (r f x y r' f' : Str), composeRest (formatDef dtLen) is r f = .ok (r', f') →
          composeRest (formatDef dtLen) is (x ++ r) (y ++ f) = .ok (x ++ r', y ++ f') := by
        intro is
        induction is with
        | nil => intro r f x y r' f' h; simp only [composeRest] at h ⊢; cases h; rfl
        | cons i is ih =>
          intro r f x y r' f' h
          simp only [composeRest] at h ⊢
          cases hi : (formatDef dtLen).get? i with
          | none => simp [hi] at h
          | some ci =>
            simp only [hi] at h ⊢
            have := ih _ _ x y _ _ h
            rw [← this]; simp
      obtain ⟨r1, it1, h1, h2⟩ := composeRest_fort dtLen (a :: rest) hcols [] []
      obtain ⟨r2, it2, h3, h4⟩ := composeRest_fort dtLen rest (fun x hx => hcols x (by simp [hx])) c.fmt c.fortran
      have h5 := pre rest c.fmt c.fortran [' '] (c% ",1X,") _ _ h3
      have h6 : composeRest (formatDef dtLen) (a :: rest) [] [] = composeRest (formatDef dtLen) rest ([' '] ++ c.fmt) ((c% ",1X,") ++ c.fortran) := by
        simp [composeRest, hc]
      rw [h6, h5] at h1
      simp only [List.nil_append, Except.ok.injEq, Prod.mk.injEq] at h1
      refine ⟨r2, it1, ?_, h2, c, hc, _, h3, h1.2.symm⟩
      rw [h6, h5, h1.2]; rfl
    obtain ⟨r', items, h1, h2, c, hc, f', h3, h4⟩ := hcomp
    refine ⟨r' ++ ['\n'], '(' :: f' ++ [')'], ?_, ?_, items, h2.length_eq.symm, ?_, h2⟩
    · unfold composeRecFormat
      simp only [hall, if_false, hc, h3]
    · intro vals hr
      obtain ⟨r2, f2, texts, e1, e2, e3⟩ := strFormat_rest dtLen vals hr (a :: rest) hcols [] [] []
        (by intro tail; cases h : formatGo vals none tail <;> simp [h])
      rw [e1] at h1
      simp only [Except.ok.injEq, Prod.mk.injEq] at h1
      refine ⟨texts, e2, ?_⟩
      have e4 := e3 ['\n']
      rw [h1.1] at e4
      cases e2 with
      | cons ha hrest =>
        rename_i b l
        simp only [strFormat]
        have hn : formatGo vals none ['\n'] = .ok ['\n'] := by simp [formatGo]
        rw [hn, List.cons_append, formatGo, if_neg (by decide), if_neg (by decide)] at e4
        simp only at e4
        cases hx : formatGo vals none (r' ++ ['\n']) with
        | error e => rw [hx] at e4; cases e4
        | ok y =>
          rw [hx] at e4
          simp only [List.map_cons, List.flatten_cons, List.nil_append, List.cons_append, Except.ok.injEq, List.cons.injEq, true_and] at e4
          rw [e4, intercalate_flat]
          simp
    · cases h2 with
      | cons ha hrest =>
        rename_i b l
        unfold FortranFormat
        simp only [List.map_cons, List.flatten_cons, List.append_assoc] at h4
        have h5 := List.append_cancel_left h4
        rw [← h5, List.map_cons, intercalate_flat]
        simp [List.map_map, Function.comp_def]

/-! ## what the format does with values that do not fit -/

/-- a format that ends with a newline makes texts that end with a newline -/
theorem formatGo_newline (vals : List FVal) (r : Str) : ∀ (m : Option Str) (s : Str), formatGo vals m (r ++ ['\n']) = .ok s → ∃ s', s = s' ++ ['\n'] := by
  induction r with
  | nil =>
    intro m s h
    cases m with
    | none => simp [formatGo] at h; exact ⟨[], h.symm⟩
    | some acc => simp [formatGo] at h
  | cons c r ih =>
    intro m s h
    cases m with
    | none =>
      rw [List.cons_append, formatGo] at h
      split at h
      · exact ih _ _ h
      · split at h
        · cases h
        · split at h
          · cases h
          · rename_i x hx
            cases h
            obtain ⟨s', rfl⟩ := ih _ _ hx
            exact ⟨c :: s', rfl⟩
    | some acc =>
      rw [List.cons_append, formatGo] at h
      split at h
      · split at h
        · cases h
        · rename_i t ht
          split at h
          · cases h
          · rename_i x hx
            cases h
            obtain ⟨s', rfl⟩ := ih _ _ hx
            exact ⟨t ++ s', by simp⟩
      · exact ih _ _ h

/-- the composed format ends with a newline -/
theorem composed_newline {fd : Dict Str ColDef} {fields cols : List Str} {fmt fort : Str} (h : composeRecFormat fd fields = .ok (cols, fmt, fort)) :
    ∃ r, fmt = r ++ ['\n'] := by
  unfold composeRecFormat at h
  simp only at h
  generalize (if c% "all" ∈ fields then sortStr fd.keys else fields) = tmp at h
  cases tmp with
  | nil => cases h
  | cons a rest =>
    simp only at h
    split at h
    · cases h
    · split at h
      · cases h
      · cases h; exact ⟨_, rfl⟩

private theorem column_refuses (n : Nat) (vals : List FVal) (name : Str) (kind : ColKind) (hm : (name, kind) ∈ columns) :
    ∃ (i : Nat) (c : ColDef) (body : Str), columns[i]? = some (name, kind) ∧ (formatDef n).get? name = some c ∧ c.fmt = '{' :: (body ++ ['}']) ∧ (∀ x ∈ body, x ≠ '}') ∧
      ∀ v, vals[i]? = some v → (ColTakes kind v → ∃ s, formatField vals body = .ok s) ∧ (¬ ColTakes kind v → (kind = .text → ∀ x, v ≠ .flt x) →
        kind ≠ .text → formatField vals body = .error .value) := by
  obtain ⟨i, hi, he⟩ := List.mem_iff_getElem.1 hm
  have hi2 : columns[i]? = some (name, kind) := by rw [List.getElem?_eq_getElem hi, he]
  have hz : ((name, kind), i) ∈ columns.zipIdx := by
    rw [List.mem_zipIdx_iff_getElem?]; exact hi2
  have hck := colCheck_all _ hz
  unfold colCheck at hck
  simp only at hck
  split at hck
  · cases hck
  rename_i c hc
  simp only [Bool.and_eq_true, decide_eq_true_eq, List.all_eq_true, bne_iff_ne] at hck
  obtain ⟨⟨h1, h2⟩, h3⟩ := hck
  have hget : ∃ c', (formatDef n).get? name = some c' ∧ c'.fmt = c.fmt := by
    rw [get?_formatDef, hc]
    exact ⟨_, rfl, by dsimp only; split <;> rfl⟩
  obtain ⟨c', hc', hf'⟩ := hget
  refine ⟨i, c', _, hi2, hc', by rw [hf']; exact h1, h2, ?_⟩
  intro v hv2
  generalize (c.fmt.drop 1).dropLast = body at h2 h3 h1
  unfold formatField
  split at h3
  · rename_i ix hcut
    rw [hcut]
    simp only [decide_eq_true_eq] at h3
    simp only [h3, hv2]
    refine ⟨?_, fun _ _ h => absurd rfl h⟩
    rintro ⟨s, rfl⟩
    exact ⟨s, by simp [formatVal]⟩
  · rename_i ix sp w hcut
    rw [hcut]
    simp only [Bool.and_eq_true, decide_eq_true_eq] at h3
    obtain ⟨⟨h4, h5⟩, h6⟩ := h3
    simp only [h4, hv2, formatVal, if_neg h5, h6, if_true]
    refine ⟨?_, ?_⟩
    · rintro ⟨j, rfl⟩; exact ⟨_, rfl⟩
    · intro hn _ _
      cases v with
      | int j => exact absurd ⟨j, rfl⟩ hn
      | flt x => rfl
      | str x => rfl
  · rename_i ix sp sg w d hcut
    rw [hcut]
    simp only [Bool.and_eq_true, decide_eq_true_eq] at h3
    obtain ⟨⟨⟨h4, h5⟩, h6⟩, h7⟩ := h3
    simp only [h4, hv2, formatVal, if_neg h5, h6]
    rw [if_neg (show ¬ ('f' = 'd') by decide)]
    refine ⟨?_, ?_⟩
    · intro ht
      cases v with
      | int j => exact ⟨_, rfl⟩
      | flt x => exact ⟨_, rfl⟩
      | str x => exact absurd rfl (ht x)
    · intro hn _ _
      cases v with
      | int j => exact absurd (fun s h => nomatch h) hn
      | flt x => exact absurd (fun s h => nomatch h) hn
      | str x => rfl
  · cases h3

/-- every column of the list takes its value, or the format raises ValueError -/
theorem strFormat_refuses (dtLen : Nat) (fields cols : List Str) (fmt fort : Str) (hc : composeRecFormat (formatDef dtLen) fields = .ok (cols, fmt, fort))
    (hcols : ∀ f ∈ fields, ∃ k, (f, k) ∈ columns) (vals : List FVal) (hl : vals.length = columns.length) (hd : ∃ s, vals[2]? = some (.str s)) (f : Str)
    (hf : f ∈ fields) (i : Nat) (kind : ColKind) (v : FVal) (hi : columns[i]? = some (f, kind)) (hv : vals[i]? = some v) (hbad : ¬ ColTakes kind v) :
    strFormat fmt vals = .error .value := by
  have hnodup : (columns.map Prod.fst).Nodup := by decide +kernel
  have hall : c% "all" ∉ fields := by
    intro h
    obtain ⟨k, hk⟩ := hcols _ h
    have : c% "all" ∈ columns.map Prod.fst := List.mem_map.2 ⟨_, hk, rfl⟩
    revert this; decide
  have htext : ∀ (i : Nat) (nk : Str × ColKind), columns[i]? = some nk → nk.2 = .text → i = 2 := by
    have : ∀ p ∈ columns.zipIdx, (match p.1.2 with | .text => decide (p.2 = 2) | _ => true) = true := by decide +kernel
    intro i nk h ht
    have := this (nk, i) (List.mem_zipIdx_iff_getElem?.2 h)
    simpa [ht] using this
  have huniq : ∀ (i j : Nat) (k k' : ColKind), columns[i]? = some (f, k) → columns[j]? = some (f, k') → i = j := by
    intro i j k k' h1 h2
    have a : (columns.map Prod.fst)[i]? = some f := by rw [List.getElem?_map, h1]; rfl
    have b : (columns.map Prod.fst)[j]? = some f := by rw [List.getElem?_map, h2]; rfl
    obtain ⟨ha, ha'⟩ := List.getElem?_eq_some_iff.1 a
    obtain ⟨hb, hb'⟩ := List.getElem?_eq_some_iff.1 b
    exact (List.Nodup.getElem_inj_iff hnodup).1 (ha'.trans hb'.symm)
  -- one column
  have one : ∀ g ∈ fields, ∃ c body, (formatDef dtLen).get? g = some c ∧ c.fmt = '{' :: (body ++ ['}']) ∧ (∀ x ∈ body, x ≠ '}') ∧
      (formatField vals body = .error .value ∨ ∃ s, formatField vals body = .ok s) ∧ (g = f → formatField vals body = .error .value) := by
    intro g hg
    obtain ⟨k, hk⟩ := hcols g hg
    obtain ⟨j, c, body, h1, h2, h3, h4, h5⟩ := column_refuses dtLen vals g k hk
    obtain ⟨hj, -⟩ := List.getElem?_eq_some_iff.1 h1
    have hj' : vals[j]? = some (vals[j]'(by omega)) := List.getElem?_eq_getElem (by omega)
    obtain ⟨h6, h7⟩ := h5 _ hj'
    have hstr : k = .text → ∃ s, vals[j]? = some (.str s) := by
      intro h
      have := htext j (g, k) h1 h
      subst this; exact hd
    refine ⟨c, body, h2, h3, h4, ?_, ?_⟩
    · by_cases ht : ColTakes k (vals[j]'(by omega))
      · exact .inr (h6 ht)
      · by_cases hk' : k = .text
        · obtain ⟨s, hs⟩ := hstr hk'
          rw [hj'] at hs
          subst hk'
          exact absurd ⟨s, Option.some.inj hs⟩ ht
        · exact .inl (h7 ht (fun h => absurd h hk') hk')
    · rintro rfl
      have := huniq i j kind k hi h1
      subst this
      rw [hi] at h1
      have hk1 : kind = k := by simpa using h1
      subst hk1
      rw [hv] at hj'
      have hvv := (Option.some.inj hj')
      rw [← hvv] at h7
      by_cases hk' : kind = .text
      · obtain ⟨s, hs⟩ := hstr hk'
        rw [hv] at hs
        subst hk'
        exact absurd ⟨s, Option.some.inj hs⟩ hbad
      · exact h7 hbad (fun h => absurd h hk') hk'
  have piece : ∀ c : ColDef, ∀ body : Str, c.fmt = '{' :: (body ++ ['}']) → (∀ x ∈ body, x ≠ '}') → ∀ tail, formatGo vals none (c.fmt ++ tail) =
      match formatField vals body with
      | .error e => .error e
      | .ok t => match formatGo vals none tail with
        | .error e => .error e
        | .ok r => .ok (t ++ r) := by
    intro c body h3 h4 tail
    rw [h3, List.cons_append, formatGo, if_pos rfl, List.append_assoc, List.singleton_append, formatGo_body vals body h4]
    simp
  have rest : ∀ l : List Str, (∀ g ∈ l, g ∈ fields) → ∀ r fo, ∃ sfx fo', composeRest (formatDef dtLen) l r fo = .ok (r ++ sfx, fo') ∧
      (∀ tail, (∃ s, formatGo vals none tail = .ok s) → formatGo vals none (sfx ++ tail) = .error .value ∨ ∃ s, formatGo vals none (sfx ++ tail) = .ok s) ∧
      (f ∈ l → ∀ tail, (∃ s, formatGo vals none tail = .ok s) → formatGo vals none (sfx ++ tail) = .error .value) := by
    intro l
    induction l with
    | nil => intro _ r fo; exact ⟨[], fo, by simp [composeRest], fun tail ht => .inr (by simpa using ht), fun h => by simp at h⟩
    | cons g l ih =>
      intro hsub r fo
      obtain ⟨c, body, h1, h2, h3, h4, h5⟩ := one g (hsub g (by simp))
      obtain ⟨sfx, fo', e1, e2, e3⟩ := ih (fun x hx => hsub x (by simp [hx])) (r ++ ' ' :: c.fmt) (fo ++ (c% ",1X,") ++ c.fortran)
      have step : ∀ tail, formatGo vals none ((' ' :: c.fmt ++ sfx) ++ tail) = match formatField vals body with
          | .error e => .error e
          | .ok t => match formatGo vals none (sfx ++ tail) with
            | .error e => .error e
            | .ok r => .ok (' ' :: (t ++ r)) := by
        intro tail
        rw [List.cons_append, List.cons_append, formatGo, if_neg (by decide), if_neg (by decide), List.append_assoc, piece c body h2 h3]
        cases formatField vals body with
        | error e => rfl
        | ok t =>
          simp only
          cases formatGo vals none (sfx ++ tail) <;> rfl
      refine ⟨' ' :: c.fmt ++ sfx, fo', ?_, ?_, ?_⟩
      · simp only [composeRest, h1]
        rw [e1]; simp
      · intro tail ht
        rw [step]
        rcases h4 with h4 | ⟨s, h4⟩
        · rw [h4]; exact .inl rfl
        · rw [h4]
          rcases e2 tail ht with h | ⟨s', h⟩
          · rw [h]; exact .inl rfl
          · rw [h]; exact .inr ⟨_, rfl⟩
      · intro hm tail ht
        rw [step]
        rcases h4 with h4 | ⟨s, h4⟩
        · rw [h4]
        · rcases List.mem_cons.1 hm with hm | hm
          · rw [h5 hm.symm] at h4; cases h4
          · rw [h4, e3 hm tail ht]
  unfold composeRecFormat at hc
  simp only [hall, if_false] at hc
  have hnl : ∃ s, formatGo vals none ['\n'] = .ok s := ⟨['\n'], by simp [formatGo]⟩
  cases fields with
  | nil => cases hf
  | cons a l =>
    simp only at hc
    obtain ⟨c, body, h1, h2, h3, h4, h5⟩ := one a (by simp)
    obtain ⟨sfx, fo', e1, e2, e3⟩ := rest l (fun x hx => by simp [hx]) c.fmt c.fortran
    rw [h1] at hc
    simp only [e1, Except.ok.injEq, Prod.mk.injEq] at hc
    obtain ⟨-, rfl, -⟩ := hc
    unfold strFormat
    rw [List.append_assoc, piece c body h2 h3]
    rcases h4 with h4 | ⟨s, h4⟩
    · rw [h4]
    · rcases List.mem_cons.1 hf with hm | hm
      · rw [h5 hm.symm] at h4; cases h4
      · rw [h4, e3 hm _ hnl]

/-- `all` anywhere in the list means every column, in alphabetical order; the configured list of columns is replaced. -/
theorem C50_all (dtLen : Nat) (fields : List Str) (hall : c% "all" ∈ fields) :
    ∃ names, names.Perm (columns.map Prod.fst) ∧ names.Pairwise Before ∧
      composeRecFormat (formatDef dtLen) fields = composeRecFormat (formatDef dtLen) names := by
  have hk : (formatDef dtLen).keys = columns.map Prod.fst := by rw [← keys_eq]; rfl
  have hs : (sortStr (columns.map Prod.fst)).Pairwise (fun a b => strLe a b = true ∧ a ≠ b) := by decide +kernel
  have hn : c% "all" ∉ sortStr (columns.map Prod.fst) := by decide +kernel
  refine ⟨sortStr (columns.map Prod.fst), by decide +kernel, ?_, ?_⟩
  · refine hs.imp ?_
    rintro a b ⟨h1, h2⟩
    exact ((strLe_iff a b).1 h1).resolve_left h2
  · unfold composeRecFormat
    simp only [hall, hn, if_true, if_false, hk]

/-- an unknown column raises CfgError -/
theorem C50_unknown (dtLen : Nat) (fields : List Str) (hall : c% "all" ∉ fields) (x : Str) (hx : x ∈ fields) (hun : ∀ k, (x, k) ∉ columns) :
    composeRecFormat (formatDef dtLen) fields = .error .cfg := by
  have hnone : (formatDef dtLen).get? x = none := by
    rw [get?_formatDef]
    have : (formatDef 0).get? x = none := by
      rw [← Option.not_isSome_iff_eq_none, Dict.get?_isSome_iff, keys_eq]
      intro h
      obtain ⟨p, hp, rfl⟩ := List.mem_map.1 h
      exact hun p.2 hp
    rw [this]; rfl
  have hrest : ∀ (is : List Str) (r f : Str), x ∈ is → composeRest (formatDef dtLen) is r f = .error .cfg := by
    intro is
    induction is with
    | nil => intro r f h; cases h
    | cons i is ih =>
      intro r f h
      simp only [composeRest]
      cases hi : (formatDef dtLen).get? i with
      | none => rfl
      | some c =>
        rcases List.mem_cons.1 h with rfl | h
        · rw [hnone] at hi; cases hi
        · exact ih _ _ h
  unfold composeRecFormat
  simp only [hall, if_false]
  cases fields with
  | nil => cases hx
  | cons a rest =>
    simp only
    cases ha : (formatDef dtLen).get? a with
    | none => rfl
    | some c =>
      rcases List.mem_cons.1 hx with rfl | h
      · rw [hnone] at ha; cases ha
      · simp only [hrest rest _ _ h]

/-- concrete case: three columns of a record of zeros at an elevation of 12.5 -/
theorem C50_example :
    let vals : List FVal := columns.map fun nk => match nk.2 with
      | .int _ => .int 0
      | .fix _ _ _ => .flt (.fin (25/2))
      | .text => .str (c% "2015-01-02")
    IsRecord vals ∧ (composeRecFormat (formatDef 10) [c% "datetime", c% "el", c% "p1.lli"]).map (fun x => strFormat x.2.1 vals) =
      .ok (.ok (c% "2015-01-02   12.50000 0\n")) ∧
    (composeRecFormat (formatDef 10) [c% "datetime", c% "el", c% "p1.lli"]).map (fun x => x.2.2) = .ok (c% "(A10,1X,F10.5,1X,I1)") := by
  intro vals
  refine ⟨⟨by simp [vals], ?_⟩, by decide +kernel, by decide +kernel⟩
  intro i nk v h1 h2
  simp only [vals, List.getElem?_map, h1, Option.map_some, Option.some.injEq] at h2
  subst h2
  obtain ⟨n, k⟩ := nk
  cases k with
  | int w => exact ⟨0, rfl⟩
  | fix a b c => exact ⟨25/2, .inl rfl⟩
  | text => exact ⟨_, rfl⟩

/-! ## C51 -/

/-- A column is at least as wide as its item says, and exactly as wide whenever the number fits: -/
theorem C51_width (kind : ColKind) (v : FVal) (s : Str) (h : ColText kind v s) (dt : Nat) (hdt : kind = .text → s.length = dt) :
    (itemOf dt kind).width ≤ s.length := by
  cases kind with
  | int w => obtain ⟨i, _, rfl⟩ := h; simp only [itemOf, FItem.width, padLeft, List.length_append, List.length_replicate]; omega
  | fix sg w d => obtain ⟨q, n, _, _, rfl⟩ := h; simp only [itemOf, FItem.width, padLeft, List.length_append, List.length_replicate]; omega
  | text => simp only [itemOf, FItem.width]; exact (hdt rfl).ge

private theorem fortranFields_flat (items : List FItem) (texts : List Str) (tail : Str)
    (h : List.Forall₂ (fun (i : FItem) (t : Str) => t.length = i.width) items texts) :
    fortranFields items (List.intercalate [' '] texts ++ tail) = texts := by
  induction h with
  | nil => rfl
  | @cons i t items texts h1 h2 ih =>
    cases h2 with
    | nil => simp [fortranFields, List.intercalate, ← h1]
    | @cons j u items texts h3 h4 =>
      have e : List.intercalate [' '] (t :: u :: texts) = t ++ ([' '] ++ List.intercalate [' '] (u :: texts)) := by
        simp [List.intercalate, List.intersperse]
      rw [fortranFields.eq_def]
      simp only
      rw [e, ← h1]
      have d1 : (t ++ ([' '] ++ List.intercalate [' '] (u :: texts)) ++ tail).take t.length = t := by
        rw [List.append_assoc, List.take_left]
      have d2 : (t ++ ([' '] ++ List.intercalate [' '] (u :: texts)) ++ tail).drop (t.length + 1) = List.intercalate [' '] (u :: texts) ++ tail := by
        rw [List.append_assoc, ← List.drop_drop, List.drop_left]
        simp
      rw [d1, d2, ih]

/-- For every list of columns other than `site.l`, `site.b`, `site.h`: a program reading any record with the Fortran format finds exactly the text of each
column in the corresponding item, provided the numbers fit their columns and the date has the announced length. -/
theorem C51_reads (dtLen : Nat) (fields : List Str) (hne : fields ≠ []) (hcols : ∀ f ∈ fields, ∃ k, (f, k) ∈ columns)
    (hsite : ∀ f ∈ fields, f ∉ [c% "site.l", c% "site.b", c% "site.h"])
    (vals : List FVal) (hr : IsRecord vals)
    (hfit : ∀ f ∈ fields, ∀ k s, (f, k) ∈ columns → IsColumnText vals f s → s.length ≤ (itemOf dtLen k).width)
    (hdate : ∀ s, IsColumnText vals (c% "datetime") s → s.length = dtLen) :
    ∃ fmt fort items rec texts, composeRecFormat (formatDef dtLen) fields = .ok (fields, fmt, fort) ∧ FortranFormat items fort ∧
      strFormat fmt vals = .ok rec ∧ List.Forall₂ (IsColumnText vals) fields texts ∧ fortranFields items rec = texts := by
  obtain ⟨fmt, fort, h1, h2, items, _, h4, h5⟩ := C50_record dtLen fields hne hcols
  obtain ⟨texts, h6, h7⟩ := h2 vals hr
  refine ⟨fmt, fort, items, _, texts, h1, h4, h7, h6, ?_⟩
  apply fortranFields_flat
  clear h1 h2 h4 h7 hne
  have hnd : (columns.map Prod.fst).Nodup := by decide +kernel
  induction fields generalizing items texts with
  | nil => cases h5; cases h6; exact .nil
  | cons f fields ih =>
    cases h5 with
    | @cons _ it _ items ha hb =>
    cases h6 with
    | @cons _ t _ texts hc hd =>
    refine .cons ?_ (ih (fun x hx => hcols x (by simp [hx])) (fun x hx => hsite x (by simp [hx])) (fun x hx => hfit x (by simp [hx])) _ hb.length_eq.symm hb _ hd)
    obtain ⟨k, hk, hk2, _⟩ := ha
    rw [hk2 (hsite f (by simp))]
    have hle := hfit f (by simp) k t hk hc
    have hc' := hc
    obtain ⟨i, k', v, hi, hv, ht⟩ := hc
    have hkk : k' = k := by
      have := List.mem_of_getElem? hi
      have e := List.inj_on_of_nodup_map hnd this hk rfl
      simpa using e
    subst hkk
    have hge := C51_width k' v t ht dtLen (by
      rintro rfl
      have hn : f = c% "datetime" := by
        have hfc := fortCheck_all _ hk
        simpa [fortCheck] using hfc
      subst hn
      exact hdate t hc')
    omega

/-- It fails for each of the three: their items claim 23 characters; whenever fewer are written (17, 16 and 18 are, for numbers fitting the column), the
program reads something else. -/
theorem C51_site (dtLen : Nat) (f : Str) (rest : List Str) (hf : f ∈ [c% "site.l", c% "site.b", c% "site.h"])
    (hcols : ∀ x ∈ f :: rest, ∃ k, (x, k) ∈ columns) (vals : List FVal) (hr : IsRecord vals)
    (hshort : ∀ s, IsColumnText vals f s → s.length < 23) :
    ∃ fmt fort items rec texts, composeRecFormat (formatDef dtLen) (f :: rest) = .ok (f :: rest, fmt, fort) ∧
      FortranFormat (.F 23 12 :: items) fort ∧ strFormat fmt vals = .ok rec ∧ List.Forall₂ (IsColumnText vals) (f :: rest) texts ∧
      (fortranFields (.F 23 12 :: items) rec).head? ≠ texts.head? := by
  obtain ⟨fmt, fort, h1, h2, items, _, h4, h5⟩ := C50_record dtLen (f :: rest) (by simp) hcols
  obtain ⟨texts, h6, h7⟩ := h2 vals hr
  cases h5 with
  | @cons _ it _ items ha hb =>
  obtain ⟨k, _, _, hit⟩ := ha
  rw [hit hf] at h4
  refine ⟨fmt, fort, items, _, texts, h1, h4, h7, h6, ?_⟩
  cases h6 with
  | @cons _ t _ texts hc hd =>
  have hlt := hshort t hc
  simp only [fortranFields, List.head?_cons, FItem.width, ne_eq, Option.some.injEq]
  intro e
  have hlen := congrArg List.length e
  rw [intercalate_flat] at hlen
  simp only [List.length_take, List.length_append, List.length_cons, List.length_nil] at hlen
  omega

/-- the widths written for the three columns -/
theorem C51_site_widths :
    (c% "site.l", ColKind.fix true 17 12) ∈ columns ∧ (c% "site.b", ColKind.fix true 16 12) ∈ columns ∧ (c% "site.h", ColKind.fix true 18 12) ∈ columns ∧
    ∀ dt, ∀ k ∈ [ColKind.fix true 17 12, .fix true 16 12, .fix true 18 12], (itemOf dt k).width < (FItem.F 23 12).width := by
  refine ⟨?_, ?_, ?_, ?_⟩
  · simp [columns]
  · simp [columns]
  · simp [columns]
  · intro dt k hk
    simp only [List.mem_cons, List.not_mem_nil, or_false] at hk
    rcases hk with rfl | rfl | rfl <;> simp [itemOf, FItem.width]

/-- concrete case: latitude 55.5 and an indicator: the Fortran format reads the indicator into the latitude -/
theorem C51_example :
    let vals : List FVal := columns.map fun nk => match nk.2 with
      | .int _ => .int 7
      | .fix _ _ _ => .flt (.fin (111/2))
      | .text => .str []
    ∃ fmt fort rec, composeRecFormat (formatDef 0) [c% "site.b", c% "p1.lli"] = .ok ([c% "site.b", c% "p1.lli"], fmt, fort) ∧
      fort = c% "(F23.12,1X,I1)" ∧ strFormat fmt vals = .ok rec ∧ rec = c% " 55.500000000000 7\n" ∧
      fortranFields [.F 23 12, .I 1] rec = [c% " 55.500000000000 7\n", []] := by
  intro vals
  exact ⟨c% "{44: 16.12f} {6:1d}\n", _, c% " 55.500000000000 7\n", by decide +kernel, rfl, by decide +kernel, rfl, by decide +kernel⟩

end Verif.Props
