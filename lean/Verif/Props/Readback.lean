import Verif.Spec.Readback
import Verif.Props.ProgramExamples
import Verif.Proofs.Split
import Verif.Proofs.MainRecord
/-!
# C85: the output can be read back
-/
namespace Verif.Props
open Verif.Py Verif.Model Verif.Spec Verif.Proofs

theorem splitWs_sep (a b : Str) (c : Char) (hc : isSpace c = true) : splitWs (a ++ c :: b) = splitWs a ++ splitWs b := by
  have key : ∀ (a acc : Str), splitWsGo (a ++ c :: b) acc = splitWsGo a acc ++ splitWsGo b [] := by
    intro a
    induction a with
    | nil =>
      intro acc
      simp only [List.nil_append, splitWsGo, hc, if_true]
      cases acc <;> simp
    | cons x a ih =>
      intro acc
      simp only [List.cons_append, splitWsGo]
      split
      · split
        · exact ih []
        · rw [ih []]; simp
      · exact ih _
  exact key a []

theorem space_blank : isSpace ' ' = true := by decide

theorem splitWs_intercalate (ts : List Str) : splitWs (List.intercalate [' '] ts) = (ts.map splitWs).flatten := by
  induction ts with
  | nil => rfl
  | cons t ts ih =>
    cases ts with
    | nil => simp [List.intercalate]
    | cons u us =>
      have : List.intercalate [' '] (t :: u :: us) = t ++ ' ' :: List.intercalate [' '] (u :: us) := by
        simp [List.intercalate]
      rw [this, splitWs_sep _ _ _ space_blank, ih]
      simp

theorem blanks_space (n : Nat) : ∀ c ∈ List.replicate n ' ', isSpace c = true := by
  intro c hc
  rw [List.mem_replicate] at hc
  rw [hc.2]; decide

theorem splitWs_padded (n : Nat) (w : Str) (hne : w ≠ []) (hw : ∀ c ∈ w, isSpace c = false) : splitWs (List.replicate n ' ' ++ w) = [w] := by
  rw [splitWs_space _ _ (blanks_space n)]
  have := splitWs_word w [] hne hw (.inl rfl)
  rw [List.append_nil] at this
  rw [this]; rfl

/-- the number written -/
theorem fixed_reads (neg : Bool) (d n : Nat) (hd : 1 ≤ d) :
    pyFloat ((if neg then ['-'] else []) ++ natStr (n / 10 ^ d) ++ '.' :: zfill d (natStr (n % 10 ^ d))) = .ok (.fin (if neg then -((n : Rat) / 10 ^ d) else (n : Rat) / 10 ^ d)) := by
  have h := parseFloat_fixed [] [] neg (natStr (n / 10 ^ d)) (zfill d (natStr (n % 10 ^ d))) (by simp) (by simp)
    (natStr_digits _) (zfill_digits (natStr_digits _)) (natStr_ne_nil _)
  have hl : (zfill d (natStr (n % 10 ^ d))).length = d := zfill_natStr_length hd (Nat.mod_lt _ (by positivity))
  rw [hl, decVal_zfill, decVal_natStr, decVal_natStr] at h
  have hv : ((n / 10 ^ d : Nat) : Rat) + ((n % 10 ^ d : Nat) : Rat) / (10 : Rat) ^ d = (n : Rat) / 10 ^ d := by
    have h2 : ((10 ^ d * (n / 10 ^ d) + n % 10 ^ d : Nat) : Rat) = (n : Rat) := by rw [Nat.div_add_mod]
    push_cast at h2
    have h3 : (10 : Rat) ^ d ≠ 0 := by positivity
    rw [← h2]; field_simp
  simp only [hv, List.nil_append, List.append_nil] at h
  unfold pyFloat
  rw [show (if neg then ['-'] else []) ++ natStr (n / 10 ^ d) ++ '.' :: zfill d (natStr (n % 10 ^ d)) =
    (if neg then ['-'] else []) ++ natStr (n / 10 ^ d) ++ ['.'] ++ zfill d (natStr (n % 10 ^ d)) by simp, h]

theorem rounds_near {q : Rat} {d n : Nat} (h : RoundsTo |q| d n) :
    let q' := if q < 0 then -((n : Rat) / 10 ^ d) else (n : Rat) / 10 ^ d
    |q' - q| ≤ 1 / 2 / 10 ^ d ∧ ∀ m : Int, q = m / 10 ^ d → q' = q := by
  obtain ⟨h1, h2, -⟩ := h
  have hp : (0 : Rat) < 10 ^ d := by positivity
  have hnear : abs ((n : Rat) / 10 ^ d - abs q) ≤ 1 / 2 / 10 ^ d := by
    rw [abs_le]
    constructor
    · rw [neg_le_sub_iff_le_add, ← add_div, le_div_iff₀ hp]; linarith
    · rw [sub_le_iff_le_add, div_le_iff₀ hp, add_mul, div_mul_cancel₀ _ hp.ne']; linarith
  have hexact : ∀ m : Int, q = m / 10 ^ d → (n : Rat) / 10 ^ d = |q| := by
    intro m hm
    have hq : |q| * 10 ^ d = ((|m| : Int) : Rat) := by
      rw [hm, abs_div, abs_of_pos hp, div_mul_cancel₀ _ hp.ne']; push_cast; rfl
    rw [hq] at h1 h2
    have e1 : ((n : Int) : Rat) < (|m| + 1 : Int) := by push_cast at *; linarith
    have e2 : ((|m| : Int) : Rat) < ((n : Int) + 1 : Int) := by push_cast at *; linarith
    have e3 := Int.cast_lt.1 e1
    have e4 := Int.cast_lt.1 e2
    have e5 : (n : Int) = |m| := by omega
    rw [div_eq_iff hp.ne', hq, ← e5]; simp
  intro q'
  by_cases hq : q < 0
  · simp only [q', if_pos hq]
    rw [abs_of_neg hq] at hnear hexact
    constructor
    · rw [← abs_neg]; convert hnear using 2; ring
    · intro m hm; rw [hexact m hm]; ring
  · simp only [q', if_neg hq]
    rw [abs_of_nonneg (not_lt.1 hq)] at hnear hexact
    exact ⟨hnear, hexact⟩

/-- the numbers of the column have decimals -/
def decimalsOk : ColKind → Bool
  | .fix _ _ d => decide (1 ≤ d)
  | _ => true

theorem columns_decimals : ∀ nk ∈ columns, decimalsOk nk.2 = true := by
  decide

/-- the words of the text of a column -/
theorem colText_words {kind : ColKind} {v : FVal} {s : Str} (h : ColText kind v s) (hd : decimalsOk kind = true) :
    GivesBack kind v (splitWs s) := by
  cases kind with
  | int w =>
    obtain ⟨i, rfl, rfl⟩ := h
    refine ⟨i, _, rfl, splitWs_padded _ _ (by simp [natStr_ne_nil]) ?_, ?_⟩
    · intro c hc
      simp only [List.mem_append] at hc
      rcases hc with hc | hc
      · split at hc
        · simp only [List.mem_singleton] at hc; subst hc; decide
        · cases hc
      · exact isDigit_not_space (natStr_digits _ c hc)
    · have := parseInt_intStr_pad [] [] i (by simp) (by simp)
      simp only [List.nil_append, List.append_nil] at this
      have e : (if i < 0 then ['-'] else []) ++ natStr i.natAbs = intStr i := by
        unfold intStr; split <;> rfl
      unfold pyInt
      rw [e, this]
  | fix sg w d =>
    obtain ⟨q, n, hv, hr, rfl⟩ := h
    obtain ⟨r1, r2⟩ := rounds_near hr
    refine ⟨q, _, (if q < 0 then ['-'] else []) ++ natStr (n / 10 ^ d) ++ '.' :: zfill d (natStr (n % 10 ^ d)), hv, ?_,
      by simpa using fixed_reads (decide (q < 0)) d n (of_decide_eq_true hd), by simpa using r1, by simpa using r2⟩
    have hw : ∀ c ∈ (if q < 0 then ['-'] else []) ++ natStr (n / 10 ^ d) ++ '.' :: zfill d (natStr (n % 10 ^ d)), isSpace c = false := by
      intro c hc
      simp only [List.mem_append, List.mem_cons] at hc
      rcases hc with (hc | hc) | hc | hc
      · split at hc
        · simp only [List.mem_singleton] at hc; subst hc; decide
        · cases hc
      · exact isDigit_not_space (natStr_digits _ c hc)
      · subst hc; decide
      · exact isDigit_not_space (zfill_digits (natStr_digits _) c hc)
    unfold padLeft
    by_cases hq : q < 0
    · simp only [if_pos hq] at hw ⊢
      exact splitWs_padded _ _ (by simp) hw
    · simp only [if_neg hq] at hw ⊢
      cases sg with
      | false => exact splitWs_padded _ _ (by simp) hw
      | true =>
        simp only [if_true]
        rw [List.append_assoc, List.append_assoc, ← List.append_assoc (List.replicate _ ' ')]
        rw [show ∀ k, List.replicate k ' ' ++ [' '] = List.replicate (k + 1) ' ' from fun k => (List.replicate_succ').symm]
        simp only [List.nil_append] at hw ⊢
        exact splitWs_padded _ _ (by simp) hw
  | text => exact ⟨s, h, rfl⟩

/-- C85: the words of an output line are, column by column, the values of the record. -/
theorem C85_words (P : Prm) (interval : Rat) (e : DateTime) (vals : List (Option FVal)) (line : Str) (h : RecordLine P interval e vals line) :
    ∃ slot full groups, IsSlot (secOfDay e / interval) slot ∧ FullRecord slot (secOfDay e / 3600) (P.env.strft P.cfg.datetimeFormat e) vals full ∧
      List.Forall₂ (ColumnWords full) P.cfg.recFields groups ∧ splitWs line = groups.flatten := by
  obtain ⟨slot, full, texts, h1, h2, h3, rfl⟩ := h
  refine ⟨slot, full, texts.map splitWs, h1, h2, ?_, ?_⟩
  · rw [List.forall₂_map_right_iff]
    refine h3.imp ?_
    rintro name s ⟨i, kind, v, c1, c2, c3⟩
    exact ⟨i, kind, v, c1, c2, colText_words c3 (columns_decimals _ (List.mem_of_getElem? c1))⟩
  · rw [splitWs_sep _ [] '\n' (by decide), splitWs_intercalate]
    simp [splitWs, splitWsGo]

def isText : ColKind → Bool
  | .text => true
  | _ => false

theorem columns_untext : ∀ i : Fin columns.length, i.1 ≠ 2 → isText (columns[i.1]).2 = false := by decide

theorem columns_text : ∀ i name, columns[i]? = some (name, .text) → i = 2 ∧ name = c% "datetime" := by
  intro i name h
  have hi : i < columns.length := (List.getElem?_eq_some_iff.1 h).1
  have key : ∀ i : Fin columns.length, ∀ name, columns[i.1]? = some (name, ColKind.text) → i.1 = 2 ∧ name = c% "datetime" := by
    intro i
    have : i.1 = 2 ∨ ∀ name, columns[i.1]? ≠ some (name, ColKind.text) := by
      by_cases h2 : i.1 = 2
      · exact .inl h2
      · refine .inr ?_
        intro name hn
        rw [List.getElem?_eq_getElem i.2, Option.some.injEq] at hn
        have := columns_untext i h2
        rw [hn] at this
        cases this
    intro name hn
    rcases this with h2 | h2
    · refine ⟨h2, ?_⟩
      rw [h2] at hn
      have : columns[2]? = some (c% "datetime", ColKind.text) := rfl
      rw [this] at hn
      cases hn
      rfl
    · exact absurd hn (h2 name)
  exact key ⟨i, hi⟩ name h

/-- C85: if dates are single words, the line has one word for every configured column, and the word gives back the value. -/
theorem C85_readback (P : Prm) (interval : Rat) (e : DateTime) (vals : List (Option FVal)) (line : Str) (h : RecordLine P interval e vals line)
    (hd : DateIsWord P e) :
    ∃ slot full, IsSlot (secOfDay e / interval) slot ∧ FullRecord slot (secOfDay e / 3600) (P.env.strft P.cfg.datetimeFormat e) vals full ∧
      List.Forall₂ (fun name w => ColumnWords full name [w]) P.cfg.recFields (splitWs line) := by
  obtain ⟨slot, full, groups, h1, h2, h3, h4⟩ := C85_words P interval e vals line h
  refine ⟨slot, full, h1, h2, ?_⟩
  rw [h4]
  have hall : ∀ name ∈ P.cfg.recFields, ∀ ws, ColumnWords full name ws → ∃ w, ws = [w] := by
    rintro name hn ws ⟨i, kind, v, c1, c2, c3⟩
    cases kind with
    | int w => obtain ⟨_, w, _, rfl, _⟩ := c3; exact ⟨w, rfl⟩
    | fix a b d => obtain ⟨_, _, w, _, rfl, _⟩ := c3; exact ⟨w, rfl⟩
    | text =>
      obtain ⟨rfl, rfl⟩ := columns_text i name c1
      obtain ⟨s, rfl, rfl⟩ := c3
      rw [h2.2.2.2.1] at c2
      cases c2
      exact ⟨_, hd hn⟩
  clear hd h4
  generalize P.cfg.recFields = fields at *
  induction h3 with
  | nil => exact .nil
  | @cons name ws fields groups h _ ih =>
    obtain ⟨w, rfl⟩ := hall name (by simp) ws h
    rw [List.flatten_cons]
    exact .cons h (ih fun n hn => hall n (by simp [hn]))

theorem columns_nodup : (columns.map (·.1)).Nodup := by decide

theorem column_index {i j : Nat} {name : Str} {k l : ColKind} (hi : columns[i]? = some (name, k)) (hj : columns[j]? = some (name, l)) : i = j ∧ k = l := by
  have h1 : (columns.map (·.1))[i]? = some name := by rw [List.getElem?_map, hi]; rfl
  have h2 : (columns.map (·.1))[j]? = some name := by rw [List.getElem?_map, hj]; rfl
  have hl : i < (columns.map (·.1)).length := (List.getElem?_eq_some_iff.1 h1).1
  have : i = j := (List.getElem?_inj hl columns_nodup).1 (by rw [h1, h2])
  subst this
  rw [hi] at hj
  cases hj
  exact ⟨rfl, rfl⟩

theorem forall₂_at {α β : Type} {R : α → β → Prop} {l : List α} {m : List β} (h : List.Forall₂ R l m) {j : Nat} {a : α} (ha : l[j]? = some a) :
    ∃ b, m[j]? = some b ∧ R a b := by
  induction h generalizing j with
  | nil => simp at ha
  | cons h _ ih =>
    cases j with
    | zero => simp only [List.getElem?_cons_zero, Option.some.injEq] at ha; subst ha; exact ⟨_, rfl, h⟩
    | succ j => simpa using ih (by simpa using ha)

/-- the word of a column -/
theorem word_at (P : Prm) (interval : Rat) (e : DateTime) (vals : List (Option FVal)) (line : Str) (h : RecordLine P interval e vals line)
    (hd : DateIsWord P e) (j : Nat) (col : Str) (v : Option FVal) (hj : P.cfg.recFields[j]? = some col) (hv : ColIs vals col v) :
    ∃ kind w, (col, kind) ∈ columns ∧ (splitWs line)[j]? = some w ∧ GivesBack kind (v.getD (.int 0)) [w] := by
  obtain ⟨slot, full, -, h2, h3⟩ := C85_readback P interval e vals line h hd
  obtain ⟨w, h4, i, kind, x, c1, c2, c3⟩ := forall₂_at h3 hj
  obtain ⟨i', kind', d1, d2⟩ := hv
  obtain ⟨rfl, rfl⟩ := column_index c1 d1
  rw [h2.2.2.2.2 i' v d2] at c2
  have hx : x = v.getD (.int 0) := by cases c2; cases v <;> rfl
  subst hx
  exact ⟨kind, w, List.mem_of_getElem? c1, h4, c3⟩

def isFix3 : ColKind → Bool
  | .fix _ _ d => d == 3
  | _ => false
def isInt : ColKind → Bool
  | .int _ => true
  | _ => false

theorem obsColumns_kinds : ∀ t ∈ obsColumns, (∀ nk ∈ columns, nk.1 = t.1 → isFix3 nk.2 = true) ∧ ∀ nk ∈ columns, nk.1 = t.2.1 → isInt nk.2 = true := by
  decide

theorem obs_kinds {col lli family : Str} (h : (col, lli, family) ∈ obsColumns) :
    (∀ kind, (col, kind) ∈ columns → ∃ a b, kind = .fix a b 3) ∧ ∀ kind, (lli, kind) ∈ columns → ∃ b, kind = .int b := by
  obtain ⟨h1, h2⟩ := obsColumns_kinds _ h
  constructor
  · intro kind hk
    have := h1 _ hk rfl
    cases kind with
    | fix a b d => simp only [isFix3, beq_iff_eq] at this; subst this; exact ⟨a, b, rfl⟩
    | _ => cases this
  · intro kind hk
    have := h2 _ hk rfl
    cases kind with
    | int b => exact ⟨b, rfl⟩
    | _ => cases this

/-- C85: the observables.  Let the observable of a family be given in the file with three decimals.  The word of the column of the family, read with
`float()`, is exactly this value, and the word of the column of the loss of lock indicator is this indicator.  A missing value reads as 0. -/
theorem C85_observed (P : Prm) (xyz : Dict DateTime Pos) (it : ObsItem) (c : Char) (n : Int) (interval : Rat) (e : DateTime) (vals : List (Option FVal))
    (line : Str) (hg : Gives P xyz it c n e vals) (h : RecordLine P interval e vals line) (hd : DateIsWord P e)
    (col lli family : Str) (hcol : (col, lli, family) ∈ obsColumns) :
    (∀ j : Nat, P.cfg.recFields[j]? = some col → ∃ w, (splitWs line)[j]? = some w ∧
      (∀ m : Int, ∀ i l, FamilyIs it.data family (some (some ((m : Rat) / 1000), i, l)) → pyFloat w = .ok (.fin ((m : Rat) / 1000))) ∧
      ((FamilyIs it.data family none ∨ ∃ i l, FamilyIs it.data family (some (none, i, l))) → pyFloat w = .ok (.fin 0))) ∧
    (∀ j : Nat, P.cfg.recFields[j]? = some lli → ∃ w, (splitWs line)[j]? = some w ∧
      (∀ v i l, FamilyIs it.data family (some (v, i, l)) → pyInt w = .ok i) ∧ (FamilyIs it.data family none → pyInt w = .ok 0)) := by
  obtain ⟨v, hv, hc1, hc2⟩ := hg.observables col lli family hcol
  obtain ⟨k1, k2⟩ := obs_kinds hcol
  constructor
  · intro j hj
    obtain ⟨kind, w, hk, hw, hgb⟩ := word_at P interval e vals line h hd j col _ hj hc1
    obtain ⟨a, b, rfl⟩ := k1 kind hk
    obtain ⟨q, q', w', hn, e1, e2, e3, e4⟩ := hgb
    cases e1
    refine ⟨w, hw, ?_, ?_⟩
    · intro m i l hf
      have := family_unique _ _ _ _ hv hf
      subst this
      simp only [Option.bind_some, Option.map_some] at hn
      have hq : q = (m : Rat) / 1000 := by
        rcases hn with hn | ⟨i, hn, -⟩
        · cases hn; rfl
        · cases hn
      rw [e2, e4 m (by rw [hq]; norm_num), hq]
    · intro hf
      have hq : q = 0 := by
        have hz : NumVal (.int 0) q := by
          rcases hf with hf | ⟨i, l, hf⟩ <;> have := family_unique _ _ _ _ hv hf <;> subst this <;> simpa using hn
        rcases hz with hz | ⟨i, hz, rfl⟩
        · cases hz
        · cases hz; norm_num
      rw [e2, e4 0 (by rw [hq]; norm_num), hq]
  · intro j hj
    obtain ⟨kind, w, hk, hw, hgb⟩ := word_at P interval e vals line h hd j lli _ hj hc2
    obtain ⟨b, rfl⟩ := k2 kind hk
    obtain ⟨i0, w', hn, e1, e2⟩ := hgb
    cases e1
    refine ⟨w, hw, ?_, ?_⟩
    · intro v' i l hf
      have := family_unique _ _ _ _ hv hf
      subst this
      simp only [Option.map_some] at hn
      cases hn
      exact e2
    · intro hf
      have := family_unique _ _ _ _ hv hf
      subst this
      simp only [Option.map_none] at hn
      cases hn
      exact e2

/-- C85: the time.  The word of the column `hour` determines the time of day to the microsecond: in microseconds it is less than half a microsecond off. -/
theorem C85_hour (P : Prm) (interval : Rat) (e : DateTime) (vals : List (Option FVal)) (line : Str) (h : RecordLine P interval e vals line)
    (hd : DateIsWord P e) (j : Nat) (hj : P.cfg.recFields[j]? = some (c% "hour")) :
    ∃ w q, (splitWs line)[j]? = some w ∧ pyFloat w = .ok (.fin q) ∧ |q * 3600 * 10 ^ 6 - microOfDay e| < 1 / 2 := by
  obtain ⟨slot, full, -, h2, h3⟩ := C85_readback P interval e vals line h hd
  obtain ⟨w, h4, i, kind, x, c1, c2, c3⟩ := forall₂_at h3 hj
  have c0 : columns[1]? = some (c% "hour", .fix false 14 11) := rfl
  obtain ⟨rfl, rfl⟩ := column_index c1 c0
  rw [h2.2.2.1] at c2
  cases c2
  obtain ⟨q, q', w', hn, e1, e2, e3, e4⟩ := c3
  cases e1
  refine ⟨w, q', h4, e2, ?_⟩
  have hq : q = secOfDay e / 3600 := by
    rcases hn with hn | ⟨i, hn, -⟩
    · cases hn; rfl
    · cases hn
  have hm : (microOfDay e : Rat) = q * 3600 * 10 ^ 6 := by
    rw [hq]
    unfold microOfDay secOfDay
    push_cast
    ring
  rw [hm, show q' * 3600 * 10 ^ 6 - q * 3600 * 10 ^ 6 = (q' - q) * (3600 * 10 ^ 6) by ring, abs_mul]
  rw [abs_of_pos (by norm_num : (0 : Rat) < 3600 * 10 ^ 6)]
  calc |q' - q| * (3600 * 10 ^ 6) ≤ 1 / 2 / 10 ^ 11 * (3600 * 10 ^ 6) := by gcongr
    _ < 1 / 2 := by norm_num

theorem records_gives (P : Prm) (o : ObsIn) (xyz : Dict DateTime Pos) (seen : List Char) (items : List ObsItem) (ws : List Rec)
    (h : RecordsOf P o xyz seen items ws) :
    ∀ w ∈ ws, ∃ it ∈ items, ∃ c n, it.sat = w.1 ∧ Considered o it c n w.2.1 ∧ Gives P xyz it c n w.2.1 w.2.2 := by
  induction h with
  | nil => simp
  | other seen it its ws _ _ ih => exact fun w hw => by obtain ⟨it', hi, h⟩ := ih w hw; exact ⟨it', by simp [hi], h⟩
  | lost seen it its ws c n e _ _ _ _ ih => exact fun w hw => by obtain ⟨it', hi, h⟩ := ih w hw; exact ⟨it', by simp [hi], h⟩
  | none seen it its ws c n e _ _ _ _ ih => exact fun w hw => by obtain ⟨it', hi, h⟩ := ih w hw; exact ⟨it', by simp [hi], h⟩
  | record seen it its ws c n e vals hc _ hg _ ih =>
    intro w hw
    rcases List.mem_cons.1 hw with rfl | hw
    · exact ⟨it, by simp, c, n, rfl, hc, hg⟩
    · obtain ⟨it', hi, h⟩ := ih w hw; exact ⟨it', by simp [hi], h⟩

/-- the text at the time `e` and of the satellite `sat` gives back the observables of an observation `it`: see C85_observed -/
def ObservablesBack (P : Prm) (it : ObsItem) (line : Str) : Prop :=
  ∀ col lli family, (col, lli, family) ∈ obsColumns → ∀ m : Int, ∀ i l, FamilyIs it.data family (some (some ((m : Rat) / 1000), i, l)) →
    (∀ j : Nat, P.cfg.recFields[j]? = some col → ∃ w, (splitWs line)[j]? = some w ∧ pyFloat w = .ok (.fin ((m : Rat) / 1000))) ∧
    (∀ j : Nat, P.cfg.recFields[j]? = some lli → ∃ w, (splitWs line)[j]? = some w ∧ pyInt w = .ok i)

/-- C85: the lines of an output file (as described by C77) give back the observables: the `k`-th line is the line of the `k`-th record of the satellite, and
there is an item of the observation file with the satellite and the epoch of the record whose observables are read back. -/
theorem C85_file (P : Prm) (o : ObsIn) (xyz : Dict DateTime Pos) (kept : List ObsItem) (ws : List Rec) (hr : RecordsOf P o xyz [] kept ws)
    (site sat : Str) (e : DateTime) (v : List (Option FVal)) (more : List Rec) (satDef : Str) (nav : Option Str) (pos lbh : Pos) (lines : List Str) (text : Str)
    (hw : ws.filter (fun w => w.1 == sat) = (sat, e, v) :: more) (hout : OutputIs P o site sat e v more satDef nav pos lbh lines text)
    (hd : ∀ t, DateIsWord P t) :
    List.Forall₂ (fun w line => ∃ it ∈ kept, ∃ c n, it.sat = sat ∧ Considered o it c n w.2.1 ∧ ObservablesBack P it line) ((sat, e, v) :: more) lines := by
  have hmem : ∀ w ∈ (sat, e, v) :: more, ∃ it ∈ kept, ∃ c n, it.sat = sat ∧ Considered o it c n w.2.1 ∧ Gives P xyz it c n w.2.1 w.2.2 := by
    intro w hw'
    rw [← hw, List.mem_filter] at hw'
    obtain ⟨it, h1, c, n, h2, h3, h4⟩ := records_gives P o xyz [] kept ws hr w hw'.1
    exact ⟨it, h1, c, n, h2.trans (by simpa using hw'.2), h3, h4⟩
  have hrec := hout.records
  clear hout hw
  generalize (sat, e, v) :: more = l at hmem hrec
  induction hrec with
  | nil => exact .nil
  | @cons w line l lines h _ ih =>
    refine .cons ?_ (ih fun w hw => hmem w (by simp [hw]))
    obtain ⟨it, h1, c, n, h2, h3, h4⟩ := hmem w (by simp)
    refine ⟨it, h1, c, n, h2, h3, ?_⟩
    intro col lli family hcol m i l hf
    obtain ⟨k1, k2⟩ := C85_observed P xyz it c n o.interval w.2.1 w.2.2 line h4 h (hd _) col lli family hcol
    exact ⟨fun j hj => by obtain ⟨u, h5, h6, -⟩ := k1 j hj; exact ⟨u, h5, h6 m i l hf⟩,
      fun j hj => by obtain ⟨u, h5, h6, -⟩ := k2 j hj; exact ⟨u, h5, h6 _ i l hf⟩⟩

namespace ProgEx

/-- a line of the example run (C77_example): the value -0.099 of the observation file is read back -/
theorem C85_example : splitWs (c% "        368    4.00000           -0.099          1.000000000000\n") = [c% "368", c% "4.00000", c% "-0.099", c% "1.000000000000"] ∧
    pyInt (c% "368") = .ok 368 ∧ pyFloat (c% "-0.099") = .ok (.fin (-99 / 1000)) ∧
    RecordLine (MainEx.prm false none MainEx.loadBoth MainEx.posOk) 30 (MainEx.at_ 0 30)
      ((some (.flt (.fin 11)) :: List.replicate 18 none) ++ some (.flt (.fin (20000000123 / 1000))) :: List.replicate 31 none)
      (c% "          1   11.00000     20000000.123\n") := by
  refine ⟨by decide, by decide +kernel, by decide +kernel, 1,
    (.int 1 :: .flt (.fin (1 / 120)) :: .str (c% "2015-01-02") :: .flt (.fin 11) :: List.replicate 18 (.int 0)) ++ .flt (.fin (20000000123 / 1000)) :: List.replicate 31 (.int 0),
    [c% "          1", c% "  11.00000", c% "    20000000.123"], ?_, ?_, ?_, by decide +kernel⟩
  · unfold IsSlot; norm_num [secOfDay, MainEx.at_]
  · refine ⟨by decide, by decide, ?_, by decide, ?_⟩
    · norm_num [secOfDay, MainEx.at_]
    · intro i v hv
      have hi : i < 51 := (List.getElem?_eq_some_iff.1 hv).1
      interval_cases i <;> cases hv <;> rfl
  · refine .cons ⟨0, .int 11, .int 1, rfl, rfl, 1, rfl, by decide⟩ (.cons ⟨3, .fix true 10 5, .flt (.fin 11), rfl, rfl, 11, 1100000, .inl rfl, ?_, by decide⟩
      (.cons ⟨22, .fix true 16 3, .flt (.fin (20000000123 / 1000)), rfl, rfl, 20000000123 / 1000, 20000000123, .inl rfl, ?_, by decide +kernel⟩ .nil))
    · unfold RoundsTo; norm_num
    · unfold RoundsTo; rw [abs_of_pos (by norm_num)]; norm_num

end ProgEx

end Verif.Props
