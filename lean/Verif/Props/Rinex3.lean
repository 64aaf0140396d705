import Verif.Proofs.Obs3Body
import Verif.Proofs.Obs2Err
/-!
# Properties C18-C20: lines and bodies of RINEX 3 observation files
-/
namespace Verif.Props
open Verif.Py Verif.Model Verif.Spec Verif.Proofs

/-! ## C18: epoch lines -/

/-- C18: a written epoch (or event) line decodes to the same time, flag and number; trailing white space does not matter. A
line without a date has no epoch. -/
theorem C18_epoch {date : Option (DateTime × Nat)} {flag num : Nat} {clock : Option Int} (hd : DateOk date)
    (hf : flag < 10) (hn : num < 1000) {l : Str} (hl : SameLine l (markLine date flag num clock)) :
    parseEpoch3 l = .ok ⟨date.map (·.1), flag, num⟩ := parseEpoch3_mark hd hf hn hl

/-- year, month, day, hour, minute columns of an epoch line -/
def dateColumns (l : Str) : List Str := [slice l 1 6, slice l 6 9, slice l 9 12, slice l 12 15, slice l 15 18]

/-- The date of an epoch line cannot be read: the seconds are not a number, another component is not a whole number, or the
components are not a time. -/
def DateUnreadable (l : Str) : Prop :=
  parseFloat (slice l 18 29) = none ∨ parseFloat (slice l 18 29) = some .nan ∨
  ∃ q : Rat, parseFloat (slice l 18 29) = some (.fin q) ∧
    ((∃ c ∈ dateColumns l, parseInt c = none) ∨
     ∃ y mo d h mi Y : Int, (dateColumns l).map parseInt = [some y, some mo, some d, some h, some mi] ∧ YearMeans y Y ∧
      -2147483648 < q ∧ q < 2147483648 ∧ ∀ us, ¬ Acceptable Y mo d h mi (truncRat q) us)

theorem mapInt_none {l : List Str} (h : ∃ c ∈ l, parseInt c = none) : mapInt l = .error .value := by
  induction l with
  | nil => simp at h
  | cons a l ih =>
    simp only [mapInt, pyInt]
    cases ha : parseInt a with
    | none => rfl
    | some v =>
      obtain ⟨c, hc, hn⟩ := h
      rcases List.mem_cons.1 hc with rfl | hc
      · rw [ha] at hn; simp at hn
      · simp [ih ⟨c, hc, hn⟩, bind, Except.bind]

theorem mapInt_some {l : List Str} {vs : List Int} (h : l.map parseInt = vs.map some) : mapInt l = .ok vs := by
  induction l generalizing vs with
  | nil => cases vs with
    | nil => rfl
    | cons => simp at h
  | cons a l ih => cases vs with
    | nil => simp at h
    | cons v vs =>
      simp only [List.map_cons, List.cons.injEq] at h
      simp [mapInt, pyInt, h.1, ih h.2, bind, Except.bind, pure, Except.pure]

theorem epochDate3_columns (l : Str) : epochDate3 l =
    catching (do
      let sec ← pyFloat (slice l 18 29)
      let (s, us) ← sec2secMs sec
      let d ← mapInt (dateColumns l)
      let t ← validateEpoch (d ++ [s, us])
      pure (some t)) [.value] (.ok none) := rfl

theorem parseInt_small {c : Str} {v : Int} (h : parseInt c = some v) (hc : c.length ≤ 5) : v.natAbs < 100000 := by
  have := parseInt_bound h hc
  norm_num at this; exact this

theorem dateColumns_short {l c : Str} (h : c ∈ dateColumns l) : c.length ≤ 5 := by
  simp only [dateColumns, List.mem_cons, List.not_mem_nil, or_false] at h
  rcases h with rfl | rfl | rfl | rfl | rfl <;> exact (slice_length_le ..).trans (by omega)

theorem epochDate3_unreadable {l : Str} (h : DateUnreadable l) : epochDate3 l = .ok none := by
  rw [epochDate3_columns]
  rcases h with h | h | ⟨q, hq, h⟩
  · simp [pyFloat, h, bind, Except.bind]
  · simp [pyFloat, h, bind, Except.bind, sec2secMs, secSplitWith]
  · have hs : ∃ us, sec2secMs (.fin q) = .ok (truncRat q, us) := ⟨_, rfl⟩
    obtain ⟨us, hs⟩ := hs
    rcases h with h | ⟨y, mo, d, hh, mi, Y, hc, hY, q1, q2, hna⟩
    · simp [pyFloat, hq, bind, Except.bind, hs, mapInt_none h]
    · have hm : mapInt (dateColumns l) = .ok [y, mo, d, hh, mi] := mapInt_some (by simpa using hc)
      have hall : ∀ v ∈ [y, mo, d, hh, mi], v.natAbs < 100000 := by
        intro v hv
        have : some v ∈ (dateColumns l).map parseInt := by
          rw [hc]; simpa using hv
        obtain ⟨c, hcm, hcv⟩ := List.mem_map.1 this
        exact parseInt_small hcv (dateColumns_short hcm)
      have ht := truncRat_bound (n := 2147483648) (by omega) (by push_cast; exact q1) (by push_cast; exact q2)
      have hus := (secSplit_us_bounds 1 q _ us hs).2
      simp only [List.mem_cons, List.not_mem_nil, or_false, forall_eq_or_imp, forall_eq] at hall
      have hYb : Y.natAbs < 200000 := by
        have := yearMeans_unique hY (yearMeans_full y)
        rw [this]; unfold fullYear; split <;> (try split) <;> omega
      have hfit : FitsC [Y, mo, d, hh, mi, truncRat q, us] := by
        simp only [FitsC, List.mem_cons, forall_eq_or_imp, List.not_mem_nil, false_imp_iff, implies_true, and_true]
        omega
      have := (C01_rejected y mo d hh mi (truncRat q) us Y hY).1 (hna us) hfit
      simp [pyFloat, hq, bind, Except.bind, hs, hm, this]

/-- C18: an unreadable date is not an error: flag and number are read, there is no epoch. (The clock offset behind column 42
must not be one of the words `inf`, `nan`.) -/
theorem C18_unreadable {r : Str} {flag num : Int} (hd : DateUnreadable ('>' :: r))
    {c : Char} (hc : ('>' :: r)[31]? = some c) (hf : parseInt [c] = some flag)
    (hn : parseInt (slice ('>' :: r) 32 35) = some num)
    (hclock : ∀ x ∈ ('>' :: r).drop 42, x ≠ 'n' ∧ x ≠ 'N') :
    parseEpoch3 ('>' :: r) = .ok ⟨none, flag, num⟩ := by
  unfold parseEpoch3
  have : isEpochLine ('>' :: r) = .ok true := rfl
  rw [this]
  simp only [epochDate3_unreadable hd, epochFlag3, hc, hf, hn, clockOffset3_ok hclock]

/-- C18: an unreadable flag or count, and a line without the epoch mark, raise RinexError; the only other error is
OverflowError, when the seconds are huge or the year is past 5000. -/
theorem C18_bad {l : Str} (hne : l ≠ [])
    (hbad : l.head? ≠ some '>' ∨ l[31]? = none ∨ (∃ c, l[31]? = some c ∧ parseInt [c] = none) ∨
      parseInt (slice l 32 35) = none) :
    parseEpoch3 l = .error .rinex ∨
    (parseEpoch3 l = .error .overflow ∧ ((∃ v, parseFloat (slice l 18 29) = some v ∧ Huge v) ∨
      ∃ y, parseInt (slice l 1 6) = some y ∧ 5000 ≤ y.natAbs)) := by
  cases l with
  | nil => exact absurd rfl hne
  | cons a r =>
    unfold parseEpoch3
    by_cases ha : a = '>'
    · subst ha
      have : isEpochLine ('>' :: r) = .ok true := rfl
      rw [this]
      simp only
      cases hdt : epochDate3 ('>' :: r) with
      | ok t =>
        left
        simp only [epochFlag3]
        rcases hbad with h | h | ⟨c, h, h'⟩ | h
        · simp at h
        · simp only [h]
        · simp only [h, h']
        · cases hc : ('>' :: r)[31]? with
          | none => rfl
          | some c =>
            simp only
            cases hp : parseInt [c] with
            | none => rfl
            | some f => simp only [h]
      | error e =>
        right
        simp only
        rw [epochDate3_columns] at hdt
        generalize hx : (do
          let sec ← pyFloat (slice ('>' :: r) 18 29)
          let (s, us) ← sec2secMs sec
          let d ← mapInt (dateColumns ('>' :: r))
          let t ← validateEpoch (d ++ [s, us])
          pure (some t) : Except PyErr (Option DateTime)) = x at hdt
        cases x with
        | ok t => simp at hdt
        | error e' =>
          simp only [catching_error] at hdt
          split at hdt
          · simp at hdt
          · rename_i hne
            simp only [Except.error.injEq] at hdt
            subst hdt
            have hne' : e' ≠ .value := by intro hv; apply hne; simp [hv]
            simp only [bind_eq_error, Prod.exists] at hx
            have hpf : ∀ v, pyFloat (slice ('>' :: r) 18 29) = .ok v → parseFloat (slice ('>' :: r) 18 29) = some v := by
              intro v hv
              unfold pyFloat at hv; split at hv
              · rename_i hpf; simp at hv; rw [hpf, hv]
              · simp at hv
            rcases hx with hx | ⟨v, hv, hx | ⟨s, us, hs, hx | ⟨d, hd, hx | ⟨t, _, hx⟩⟩⟩⟩
            · exact absurd (pyFloat_error hx) hne'
            · cases v with
              | fin q => simp [sec2secMs, secSplitWith] at hx
              | inf n =>
                simp only [sec2secMs, secSplitWith, Except.error.injEq] at hx
                exact ⟨by rw [← hx], Or.inl ⟨_, hpf _ hv, trivial⟩⟩
              | nan =>
                simp only [sec2secMs, secSplitWith, Except.error.injEq] at hx
                exact absurd hx.symm hne'
            · exact absurd (mapInt_error hx) hne'
            · cases v with
              | inf n => simp [sec2secMs, secSplitWith] at hs
              | nan => simp [sec2secMs, secSplitWith] at hs
              | fin q =>
                obtain ⟨rfl, hus⟩ := secSplit_us_bounds 1 q s us hs
                obtain ⟨hlen, hb⟩ := mapInt_ok hd
                have hb5 := hb 5 fun s hs => dateColumns_short hs
                match d, hlen, hb5 with
                | [y, mo, dd, hh, mi], _, hb5 =>
                  have hov : e' = .overflow := by
                    rcases validateEpoch_errors _ _ _ _ _ _ _ _ hx with h | h
                    · exact absurd h hne'
                    · exact h
                  refine ⟨by rw [hov], ?_⟩
                  by_cases hq : Huge (.fin q)
                  · exact Or.inl ⟨_, hpf _ hv, hq⟩
                  · right
                    cases hy1 : parseInt (slice ('>' :: r) 1 6) with
                    | none =>
                      rw [mapInt_none ⟨_, by simp [dateColumns], hy1⟩] at hd
                      simp at hd
                    | some y1 =>
                      refine ⟨y1, rfl, ?_⟩
                      have hyy : y1 = y := by
                        simp only [dateColumns, mapInt, pyInt, hy1, ok_bind, bind_eq_ok, pure_eq_ok] at hd
                        obtain ⟨_, _, hd⟩ := hd
                        simp only [List.cons.injEq] at hd
                        exact hd.1
                      subst hyy
                      by_contra hlt
                      simp only [Huge, not_or, not_le] at hq
                      have ht := truncRat_bound (n := 2147483648) (by omega) (by push_cast; exact hq.1)
                        (by push_cast; exact hq.2)
                      have h3 : ∀ c ∈ [slice ('>' :: r) 6 9, slice ('>' :: r) 9 12, slice ('>' :: r) 12 15,
                          slice ('>' :: r) 15 18], ∀ v, parseInt c = some v → v.natAbs < 1000 := by
                        intro c hc v hv
                        have : c.length ≤ 3 := by
                          simp only [List.mem_cons, List.not_mem_nil, or_false] at hc
                          rcases hc with rfl | rfl | rfl | rfl <;> exact (slice_length_le ..).trans (by omega)
                        have := parseInt_bound hv this
                        norm_num at this; exact this
                      have hints : ∀ a b c d e, mapInt (dateColumns ('>' :: r)) = .ok [a, b, c, d, e] →
                          parseInt (slice ('>' :: r) 6 9) = some b ∧ parseInt (slice ('>' :: r) 9 12) = some c ∧
                          parseInt (slice ('>' :: r) 12 15) = some d ∧ parseInt (slice ('>' :: r) 15 18) = some e := by
                        intro a b c d e h
                        have pi : ∀ s v, pyInt s = .ok v → parseInt s = some v := by
                          intro s v hv
                          unfold pyInt at hv
                          split at hv
                          · rename_i hpi; simp at hv; rw [hpi, hv]
                          · simp at hv
                        simp only [dateColumns, mapInt, bind_eq_ok, pure_eq_ok, Except.ok.injEq] at h
                        obtain ⟨_, _, _, ⟨_, h1, _, ⟨_, h2, _, ⟨_, h3, _, ⟨_, h4, _, rfl, rfl⟩, rfl⟩, rfl⟩, rfl⟩, h⟩ := h
                        simp only [List.cons.injEq, and_true] at h
                        obtain ⟨_, rfl, rfl, rfl, rfl⟩ := h
                        exact ⟨pi _ _ h1, pi _ _ h2, pi _ _ h3, pi _ _ h4⟩
                      obtain ⟨i1, i2, i3, i4⟩ := hints _ _ _ _ _ hd
                      have := validateEpoch_no_overflow (y := y1) (mo := mo) (d := dd) (h := hh) (mi := mi)
                        (s := truncRat q) (us := us) (by omega) (h3 _ (by simp) _ i1)
                        (h3 _ (by simp) _ i2) (h3 _ (by simp) _ i3) (h3 _ (by simp) _ i4) (by omega) hus e' (by simpa using hx)
                      exact hne' this
            · simp [pure, Except.pure] at hx
    · left
      have : isEpochLine (a :: r) = .ok false := by simp [isEpochLine, ha]
      rw [this]

example : DateUnreadable ('>' :: c% " 2017 13 01 00 00  0.0000000  0  5") := by
  refine Or.inr (Or.inr ⟨0, by decide +kernel, Or.inr ⟨2017, 13, 1, 0, 0, 2017, by decide +kernel,
    by unfold YearMeans; omega, by norm_num, by norm_num, ?_⟩⟩)
  rintro us ⟨_, _, _, h, _⟩
  rw [legalDate_iff] at h
  revert h; decide

/-! ## C19: satellite lines -/

/-- C19: a written satellite line decodes into the satellite and one triple per field, for any number of fields. -/
theorem C19_written {m : SysMap} {ch : List (Nat × Nat)} (hch : dataChunks3 m = .ok ch) {s : SatId} {fs : List Field}
    {ts : List Str} (hs : s.Ok3) (hfs : ∀ f ∈ fs, f.Ok) (hm : m.get? [s.sys] = some ts) (hlen : fs.length = ts.length)
    {l : Str} (hl : SameLine l (satLine s fs)) :
    parseObs3 m ch l = .ok (s.name3, fs.map Field.says3) := parseObs3_render hch hs hfs hm hlen hl

/-- the number written in a text, zero if there is none -/
def numberOr0 (s : Str) : PyFloat := (parseFloat s).getD (.fin 0)

/-- an indicator column, zero if it holds no digit -/
def digitOr0 (c : Option Char) : Int :=
  match c with
  | none => 0
  | some c => (parseInt [c]).getD 0

/-- C19, any text: exactly as many triples as the system has types; field `k` is what stands in columns `4+16k .. 19+16k`:
fourteen columns of value, two indicators; whatever is missing or unreadable is zero; blanks of the satellite's name become
zeros. -/
theorem C19_columns {m : SysMap} {ch : List (Nat × Nat)} (hch : dataChunks3 m = .ok ch) {c : Char} {r : Str}
    (hc : c ≠ ' ') {ts : List Str} (hm : m.get? [c] = some ts) :
    ∃ d, parseObs3 m ch (c :: r) = .ok (((c :: r).take 3).map (fun x => if x = ' ' then '0' else x), d) ∧
      d.length = ts.length ∧ ∀ k, k < ts.length →
        d[k]? = some (numberOr0 (slice (c :: r) (3 + 16 * k) (17 + 16 * k)), digitOr0 (c :: r)[17 + 16 * k]?,
          digitOr0 (c :: r)[18 + 16 * k]?) := by
  refine ⟨(List.range ts.length).map fun k => parseChunk3 (slice (c :: r) (3 + 16 * k) (3 + 16 * (k + 1))), ?_, by simp, ?_⟩
  · unfold parseObs3
    have hrep : replaceChar ' ' '0' ((c :: r).take 3) = c :: (r.take 2).map (fun x => if x = ' ' then '0' else x) := by
      simp [replaceChar, hc]
    rw [hrep]
    simp only [hm]
    rw [parseChunks3_map]
    · simp [hc]
    · intro k hk
      exact dataChunks3_get hch hm (List.mem_range.1 hk)
  · intro k hk
    rw [List.getElem?_map, List.getElem?_range hk]
    simp only [Option.map_some, Option.some.injEq]
    rw [parseChunk3_eq]
    have h14 : (slice (c :: r) (3 + 16 * k) (3 + 16 * (k + 1))).take 14 = slice (c :: r) (3 + 16 * k) (17 + 16 * k) := by
      simp only [slice]
      rw [List.take_take]
      congr 1; omega
    have hi : ∀ i, i < 16 → (slice (c :: r) (3 + 16 * k) (3 + 16 * (k + 1)))[i]? = (c :: r)[3 + 16 * k + i]? := by
      intro i hi
      simp only [slice]
      rw [List.getElem?_take_of_lt (by omega), List.getElem?_drop]
    rw [h14, indicator3_eq, indicator3_eq, hi 14 (by omega), hi 15 (by omega)]
    rw [show 3 + 16 * k + 14 = 17 + 16 * k by omega, show 3 + 16 * k + 15 = 18 + 16 * k by omega]
    rfl

/-- C19: a line of a system without types raises RinexError; so does an empty line. -/
theorem C19_unknown {m : SysMap} {ch : List (Nat × Nat)} {c : Char} {r : Str} (hc : c ≠ ' ') (hm : m.get? [c] = none) :
    parseObs3 m ch (c :: r) = .error .rinex ∧ parseObs3 m ch [] = .error .rinex := by
  refine ⟨?_, by simp [parseObs3, replaceChar]⟩
  unfold parseObs3
  have hrep : replaceChar ' ' '0' ((c :: r).take 3) = c :: (r.take 2).map (fun x => if x = ' ' then '0' else x) := by
    simp [replaceChar, hc]
  rw [hrep]
  simp only [hm]

/-- the column table exists as soon as one system is announced -/
theorem dataChunks3_total {m : SysMap} (h : m ≠ []) : ∃ ch, dataChunks3 m = .ok ch := by
  unfold dataChunks3
  cases m with
  | nil => exact absurd rfl h
  | cons p m => exact ⟨_, rfl⟩

/-! ## C20: bodies -/

/-- what a record says: epoch, satellite, values by type -/
def triple3 (r : Rec3) : Option DateTime × Str × List (Str × (PyFloat × Int × Int)) := (r.epoch, r.sat, r.data)

/-- what a body says: epochs contribute their records, events nothing -/
def bodyRecords3 (m : TypeMap) : List Item3 → List (DateTime × Str × List (Str × (PyFloat × Int × Int)))
  | [] => []
  | .obs e :: r => e.records m ++ bodyRecords3 m r
  | .event _ :: r => bodyRecords3 m r

/-- C20: for every type map and every sequence of epochs and events (other than header events), reading the written body
yields exactly one record per epoch and satellite, in file order, every value under its own type; the header values stay as
they are and reading ends normally. -/
theorem C20_body (v : Nat) (m : TypeMap) (o : Obj3) (hsys : o.sys = asSys m) (ch : List (Nat × Nat))
    (hch : dataChunks3 o.sys = .ok ch) (items : List Item3) (hok : ∀ i ∈ items, i.Ok m)
    (hev : ∀ e, Item3.event e ∈ items → e.flag ≠ 4) (ls : List Str) (hw : Written ls (bodyLines3 items))
    (hne : ∀ l ∈ ls, l ≠ []) :
    (readRecords3 v ch o ls).yields.map (fun y => triple3 y.1) =
      (bodyRecords3 m items).map (fun t => (some t.1, t.2.1, t.2.2)) ∧
    (∀ y ∈ (readRecords3 v ch o ls).yields, y.2 = o) ∧ (readRecords3 v ch o ls).stop = .ok o := by
  obtain ⟨bs, rfl, rfl, hb⟩ := blocks_of_written items hok ls hw hne
  rw [hsys] at hch
  unfold readRecords3
  have hno : ∀ e ls, (Item3.event e, ls) ∈ bs → e.flag ≠ 4 := fun e ls h => hev e (List.mem_map.2 ⟨_, h, rfl⟩)
  rw [readLoop3_blocks hch bs hb none [] o (Or.inl hno) hsys]
  clear hw hne hev hok hb
  generalize ([] : List Str) = special
  induction bs generalizing special with
  | nil => simp [blockRun, bodyRecords3]
  | cons b bs ih =>
    obtain ⟨i, ls⟩ := b
    have hno' : ∀ e ls, (Item3.event e, ls) ∈ bs → e.flag ≠ 4 := fun e ls h => hno e ls (by simp [h])
    cases i with
    | obs e =>
      obtain ⟨h1, h2, h3⟩ := ih hno' special
      refine ⟨?_, ?_, ?_⟩
      · simp only [blockRun, List.map_append, h1, List.map_cons, bodyRecords3, List.map_map]
        congr 1
        simp [recs3, Ep3.records, triple3, Function.comp_def]
      · intro y hy
        simp only [blockRun, List.mem_append, List.mem_map] at hy
        rcases hy with ⟨r, _, rfl⟩ | hy
        · rfl
        · exact h2 y hy
      · simpa only [blockRun] using h3
    | event e =>
      have h4 := hno e ls (by simp)
      have ha : afterEvent v e (special ++ ls.drop 1) o = .ok o := by
        unfold afterEvent; rw [if_neg (fun h => h4 h.1)]
      simp only [blockRun, ha, List.map_cons, bodyRecords3]
      exact ih hno' _

/-! Hypotheses are met: two systems, two epochs, an event between them. -/

def exMap : TypeMap := [('G', [c% "C1C", c% "L1C"]), ('R', [c% "C1P"])]
def exItems3 : List Item3 :=
  [.obs ⟨⟨2017, 2, 28, 23, 59, 59, 999999⟩, 0, 0, none, [(⟨'G', 5, false⟩, [.val 20000000123 none (some 7), .blank]), (⟨'R', 12, true⟩, [.val (-1500) none none])]⟩,
   .event ⟨none, 5, none, [c% "external event"]⟩,
   .obs ⟨⟨2017, 3, 1, 0, 0, 30, 0⟩, 0, 1, some (-123456789), [(⟨'G', 31, false⟩, [.blank, .val 5 (some 1) none])]⟩]

theorem exItems3_ok : ∀ i ∈ exItems3, i.Ok exMap := by
  have f1 : (Field.val 20000000123 none (some 7)).Ok := ⟨by decide +kernel, by simp, by simp⟩
  have f2 : (Field.val (-1500) none none).Ok := ⟨by decide +kernel, by simp, by simp⟩
  have f3 : (Field.val 5 (some 1) none).Ok := ⟨by decide +kernel, by simp, by simp⟩
  intro i hi
  simp only [exItems3, List.mem_cons, List.not_mem_nil, or_false] at hi
  rcases hi with rfl | rfl | rfl
  · refine ⟨⟨(legal_iff _).2 (by decide), by decide, by decide⟩, by decide, by decide, ?_⟩
    intro s hs
    simp only [List.mem_cons, List.not_mem_nil, or_false] at hs
    rcases hs with rfl | rfl
    · refine ⟨by unfold SatId.Ok3; decide, ⟨_, rfl, by decide, rfl⟩, ?_⟩
      intro f hf
      simp only [List.mem_cons, List.not_mem_nil, or_false] at hf
      rcases hf with rfl | rfl
      · exact f1
      · trivial
    · refine ⟨by unfold SatId.Ok3; decide, ⟨_, rfl, by decide, rfl⟩, ?_⟩
      intro f hf
      simp only [List.mem_cons, List.not_mem_nil, or_false] at hf
      subst hf
      exact f2
  · refine ⟨trivial, by decide, by decide, by decide, ?_⟩
    decide
  · refine ⟨⟨(legal_iff _).2 (by decide), by decide, by decide⟩, by decide, by decide, ?_⟩
    intro s hs
    simp only [List.mem_cons, List.not_mem_nil, or_false] at hs
    subst hs
    refine ⟨by unfold SatId.Ok3; decide, ⟨_, rfl, by decide, rfl⟩, ?_⟩
    intro f hf
    simp only [List.mem_cons, List.not_mem_nil, or_false] at hf
    rcases hf with rfl | rfl
    · trivial
    · exact f3

end Verif.Props
