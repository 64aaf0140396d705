import Verif.Proofs.Names
import Verif.Proofs.Calendar
import Verif.Props.Time
/-!
# Properties C37, C02: dates from file names
-/
namespace Verif.Props
open Verif.Py Verif.Model Verif.Spec Verif.Proofs

theorem legal_jan1 {y : Nat} (h1 : 1 ≤ y) (h2 : y ≤ 9999) : LegalDate y 1 1 := by
  rw [legalDate_iff]; refine ⟨h1, h2, by omega, by omega, by omega, ?_⟩
  have := daysInMonth_pos y 1; omega

theorem yearDay_iff (y n : Nat) (d : Date) (hy : y < 10000) :
    yearDay y n = some d ↔ 1 ≤ n ∧ n ≤ 366 ∧ 1 ≤ y ∧ LegalDate d.year d.month d.day ∧
      dayNumber d.year d.month d.day = dayNumber y 1 1 + (n - 1) := by
  unfold yearDay
  split
  · rename_i hc
    have hj := legal_jan1 hc.2.2 (show y ≤ 9999 by omega)
    have hb := ymd2ord_bounds ((legalDate_iff _ _ _).1 hj)
    have hj' := dayNumber_eq hj
    rw [hj']
    simp only
    split
    · rename_i ho
      have hs := ord2ymd_spec (ymd2ord y 1 1 + (n - 1)) (by omega) ho
      constructor
      · intro h
        simp only [Option.some.injEq] at h
        subst h
        simp only
        have hl := (legalDate_iff _ _ _).2 hs.1
        exact ⟨hc.1, hc.2.1, hc.2.2, hl, by rw [dayNumber_eq hl]; exact hs.2⟩
      · rintro ⟨-, -, -, hl, he⟩
        rw [dayNumber_eq hl] at he
        have := ord2ymd_ymd2ord ((legalDate_iff _ _ _).1 hl)
        rw [he] at this
        rw [this]
    · rename_i ho
      simp only [reduceCtorEq, false_iff]
      rintro ⟨-, -, -, hl, he⟩
      rw [dayNumber_eq hl] at he
      have := ymd2ord_bounds ((legalDate_iff _ _ _).1 hl)
      omega
  · rename_i hc
    simp only [reduceCtorEq, false_iff]
    rintro ⟨h1, h2, h3, -⟩
    exact hc ⟨h1, h2, h3⟩

theorem nameYear_iff (yy y : Nat) : NameYear yy y ↔ y = posixYear yy := by
  unfold NameYear posixYear; split <;> omega

theorem classic_of_name {name : Str} {yy n : Nat} (h : ClassicName name yy n) :
    ∃ h, reClassic.match1 name = some h ∧ h.group 2 = dig3 n ∧ h.group 3 = dig2 yy := by
  obtain ⟨st, se, c, t, e, h1, h2, h3, h4, h5⟩ := h
  have e' : name = st ++ (dig3 n ++ (se ++ '.' :: (dig2 yy ++ c :: t))) := by rw [e]; simp
  apply Re.match1_ex
  · rw [Re.accepts_iff]
    exact ⟨_, (mem_classic _ _).2 ⟨st, dig3 n, se, dig2 yy, c, t, e', h1, dig3_digits n, h3, dig2_digits yy, h5, rfl⟩, trivial⟩
  · intro h hm
    exact classic_groups hm e' h1 (dig3_digits n) h3 (dig2_digits yy)

theorem name_of_classic {name : Str} {h : Hit} (hm : reClassic.match1 name = some h) :
    ∃ yy n, ClassicName name yy n ∧ yy < 100 ∧ n < 1000 ∧ h.group 2 = dig3 n ∧ h.group 3 = dig2 yy := by
  obtain ⟨st, d, se, y, c, t, e, h1, h2, h3, h4, h5, rfl⟩ := (mem_classic _ _).1 (Re.match1_some hm)
  obtain ⟨n, hn, rfl⟩ := dig3_of h2
  obtain ⟨yy, hy, rfl⟩ := dig2_of h4
  exact ⟨yy, n, ⟨st, se, c, t, by rw [e]; simp, h1, hn, h3, hy, h5⟩, hy, hn, rfl, rfl⟩

theorem modern_of_name {name : Str} {y n : Nat} (h : LongName name y n) :
    ∃ h, reModern.match1 name = some h ∧ h.group 2 = dig4 y ∧ h.group 3 = dig3 n := by
  obtain ⟨st, m, c, tm, t, e, h1, h2, h3, h4, h5, h6⟩ := h
  have e' : name = st ++ (m ++ '_' :: c :: '_' :: (dig4 y ++ (dig3 n ++ (tm ++ t)))) := by rw [e]; simp
  apply Re.match1_ex
  · rw [Re.accepts_iff]
    exact ⟨_, (mem_modern _ _).2 ⟨st, m, c, dig4 y, dig3 n, tm, t, e', h1, h2, h3, dig4_digits y, dig3_digits n, h6, rfl⟩, trivial⟩
  · intro h hm
    exact modern_groups hm e' h1 h2 (dig4_digits y) (dig3_digits n)

theorem name_of_modern {name : Str} {h : Hit} (hm : reModern.match1 name = some h) :
    ∃ y n, LongName name y n ∧ y < 10000 ∧ n < 1000 ∧ h.group 2 = dig4 y ∧ h.group 3 = dig3 n := by
  obtain ⟨st, m, c, y, d, tm, t, e, h1, h2, h3, h4, h5, h6, rfl⟩ := (mem_modern _ _).1 (Re.match1_some hm)
  obtain ⟨n, hn, rfl⟩ := dig3_of h5
  obtain ⟨yy, hy, rfl⟩ := dig4_of h4
  exact ⟨yy, n, ⟨st, m, c, tm, t, by rw [e]; simp, h1, h2, h3, hy, hn, h6⟩, hy, hn, rfl, rfl⟩

theorem dig3_inj {a b : Nat} (ha : a < 1000) (hb : b < 1000) (h : dig3 a = dig3 b) : a = b := by
  rw [← digitsVal_dig3 ha, h, digitsVal_dig3 hb]
theorem dig2_inj {a b : Nat} (ha : a < 100) (hb : b < 100) (h : dig2 a = dig2 b) : a = b := by
  rw [← digitsVal_dig2 ha, h, digitsVal_dig2 hb]
theorem dig4_inj {a b : Nat} (ha : a < 10000) (hb : b < 10000) (h : dig4 a = dig4 b) : a = b := by
  rw [← digitsVal_dig4 ha, h, digitsVal_dig4 hb]

/-- a name announces at most one day -/
theorem nameSays_unique {name : Str} {y n y' n' : Nat} (h : NameSays name y n) (h' : NameSays name y' n') :
    y = y' ∧ n = n' := by
  rcases h with ⟨yy, hc, hy⟩ | hl <;> rcases h' with ⟨yy', hc', hy'⟩ | hl'
  · obtain ⟨k, m1, g1, g2⟩ := classic_of_name hc
    obtain ⟨k', m2, g3, g4⟩ := classic_of_name hc'
    rw [m1] at m2; simp only [Option.some.injEq] at m2; subst m2
    obtain ⟨_, _, _, _, _, _, l1, _, l2, _⟩ := hc
    obtain ⟨_, _, _, _, _, _, l3, _, l4, _⟩ := hc'
    have := dig3_inj l1 l3 (g1.symm.trans g3)
    have := dig2_inj l2 l4 (g2.symm.trans g4)
    subst this
    rw [nameYear_iff] at hy hy'
    exact ⟨by rw [hy, hy'], by assumption⟩
  · obtain ⟨k, m1, g1, g2⟩ := classic_of_name hc
    obtain ⟨k', m2, g3, g4⟩ := modern_of_name hl'
    have ha : reClassic.accepts name = true := by
      rw [← Bool.not_eq_false, ← Re.match1_none, m1]; simp
    have := classic_not_modern ha
    rw [← Re.match1_none, m2] at this; simp at this
  · obtain ⟨k, m1, g1, g2⟩ := classic_of_name hc'
    obtain ⟨k', m2, g3, g4⟩ := modern_of_name hl
    have ha : reClassic.accepts name = true := by
      rw [← Bool.not_eq_false, ← Re.match1_none, m1]; simp
    have := classic_not_modern ha
    rw [← Re.match1_none, m2] at this; simp at this
  · obtain ⟨k, m1, g1, g2⟩ := modern_of_name hl
    obtain ⟨k', m2, g3, g4⟩ := modern_of_name hl'
    rw [m1] at m2; simp only [Option.some.injEq] at m2; subst m2
    obtain ⟨_, _, _, _, _, _, _, _, _, l2, l1, _⟩ := hl
    obtain ⟨_, _, _, _, _, _, _, _, _, l4, l3, _⟩ := hl'
    exact ⟨dig4_inj l2 l4 (g1.symm.trans g3), dig3_inj l1 l3 (g2.symm.trans g4)⟩

/-- what `get_rinex_date` computes -/
theorem getRinexDate_says {path name : Str} {y n : Nat} (hp : LastComponent path name) (h : NameSays name y n) :
    getRinexDate path = yearDay y n ∧ y < 10000 := by
  unfold getRinexDate
  rw [basename_of_last hp]
  simp only
  rcases h with ⟨yy, hc, hy⟩ | hl
  · obtain ⟨k, m1, g1, g2⟩ := classic_of_name hc
    obtain ⟨_, _, _, _, _, _, l1, _, l2, _⟩ := hc
    rw [nameYear_iff] at hy
    rw [m1]
    simp only [g1, g2, digitsVal_dig2 l2, digitsVal_dig3 l1, hy]
    refine ⟨trivial, ?_⟩
    unfold posixYear; split <;> omega
  · obtain ⟨k', m2, g3, g4⟩ := modern_of_name hl
    have : reClassic.match1 name = none := by
      rw [Re.match1_none, ← Bool.not_eq_true]
      intro ha
      have := classic_not_modern ha
      rw [← Re.match1_none, m2] at this; simp at this
    obtain ⟨_, _, _, _, _, _, _, _, _, l2, l1, _⟩ := hl
    rw [this, m2]
    simp only [g3, g4, digitsVal_dig4 l2, digitsVal_dig3 l1]
    exact ⟨trivial, l2⟩

theorem getRinexDate_silent {path name : Str} (hp : LastComponent path name) (h : ∀ y n, ¬ NameSays name y n) :
    getRinexDate path = none := by
  unfold getRinexDate
  rw [basename_of_last hp]
  simp only
  cases hc : reClassic.match1 name with
  | some k =>
    obtain ⟨yy, n, hn, -⟩ := name_of_classic hc
    exact absurd (Or.inl ⟨yy, hn, (nameYear_iff _ _).2 rfl⟩) (h (posixYear yy) n)
  | none =>
    cases hm : reModern.match1 name with
    | some k =>
      obtain ⟨y, n, hn, -⟩ := name_of_modern hm
      exact absurd (Or.inr hn) (h y n)
    | none => rfl

/-- C37: the date of a file is `d` exactly when the last component of its path announces day `n` (1..366) of year `y`
and `d` is the calendar date `n - 1` days after January 1st of `y`. Any other name gives no date. -/
theorem C37_date (path name : Str) (hp : LastComponent path name) (d : Date) :
    getRinexDate path = some d ↔ ∃ y n, NameSays name y n ∧ 1 ≤ y ∧ 1 ≤ n ∧ n ≤ 366 ∧
      LegalDate d.year d.month d.day ∧ dayNumber d.year d.month d.day = dayNumber y 1 1 + (n - 1) := by
  constructor
  · intro h
    by_cases hs : ∃ y n, NameSays name y n
    · obtain ⟨y, n, hs⟩ := hs
      obtain ⟨e, l⟩ := getRinexDate_says hp hs
      rw [e, yearDay_iff _ _ _ l] at h
      exact ⟨y, n, hs, h.2.2.1, h.1, h.2.1, h.2.2.2⟩
    · rw [getRinexDate_silent hp (fun y n hn => hs ⟨y, n, hn⟩)] at h
      simp at h
  · rintro ⟨y, n, hs, h1, h2, h3, h4⟩
    obtain ⟨e, l⟩ := getRinexDate_says hp hs
    rw [e, yearDay_iff _ _ _ l]
    exact ⟨h2, h3, h1, h4⟩

theorem daysOfYearsBefore_succ (y : Nat) (h : 1 ≤ y) : daysOfYearsBefore (y + 1) = daysOfYearsBefore y + yearDays y := by
  cases y with
  | zero => omega
  | succ y => rfl

theorem dayNumber_jan1 (y : Nat) : dayNumber y 1 1 = daysOfYearsBefore y + 1 := by simp [dayNumber]

theorem dayNumber_year {y m d : Nat} (h : LegalDate y m d) :
    daysOfYearsBefore y < dayNumber y m d ∧ dayNumber y m d ≤ daysOfYearsBefore (y + 1) := by
  have hv := (legalDate_iff _ _ _).1 h
  have hd := doy_le y m d hv
  rw [dayNumber_eq h]
  have e1 := daysOfYearsBefore_eq y hv.1
  have e2 := daysOfYearsBefore_succ y hv.1
  rw [yearDays_eq] at e2
  unfold ymd2ord
  have := hv.2.2.2.2.1
  omega

/-- a legal date whose day number is `n` days into year `y` is a date of `y` -/
theorem day_of_year {Y M D y n : Nat} (hl : LegalDate Y M D) (hy : 1 ≤ y) (h1 : 1 ≤ n) (h2 : n ≤ yearDays y)
    (he : dayNumber Y M D = daysOfYearsBefore y + n) : Y = y ∧ ((monthDays y).take (M - 1)).sum + D = n := by
  have hd := dayNumber_year hl
  have hb' := daysOfYearsBefore_succ y hy
  have hY := hl.1
  have : Y = y := by
    rcases Nat.lt_trichotomy Y y with h | h | h
    · have := daysBeforeYear_mono (a := Y + 1) (b := y) (by omega) (by omega)
      rw [← daysOfYearsBefore_eq _ (by omega), ← daysOfYearsBefore_eq _ (by omega)] at this
      omega
    · exact h
    · have := daysBeforeYear_mono (a := y + 1) (b := Y) (by omega) (by omega)
      rw [← daysOfYearsBefore_eq _ (by omega), ← daysOfYearsBefore_eq _ (by omega)] at this
      omega
  subst this
  refine ⟨rfl, ?_⟩
  unfold dayNumber at he
  omega

/-- C37, inside the year: a day of the year that the year has gives a date of that very year, with that day of the year. -/
theorem C37_same_year (path name : Str) (hp : LastComponent path name) (y n : Nat) (hs : NameSays name y n)
    (hy : 1 ≤ y) (h1 : 1 ≤ n) (h2 : n ≤ yearDays y) :
    ∃ d, getRinexDate path = some d ∧ LegalDate d.year d.month d.day ∧ d.year = y ∧
      ((monthDays y).take (d.month - 1)).sum + d.day = n := by
  obtain ⟨e, l⟩ := getRinexDate_says hp hs
  have hn : n ≤ 366 := by unfold yearDays at h2; split at h2 <;> omega
  have hj := legal_jan1 hy (show y ≤ 9999 by omega)
  have hb := daysOfYearsBefore_eq y hy
  have hb' := daysOfYearsBefore_succ y hy
  have hlast : daysOfYearsBefore (y + 1) ≤ 3652059 := by
    rw [daysOfYearsBefore_eq _ (by omega)]
    have h2 := daysBeforeYear_mono (a := y + 1) (b := 10000) (by omega) (by omega)
    have h3 : daysBeforeYear 10000 = 3652059 := by decide
    omega
  have hs := ord2ymd_spec (dayNumber y 1 1 + (n - 1)) (by rw [dayNumber_jan1]; omega) (by rw [dayNumber_jan1]; omega)
  have hl := (legalDate_iff _ _ _).2 hs.1
  have hnum := hs.2
  rw [← dayNumber_eq hl] at hnum
  obtain ⟨k1, k2⟩ := day_of_year hl hy h1 h2 (by rw [hnum, dayNumber_jan1]; omega)
  exact ⟨⟨_, _, _⟩, (by rw [e, yearDay_iff _ _ _ l]; exact ⟨h1, hn, hy, hl, hnum⟩), hl, k1, k2⟩

/-- C37, day 366 of a common year is January 1st of the next year. -/
theorem C37_day_366 (path name : Str) (hp : LastComponent path name) (y : Nat) (hs : NameSays name y 366)
    (hy : 1 ≤ y) (hl : ¬ Leap y) (h9 : y < 9999) : getRinexDate path = some ⟨y + 1, 1, 1⟩ := by
  rw [C37_date path name hp]
  refine ⟨y, 366, hs, hy, by omega, by omega, legal_jan1 (y := y + 1) (by omega) (by omega), ?_⟩
  rw [dayNumber_jan1, dayNumber_jan1, daysOfYearsBefore_succ y hy, yearDays, if_neg hl]

/-- C37, days 0 and 367..999 give no date. -/
theorem C37_bad_day (path name : Str) (hp : LastComponent path name) (y n : Nat) (hs : NameSays name y n)
    (hn : n = 0 ∨ 366 < n) : getRinexDate path = none := by
  cases h : getRinexDate path with
  | none => rfl
  | some d =>
    rw [C37_date path name hp] at h
    obtain ⟨y', n', hs', h1, h2, h3, -⟩ := h
    have := nameSays_unique hs hs'
    omega

/-- C37, a name of neither shape gives no date. -/
theorem C37_other_name (path name : Str) (hp : LastComponent path name) (h : ∀ y n, ¬ NameSays name y n) :
    getRinexDate path = none := getRinexDate_silent hp h

/-- the hypotheses are met: `/data/irkj0010.17o.Z` is January 1st, 2017 -/
example : LastComponent (c% "/data/irkj0010.17o.Z") (c% "irkj0010.17o.Z") ∧
    NameSays (c% "irkj0010.17o.Z") 2017 1 := by
  refine ⟨⟨by decide, Or.inr ⟨c% "/data", by decide⟩⟩, Or.inl ⟨17, ⟨c% "irkj", c% "0", 'o', c% ".Z", by decide, ⟨by decide, by decide⟩, by decide,
    Or.inl ⟨by decide, by decide⟩, by decide, 'o', by decide, by decide⟩, ⟨by omega, by omega⟩⟩⟩

example : getRinexDate (c% "/data/irkj0010.17o.Z") = some ⟨2017, 1, 1⟩ := by decide
example : getRinexDate (c% "IRKJ00RUS_R_20203660000_01D_30S_MO.crx.gz") = some ⟨2020, 12, 31⟩ := by decide
example : getRinexDate (c% "irkj3660.17o") = some ⟨2018, 1, 1⟩ := by decide

/-! ## C02 -/

/-- C02: the year read in the epochs of a file and the year of its name (both written with the two digits `yy`) are the same
exactly when `yy` is outside 69..88. -/
theorem C02_years (yy : Nat) (h : yy < 100) (Y : Int) (y : Nat) (hY : YearMeans yy Y) (hy : NameYear yy y) :
    Y = y ↔ ¬ (69 ≤ yy ∧ yy ≤ 88) := by
  unfold YearMeans NameYear at *
  omega

/-- C02, seen through the two readers: an epoch of the day announced by a classic file name is read as the date of the name
for every two-digit year outside 69..88, and as a date of another year (100 years later) for 69..88. -/
theorem C02_same_day (path name : Str) (hp : LastComponent path name) (yy n : Nat) (hc : ClassicName name yy n)
    (d : Date) (hd : getRinexDate path = some d) (hdy : n ≤ 365)
    (mo da h mi s us : Int) (t : DateTime) (hmo : mo = d.month) (hda : da = d.day)
    (hlt : h < 24 ∧ mi < 60 ∧ s < 60)
    (ht : validateEpoch [(yy : Int), mo, da, h, mi, s, us] = .ok t) :
    (t.year = d.year ↔ ¬ (69 ≤ yy ∧ yy ≤ 88)) ∧
    (69 ≤ yy ∧ yy ≤ 88 → t.year = d.year + 100) ∧ t.month = d.month ∧ t.day = d.day := by
  have hyy : yy < 100 := by obtain ⟨_, _, _, _, _, _, l1, _, l2, _⟩ := hc; exact l2
  have hsays : NameSays name (posixYear yy) n := Or.inl ⟨yy, hc, (nameYear_iff _ _).2 rfl⟩
  -- the year of the name
  have hdyear : d.year = posixYear yy := by
    obtain ⟨y', n', hs', h1, h2, h3, h4, h5⟩ := (C37_date path name hp d).1 hd
    obtain ⟨e1, e2⟩ := nameSays_unique hsays hs'
    subst e1 e2
    obtain ⟨d', g1, g2, g3, -⟩ := C37_same_year path name hp _ n hsays h1 h2
      (by unfold yearDays; split <;> omega)
    rw [g1] at hd
    simp only [Option.some.injEq] at hd
    rw [← hd]; exact g3
  -- the epoch: nothing is carried
  rw [C01_accepted_iff _ _ _ _ _ _ _ _ t (yearMeans_full yy)] at ht
  obtain ⟨⟨a1, a2, a3, a4, a5, a6, a7, a8, a9, a10, a11, a12⟩, b1, b2⟩ := ht
  have hl : Legal ⟨(fullYear yy).toNat, mo.toNat, da.toNat, h.toNat, mi.toNat, s.toNat, us.toNat⟩ := by
    refine ⟨a4, ?_, ?_, ?_, ?_⟩ <;> simp only <;> omega
  have hte : t = ⟨(fullYear yy).toNat, mo.toNat, da.toNat, h.toNat, mi.toNat, s.toNat, us.toNat⟩ := by
    apply instant_inj b1 hl
    rw [b2]
    unfold meant instant
    simp only
    rw [Int.toNat_of_nonneg a5, Int.toNat_of_nonneg a7, Int.toNat_of_nonneg a9, Int.toNat_of_nonneg a11]
  have hfy := yearMeans_full (yy : Int)
  have hny := (nameYear_iff yy (posixYear yy)).2 rfl
  unfold YearMeans at hfy
  unfold NameYear at hny
  rw [hte]
  simp only
  rw [hdyear, hmo, hda]
  refine ⟨?_, ?_, by simp, by simp⟩ <;> omega

example : YearMeans (88 : Nat) 2088 ∧ NameYear 88 1988 := by unfold YearMeans NameYear; omega
example : validateEpoch [75, 1, 1, 0, 0, 0, 0] = .ok ⟨2075, 1, 1, 0, 0, 0, 0⟩ ∧
    getRinexDate (c% "irkj0010.75o") = some ⟨1975, 1, 1⟩ := by decide

end Verif.Props
