import Verif.Py.Num
/-!
# `datetime.datetime` (proleptic Gregorian calendar, years 1..9999)

Follows CPython's `datetime` module (`_ymd2ord`, `_ord2ymd`, addition with `OverflowError`).
-/
namespace Verif.Py

structure DateTime where
  year : Nat
  month : Nat
  day : Nat
  hour : Nat
  minute : Nat
  second : Nat
  micro : Nat
  deriving DecidableEq, Repr

def isLeap (y : Nat) : Bool := y % 4 = 0 && (y % 100 ≠ 0 || y % 400 = 0)

def daysInMonth (y m : Nat) : Nat :=
  if m = 2 then (if isLeap y then 29 else 28)
  else if m = 4 ∨ m = 6 ∨ m = 9 ∨ m = 11 then 30 else 31

/-- days before the month in its (common) year -/
def daysBeforeMonthC (m : Nat) : Nat :=
  match m with
  | 1 => 0 | 2 => 31 | 3 => 59 | 4 => 90 | 5 => 120 | 6 => 151
  | 7 => 181 | 8 => 212 | 9 => 243 | 10 => 273 | 11 => 304 | 12 => 334 | _ => 0

def daysBeforeMonth (y m : Nat) : Nat :=
  daysBeforeMonthC m + (if m > 2 ∧ isLeap y = true then 1 else 0)

/-- days before January 1st of year `y` -/
def daysBeforeYear (y : Nat) : Nat :=
  (y - 1) * 365 + (y - 1) / 4 - (y - 1) / 100 + (y - 1) / 400

/-- `_ymd2ord`: 0001-01-01 is day 1 -/
def ymd2ord (y m d : Nat) : Nat := daysBeforeYear y + daysBeforeMonth y m + d

/-- `_ord2ymd` -/
def ord2ymd (ord : Nat) : Nat × Nat × Nat :=
  let n := ord - 1
  let n400 := n / 146097
  let n := n % 146097
  let n100 := n / 36524
  let n := n % 36524
  let n4 := n / 1461
  let n := n % 1461
  let n1 := n / 365
  let n := n % 365
  let year := n400 * 400 + 1 + n100 * 100 + n4 * 4 + n1
  if n1 = 4 ∨ n100 = 4 then (year - 1, 12, 31)
  else
    let month := (n + 50) / 32
    let preceding := daysBeforeMonth year month
    if preceding > n then
      (year, month - 1, n - (preceding - daysInMonth year (month - 1)) + 1)
    else (year, month, n - preceding + 1)

/-- legal calendar date -/
def validDate (y m d : Nat) : Prop :=
  1 ≤ y ∧ y ≤ 9999 ∧ 1 ≤ m ∧ m ≤ 12 ∧ 1 ≤ d ∧ d ≤ daysInMonth y m

instance (y m d : Nat) : Decidable (validDate y m d) := by unfold validDate; infer_instance

def DateTime.Valid (t : DateTime) : Prop :=
  validDate t.year t.month t.day ∧ t.hour ≤ 23 ∧ t.minute ≤ 59 ∧ t.second ≤ 59 ∧ t.micro ≤ 999999

instance (t : DateTime) : Decidable t.Valid := by unfold DateTime.Valid; infer_instance

/-- microseconds since the (fictitious) day 0 -/
def DateTime.toMicros (t : DateTime) : Nat :=
  (((ymd2ord t.year t.month t.day * 24 + t.hour) * 60 + t.minute) * 60 + t.second) * 1000000 + t.micro

/-- inverse of `toMicros` -/
def DateTime.ofMicros (u : Nat) : DateTime :=
  let us := u % 1000000
  let s := u / 1000000
  let sec := s % 60
  let mi := s / 60
  let min := mi % 60
  let h := mi / 60
  let hour := h % 24
  let (y, m, d) := ord2ymd (h / 24)
  ⟨y, m, d, hour, min, sec, us⟩

/-- microseconds of one day -/
def dayMicros : Nat := 86400000000

/-- first instant of year 1 and last instant of year 9999 -/
def minMicros : Nat := dayMicros
def maxMicros : Nat := 3652059 * dayMicros + 86399999999

/-- `dt + timedelta(microseconds=delta)`; OverflowError outside the years 1..9999 -/
def DateTime.add (t : DateTime) (delta : Int) : Except PyErr DateTime :=
  let u := (t.toMicros : Int) + delta
  if (minMicros : Int) ≤ u ∧ u ≤ maxMicros then .ok (.ofMicros u.toNat) else .error .overflow

/-- `a - b` in microseconds -/
def DateTime.sub (a b : DateTime) : Int := (a.toMicros : Int) - b.toMicros

/-- does the value fit a C `int` (arguments of `datetime.datetime`)? -/
def fitsCInt (i : Int) : Bool := -2147483648 ≤ i && i ≤ 2147483647

/-- the range checks of the `datetime.datetime` constructor -/
def mkDateTime7 (y mo d h mi s us : Int) : Except PyErr DateTime :=
  if !(fitsCInt y && fitsCInt mo && fitsCInt d && fitsCInt h && fitsCInt mi && fitsCInt s && fitsCInt us) then
    .error .overflow
  else if 1 ≤ y ∧ y ≤ 9999 ∧ 1 ≤ mo ∧ mo ≤ 12 ∧ 1 ≤ d ∧ d ≤ daysInMonth y.toNat mo.toNat ∧
      0 ≤ h ∧ h ≤ 23 ∧ 0 ≤ mi ∧ mi ≤ 59 ∧ 0 ≤ s ∧ s ≤ 59 ∧ 0 ≤ us ∧ us ≤ 999999 then
    .ok ⟨y.toNat, mo.toNat, d.toNat, h.toNat, mi.toNat, s.toNat, us.toNat⟩
  else .error .value

/-- `datetime.datetime(*args)` for 3 to 7 integer arguments; TypeError for fewer than three.
(More than seven arguments never occur in the code.) -/
def mkDateTime (args : List Int) : Except PyErr DateTime :=
  match args with
  | [y, mo, d] => mkDateTime7 y mo d 0 0 0 0
  | [y, mo, d, h] => mkDateTime7 y mo d h 0 0 0
  | [y, mo, d, h, mi] => mkDateTime7 y mo d h mi 0 0
  | [y, mo, d, h, mi, s] => mkDateTime7 y mo d h mi s 0
  | [y, mo, d, h, mi, s, us] => mkDateTime7 y mo d h mi s us
  | _ => .error .type

/-! ## Calendar facts -/

theorem isLeap_iff (y : Nat) : isLeap y = true ↔ (y % 4 = 0 ∧ (y % 100 ≠ 0 ∨ y % 400 = 0)) := by
  simp [isLeap]

theorem daysBeforeYear_succ (y : Nat) (h : 1 ≤ y) :
    daysBeforeYear (y + 1) = daysBeforeYear y + (if isLeap y then 366 else 365) := by
  unfold daysBeforeYear
  have e4 : (y + 1 - 1) / 4 = (y - 1) / 4 + (if y % 4 = 0 then 1 else 0) := by split <;> omega
  have e100 : (y + 1 - 1) / 100 = (y - 1) / 100 + (if y % 100 = 0 then 1 else 0) := by split <;> omega
  have e400 : (y + 1 - 1) / 400 = (y - 1) / 400 + (if y % 400 = 0 then 1 else 0) := by split <;> omega
  have hle : (y - 1) / 100 ≤ (y - 1) / 4 := by omega
  have m1 : y % 100 = 0 → y % 4 = 0 := by omega
  have m2 : y % 400 = 0 → y % 100 = 0 := by omega
  rw [e4, e100, e400]
  have hl := isLeap_iff y
  generalize (y - 1) / 4 = a at *
  generalize (y - 1) / 100 = b at *
  generalize (y - 1) / 400 = c at *
  by_cases h4 : y % 4 = 0 <;> by_cases h100 : y % 100 = 0 <;> by_cases h400 : y % 400 = 0 <;>
    simp [h4, h100, h400] at hl m1 m2 ⊢ <;> simp only [hl] <;> simp <;> omega

theorem daysBeforeMonth_succ (y m : Nat) (h1 : 1 ≤ m) (h2 : m ≤ 11) :
    daysBeforeMonth y (m + 1) = daysBeforeMonth y m + daysInMonth y m := by
  have : m = 1 ∨ m = 2 ∨ m = 3 ∨ m = 4 ∨ m = 5 ∨ m = 6 ∨ m = 7 ∨ m = 8 ∨ m = 9 ∨ m = 10 ∨ m = 11 := by omega
  cases hl : isLeap y <;>
  rcases this with h|h|h|h|h|h|h|h|h|h|h <;> subst h <;>
    simp [daysBeforeMonth, daysInMonth, hl, daysBeforeMonthC]

theorem daysInMonth_pos (y m : Nat) : 28 ≤ daysInMonth y m := by
  unfold daysInMonth; repeat' split
  all_goals omega

theorem daysInMonth_le (y m : Nat) : daysInMonth y m ≤ 31 := by
  unfold daysInMonth; repeat' split
  all_goals omega

/-- day of the year stays inside the year -/
theorem doy_le (y m d : Nat) (h : validDate y m d) :
    daysBeforeMonth y m + d ≤ (if isLeap y then 366 else 365) := by
  obtain ⟨_, _, h1, h2, _, h3⟩ := h
  have : m = 1 ∨ m = 2 ∨ m = 3 ∨ m = 4 ∨ m = 5 ∨ m = 6 ∨ m = 7 ∨ m = 8 ∨ m = 9 ∨ m = 10 ∨ m = 11 ∨ m = 12 := by
    omega
  cases hl : isLeap y <;>
  rcases this with h|h|h|h|h|h|h|h|h|h|h|h <;> subst h <;>
    simp [daysBeforeMonth, daysInMonth, hl, daysBeforeMonthC] at h3 ⊢ <;> omega

/-- the month/day part of `ord2ymd` -/
theorem monthDay (y n : Nat) (hn : n < (if isLeap y then 366 else 365)) :
    let month := (n + 50) / 32
    let preceding := daysBeforeMonth y month
    let r : Nat × Nat := if preceding > n then
      (month - 1, n - (preceding - daysInMonth y (month - 1)) + 1) else (month, n - preceding + 1)
    1 ≤ r.1 ∧ r.1 ≤ 12 ∧ 1 ≤ r.2 ∧ r.2 ≤ daysInMonth y r.1 ∧ daysBeforeMonth y r.1 + r.2 = n + 1 := by
  cases hl : isLeap y <;> simp only [hl] at hn <;>
  · have hm : (n + 50) / 32 = 1 ∨ (n + 50) / 32 = 2 ∨ (n + 50) / 32 = 3 ∨ (n + 50) / 32 = 4 ∨ (n + 50) / 32 = 5 ∨
      (n + 50) / 32 = 6 ∨ (n + 50) / 32 = 7 ∨ (n + 50) / 32 = 8 ∨ (n + 50) / 32 = 9 ∨ (n + 50) / 32 = 10 ∨
      (n + 50) / 32 = 11 ∨ (n + 50) / 32 = 12 := by simp at hn; omega
    rcases hm with h|h|h|h|h|h|h|h|h|h|h|h <;>
      (simp only [h, daysBeforeMonth, daysBeforeMonthC, daysInMonth, hl]
       simp at hn ⊢
       first | omega | (split <;> simp <;> omega))

theorem ord2ymd_spec (n : Nat) (h1 : 1 ≤ n) (h2 : n ≤ 3652059) :
    validDate (ord2ymd n).1 (ord2ymd n).2.1 (ord2ymd n).2.2 ∧
    ymd2ord (ord2ymd n).1 (ord2ymd n).2.1 (ord2ymd n).2.2 = n := by
  generalize hk0 : n - 1 = k
  have hnk : n = k + 1 := by omega
  subst hnk
  unfold ord2ymd
  simp only [Nat.add_sub_cancel]
  generalize ha : k / 146097 = a
  generalize hk1 : k % 146097 = k1
  generalize hb : k1 / 36524 = b
  generalize hk2 : k1 % 36524 = k2
  generalize hc : k2 / 1461 = c
  generalize hk3 : k2 % 1461 = k3
  generalize he : k3 / 365 = e
  generalize hk4 : k3 % 365 = k4
  have e0 : k = 146097 * a + k1 := by omega
  have e1 : k1 = 36524 * b + k2 := by omega
  have e2 : k2 = 1461 * c + k3 := by omega
  have e3 : k3 = 365 * e + k4 := by omega
  have b1 : k1 < 146097 := by omega
  have b2 : k2 < 36524 := by omega
  have b3 : k3 < 1461 := by omega
  have b4 : k4 < 365 := by omega
  have bb : b ≤ 4 := by omega
  have bc : c ≤ 24 := by omega
  have be : e ≤ 4 := by omega
  have ba : a ≤ 24 := by omega
  clear ha hk1 hb hk2 hc hk3 he hk4
  split
  · rename_i hsplit
    -- last day of a leap year
    simp only
    generalize hy : a * 400 + 1 + b * 100 + c * 4 + e - 1 = y
    have hleap : isLeap y = true := by
      rw [isLeap_iff]
      rcases hsplit with h | h
      · subst h; 
        have : b ≤ 3 := by omega
        have : k4 = 0 := by omega
        by_cases hc24 : c = 24
        · omega
        · omega
      · subst h
        have : k2 = 0 := by omega
        have : c = 0 := by omega
        have : e = 0 := by omega
        omega
    have hdim : daysInMonth y 12 = 31 := by simp [daysInMonth]
    have hdbm : daysBeforeMonth y 12 = 335 := by simp [daysBeforeMonth, daysBeforeMonthC, hleap]
    have hyb : 1 ≤ y ∧ y ≤ 9999 := by
      rcases hsplit with h | h
      · omega
      · have : k2 = 0 := by omega
        omega
    refine ⟨⟨hyb.1, hyb.2, by omega, by omega, by omega, by omega⟩, ?_⟩
    unfold ymd2ord
    rw [hdbm]
    unfold daysBeforeYear
    rcases hsplit with h | h
    · subst h
      have : b ≤ 3 := by omega
      have : k4 = 0 := by omega
      have : c ≤ 23 := by omega
      have q1 : (y - 1) / 4 = 100 * a + 25 * b + c := by omega
      have q2 : (y - 1) / 100 = 4 * a + b := by omega
      have q3 : (y - 1) / 400 = a := by omega
      rw [q1, q2, q3]; omega
    · subst h
      have : k2 = 0 := by omega
      have : c = 0 := by omega
      have : e = 0 := by omega
      have q1 : (y - 1) / 4 = 100 * a + 99 := by omega
      have q2 : (y - 1) / 100 = 4 * a + 3 := by omega
      have q3 : (y - 1) / 400 = a := by omega
      rw [q1, q2, q3]; omega
  · rename_i hsplit
    have he3 : e ≤ 3 := by omega
    have hb3 : b ≤ 3 := by omega
    generalize hy : a * 400 + 1 + b * 100 + c * 4 + e = y
    have hyb : 1 ≤ y ∧ y ≤ 9999 := by omega
    have hdby : daysBeforeYear y + k4 = k := by
      unfold daysBeforeYear
      have q1 : (y - 1) / 4 = 100 * a + 25 * b + c := by omega
      have q2 : (y - 1) / 100 = 4 * a + b := by omega
      have q3 : (y - 1) / 400 = a := by omega
      rw [q1, q2, q3]; omega
    have hk4 : k4 < (if isLeap y then 366 else 365) := by split <;> omega
    have := monthDay y k4 hk4
    simp only at this
    split
    · rename_i hp
      rw [if_pos hp] at this
      obtain ⟨r1, r2, r3, r4, r5⟩ := this
      refine ⟨⟨hyb.1, hyb.2, r1, r2, r3, r4⟩, ?_⟩
      unfold ymd2ord
      simp only at r5 ⊢
      omega
    · rename_i hp
      rw [if_neg hp] at this
      obtain ⟨r1, r2, r3, r4, r5⟩ := this
      refine ⟨⟨hyb.1, hyb.2, r1, r2, r3, r4⟩, ?_⟩
      unfold ymd2ord
      simp only at r5 ⊢
      omega

theorem daysBeforeYear_mono {a b : Nat} (h1 : 1 ≤ a) (h : a ≤ b) : daysBeforeYear a ≤ daysBeforeYear b := by
  induction b with
  | zero => omega
  | succ b ih =>
    by_cases hb : a = b + 1
    · subst hb; exact Nat.le_refl _
    · rw [daysBeforeYear_succ b (by omega)]
      have := ih (by omega)
      omega

theorem daysBeforeMonth_mono {y a b : Nat} (h1 : 1 ≤ a) (h : a ≤ b) (h2 : b ≤ 12) :
    daysBeforeMonth y a ≤ daysBeforeMonth y b := by
  induction b with
  | zero => omega
  | succ b ih =>
    by_cases hb : a = b + 1
    · subst hb; exact Nat.le_refl _
    · rw [daysBeforeMonth_succ y b (by omega) (by omega)]
      have := ih (by omega) (by omega)
      omega

/-- the ordinal is strictly monotone in the calendar order -/
theorem ymd2ord_lt {y m d y' m' d' : Nat} (h : validDate y m d) (h' : validDate y' m' d')
    (hlt : y < y' ∨ (y = y' ∧ (m < m' ∨ (m = m' ∧ d < d')))) : ymd2ord y m d < ymd2ord y' m' d' := by
  unfold ymd2ord
  have hd := doy_le y m d h
  obtain ⟨hy1, hy2, hm1, hm2, hd1, hd2⟩ := h
  obtain ⟨hy1', hy2', hm1', hm2', hd1', hd2'⟩ := h'
  rcases hlt with hlt | ⟨rfl, hlt | ⟨rfl, hlt⟩⟩
  · have := daysBeforeYear_succ y hy1
    have := daysBeforeYear_mono (a := y + 1) (b := y') (by omega) (by omega)
    split at hd <;> simp_all <;> omega
  · have := daysBeforeMonth_succ y m hm1 (by omega)
    have := daysBeforeMonth_mono (y := y) (a := m + 1) (b := m') (by omega) (by omega) hm2'
    omega
  · omega

theorem ymd2ord_inj {y m d y' m' d' : Nat} (h : validDate y m d) (h' : validDate y' m' d')
    (he : ymd2ord y m d = ymd2ord y' m' d') : y = y' ∧ m = m' ∧ d = d' := by
  by_cases h1 : y < y'
  · have := ymd2ord_lt h h' (Or.inl h1); omega
  by_cases h2 : y' < y
  · have := ymd2ord_lt h' h (Or.inl h2); omega
  have hy : y = y' := by omega
  by_cases h3 : m < m'
  · have := ymd2ord_lt h h' (Or.inr ⟨hy, Or.inl h3⟩); omega
  by_cases h4 : m' < m
  · have := ymd2ord_lt h' h (Or.inr ⟨hy.symm, Or.inl h4⟩); omega
  have hm : m = m' := by omega
  subst hy hm
  unfold ymd2ord at he
  exact ⟨rfl, rfl, by omega⟩

theorem ymd2ord_bounds {y m d : Nat} (h : validDate y m d) : 1 ≤ ymd2ord y m d ∧ ymd2ord y m d ≤ 3652059 := by
  have hd := doy_le y m d h
  obtain ⟨hy1, hy2, hm1, hm2, hd1, hd2⟩ := h
  constructor
  · unfold ymd2ord; omega
  · have h1 : ymd2ord y m d ≤ daysBeforeYear (y + 1) := by
      rw [daysBeforeYear_succ y hy1]; unfold ymd2ord; omega
    have h2 := daysBeforeYear_mono (a := y + 1) (b := 10000) (by omega) (by omega)
    have h3 : daysBeforeYear 10000 = 3652059 := by decide
    omega

theorem ord2ymd_ymd2ord {y m d : Nat} (h : validDate y m d) : ord2ymd (ymd2ord y m d) = (y, m, d) := by
  have hb := ymd2ord_bounds h
  have := ord2ymd_spec _ hb.1 hb.2
  have := ymd2ord_inj this.1 h this.2
  exact Prod.ext this.1 (Prod.ext this.2.1 this.2.2)

theorem DateTime.toMicros_bounds {t : DateTime} (h : t.Valid) :
    minMicros ≤ t.toMicros ∧ t.toMicros ≤ maxMicros := by
  obtain ⟨hd, h1, h2, h3, h4⟩ := h
  have := ymd2ord_bounds hd
  unfold DateTime.toMicros minMicros maxMicros dayMicros
  omega

theorem DateTime.ofMicros_valid {u : Nat} (h1 : minMicros ≤ u) (h2 : u ≤ maxMicros) : (ofMicros u).Valid := by
  have := ord2ymd_spec (u / 1000000 / 60 / 60 / 24) (by unfold minMicros dayMicros at h1; omega)
    (by unfold maxMicros dayMicros at h2; omega)
  refine ⟨this.1, ?_, ?_, ?_, ?_⟩ <;> simp only [ofMicros] <;> omega

theorem DateTime.toMicros_ofMicros {u : Nat} (h1 : minMicros ≤ u) (h2 : u ≤ maxMicros) :
    (ofMicros u).toMicros = u := by
  have := (ord2ymd_spec (u / 1000000 / 60 / 60 / 24) (by unfold minMicros dayMicros at h1; omega)
    (by unfold maxMicros dayMicros at h2; omega)).2
  unfold toMicros
  simp only [ofMicros]
  rw [this]
  omega

theorem DateTime.toMicros_inj {a b : DateTime} (ha : a.Valid) (hb : b.Valid) (h : a.toMicros = b.toMicros) :
    a = b := by
  obtain ⟨hd, h1, h2, h3, h4⟩ := ha
  obtain ⟨hd', h1', h2', h3', h4'⟩ := hb
  unfold toMicros at h
  have e1 : a.micro = b.micro := by omega
  have e2 : a.second = b.second := by omega
  have e3 : a.minute = b.minute := by omega
  have e4 : a.hour = b.hour := by omega
  have e5 : ymd2ord a.year a.month a.day = ymd2ord b.year b.month b.day := by omega
  obtain ⟨e6, e7, e8⟩ := ymd2ord_inj hd hd' e5
  cases a; cases b; simp_all

theorem DateTime.ofMicros_toMicros {t : DateTime} (h : t.Valid) : ofMicros t.toMicros = t := by
  have hb := toMicros_bounds h
  exact toMicros_inj (ofMicros_valid hb.1 hb.2) h (toMicros_ofMicros hb.1 hb.2)

/-- Python compares datetimes component by component; that is the order of instants -/
theorem DateTime.lt_iff_lex {a b : DateTime} (ha : a.Valid) (hb : b.Valid) :
    a.toMicros < b.toMicros ↔
      (a.year < b.year ∨ (a.year = b.year ∧ (a.month < b.month ∨ (a.month = b.month ∧ (a.day < b.day ∨
      (a.day = b.day ∧ (a.hour < b.hour ∨ (a.hour = b.hour ∧ (a.minute < b.minute ∨ (a.minute = b.minute ∧
      (a.second < b.second ∨ (a.second = b.second ∧ a.micro < b.micro)))))))))))) := by
  obtain ⟨hd, h1, h2, h3, h4⟩ := ha
  obtain ⟨hd', h1', h2', h3', h4'⟩ := hb
  have key : ∀ {y m d y' m' d'}, validDate y m d → validDate y' m' d' →
      (ymd2ord y m d < ymd2ord y' m' d' ↔ (y < y' ∨ (y = y' ∧ (m < m' ∨ (m = m' ∧ d < d'))))) := by
    intro y m d y' m' d' h h'
    constructor
    · intro hlt
      by_cases hc : (y < y' ∨ (y = y' ∧ (m < m' ∨ (m = m' ∧ d < d'))))
      · exact hc
      · by_cases he : y = y' ∧ m = m' ∧ d = d'
        · obtain ⟨rfl, rfl, rfl⟩ := he; omega
        · have := ymd2ord_lt h' h (by omega); omega
    · exact ymd2ord_lt h h'
  have k := key hd hd'
  have keq : ymd2ord a.year a.month a.day = ymd2ord b.year b.month b.day ↔
      (a.year = b.year ∧ a.month = b.month ∧ a.day = b.day) :=
    ⟨ymd2ord_inj hd hd', by rintro ⟨e1, e2, e3⟩; rw [e1, e2, e3]⟩
  unfold toMicros
  generalize ymd2ord a.year a.month a.day = oa at k keq ⊢
  generalize ymd2ord b.year b.month b.day = ob at k keq ⊢
  by_cases hlt : oa < ob
  · have := k.1 hlt
    omega
  · by_cases heq : oa = ob
    · have := keq.1 heq
      omega
    · have n1 := mt k.2 hlt
      have n2 := mt keq.2 heq
      omega

theorem mkDateTime7_valid {y mo d h mi s us : Int} {t : DateTime} (hh : mkDateTime7 y mo d h mi s us = .ok t) :
    t.Valid ∧ (t.year : Int) = y ∧ (t.month : Int) = mo ∧ (t.day : Int) = d ∧ (t.hour : Int) = h ∧
    (t.minute : Int) = mi ∧ (t.second : Int) = s ∧ (t.micro : Int) = us := by
  unfold mkDateTime7 at hh
  split at hh
  · simp at hh
  · split at hh
    · rename_i hc
      simp only [Except.ok.injEq] at hh
      subst hh
      refine ⟨⟨⟨?_, ?_, ?_, ?_, ?_, ?_⟩, ?_, ?_, ?_, ?_⟩, ?_, ?_, ?_, ?_, ?_, ?_, ?_⟩ <;> simp only <;> omega
    · simp at hh

end Verif.Py
