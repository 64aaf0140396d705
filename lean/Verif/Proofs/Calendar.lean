import Verif.Spec.Calendar
/-! # The model's calendar is the specified one -/
namespace Verif.Spec
open Verif.Py

theorem leap_iff (y : Nat) : Leap y ↔ isLeap y = true := by
  rw [isLeap_iff]; unfold Leap; omega

theorem yearDays_eq (y : Nat) : yearDays y = if isLeap y then 366 else 365 := by
  unfold yearDays
  by_cases h : Leap y
  · simp [h, (leap_iff y).1 h]
  · have := mt (leap_iff y).2 h
    simp [h, this]

theorem daysOfYearsBefore_eq (y : Nat) (h : 1 ≤ y) : daysOfYearsBefore y = daysBeforeYear y := by
  induction y with
  | zero => omega
  | succ y ih =>
    cases y with
    | zero => rfl
    | succ y =>
      rw [daysBeforeYear_succ (y + 1) (by omega), ← ih (by omega), ← yearDays_eq]; rfl

theorem monthDays_get (y m : Nat) (h1 : 1 ≤ m) (h2 : m ≤ 12) :
    (monthDays y)[m - 1]? = some (daysInMonth y m) := by
  have : m = 1 ∨ m = 2 ∨ m = 3 ∨ m = 4 ∨ m = 5 ∨ m = 6 ∨ m = 7 ∨ m = 8 ∨ m = 9 ∨ m = 10 ∨ m = 11 ∨ m = 12 := by
    omega
  by_cases hl : Leap y
  · have hl' := (leap_iff y).1 hl
    rcases this with h|h|h|h|h|h|h|h|h|h|h|h <;> subst h <;> simp [monthDays, daysInMonth, hl, hl']
  · have hl' : isLeap y = false := by simpa using mt (leap_iff y).2 hl
    rcases this with h|h|h|h|h|h|h|h|h|h|h|h <;> subst h <;> simp [monthDays, daysInMonth, hl, hl']

theorem monthDays_sum (y m : Nat) (h1 : 1 ≤ m) (h2 : m ≤ 12) :
    ((monthDays y).take (m - 1)).sum = daysBeforeMonth y m := by
  have : m = 1 ∨ m = 2 ∨ m = 3 ∨ m = 4 ∨ m = 5 ∨ m = 6 ∨ m = 7 ∨ m = 8 ∨ m = 9 ∨ m = 10 ∨ m = 11 ∨ m = 12 := by
    omega
  by_cases hl : Leap y
  · have hl' := (leap_iff y).1 hl
    rcases this with h|h|h|h|h|h|h|h|h|h|h|h <;> subst h <;>
      simp [monthDays, daysBeforeMonth, daysBeforeMonthC, hl, hl']
  · have hl' : isLeap y = false := by simpa using mt (leap_iff y).2 hl
    rcases this with h|h|h|h|h|h|h|h|h|h|h|h <;> subst h <;>
      simp [monthDays, daysBeforeMonth, daysBeforeMonthC, hl, hl']

theorem legalDate_iff (y m d : Nat) : LegalDate y m d ↔ validDate y m d := by
  unfold LegalDate validDate
  constructor
  · rintro ⟨h1, h2, h3, h4, n, h5, h6⟩
    have h12 : m ≤ 12 := by
      obtain ⟨hlt, _⟩ := List.getElem?_eq_some_iff.1 h5
      simp [monthDays] at hlt; omega
    rw [monthDays_get y m h3 h12] at h5
    cases h5
    exact ⟨h1, h2, h3, h12, h4, h6⟩
  · rintro ⟨h1, h2, h3, h4, h5, h6⟩
    exact ⟨h1, h2, h3, h5, _, monthDays_get y m h3 h4, h6⟩

theorem legal_iff (t : DateTime) : Legal t ↔ t.Valid := by
  unfold Legal DateTime.Valid
  rw [legalDate_iff]
  refine and_congr_right fun _ => ?_
  omega

theorem dayNumber_eq {y m d : Nat} (h : LegalDate y m d) : dayNumber y m d = ymd2ord y m d := by
  obtain ⟨h1, h2, h3, h4, h5, h6⟩ := (legalDate_iff y m d).1 h
  unfold dayNumber ymd2ord
  rw [daysOfYearsBefore_eq y h1, monthDays_sum y m h3 h4]

theorem instant_eq {t : DateTime} (h : Legal t) : instant t = t.toMicros := by
  unfold instant instantOf DateTime.toMicros
  rw [dayNumber_eq h.1]
  generalize ymd2ord t.year t.month t.day = n
  omega

/-- an instant determines the date/time -/
theorem instant_inj {a b : DateTime} (ha : Legal a) (hb : Legal b) (h : instant a = instant b) : a = b := by
  rw [instant_eq ha, instant_eq hb] at h
  exact DateTime.toMicros_inj ((legal_iff a).1 ha) ((legal_iff b).1 hb) (by exact_mod_cast h)

end Verif.Spec
