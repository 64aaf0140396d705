import Verif.Props.Double
import Verif.Props.Select
/-!
# C89: the second of the week in floating point
-/
namespace Verif.Props
open Verif.Py Verif.Model Verif.Spec Verif.Proofs

/-- rounding a number of weeks does not reach the next whole week -/
theorem trunc_week (d : Nat) (hd : d < 2 ^ 40) : (truncRat (double ((d : Rat) / 7)) : Int) = (d / 7 : Nat) := by
  have hq0 : (0 : Rat) ≤ (d : Rat) / 7 := by positivity
  obtain ⟨h1, h2⟩ := double_bounds hq0
  have hdq : (d : Rat) < 2 ^ 40 := by exact_mod_cast hd
  have hsm : (d : Rat) / 7 / 2 ^ 53 < 1 / 100 := by
    rw [div_div, div_lt_div_iff₀ (by norm_num) (by norm_num)]
    linarith
  by_cases hm : d % 7 = 0
  · have he : (d : Rat) / 7 = (((d / 7 : Nat) : Int) : Rat) := by
      have h7 : (7 : Rat) * ((d / 7 : Nat) : Rat) = (d : Rat) := by
        have : 7 * (d / 7) = d := by omega
        exact_mod_cast this
      rw [Int.cast_natCast]
      linarith
    rw [he, double_int _ (by rw [abs_of_nonneg (by omega)]; omega)]
    exact truncRat_int _
  · have hlo : ((d / 7 : Nat) : Rat) + 1 / 7 ≤ (d : Rat) / 7 := by
      have : 7 * (d / 7) + 1 ≤ d := by omega
      have : ((7 * (d / 7) + 1 : Nat) : Rat) ≤ (d : Rat) := by exact_mod_cast this
      rw [Nat.cast_add, Nat.cast_mul] at this
      norm_num at this
      linarith
    have hhi : (d : Rat) / 7 ≤ ((d / 7 : Nat) : Rat) + 6 / 7 := by
      have : d ≤ 7 * (d / 7) + 6 := by omega
      have : (d : Rat) ≤ ((7 * (d / 7) + 6 : Nat) : Rat) := by exact_mod_cast this
      rw [Nat.cast_add, Nat.cast_mul] at this
      norm_num at this
      linarith
    apply truncRat_eq
    · rw [Int.cast_natCast]; linarith
    · rw [Int.cast_natCast]; linarith
    · omega

/-- rounding, absolute error -/
theorem double_near (q b : Rat) (h : |q| ≤ b) : |double q - q| ≤ b / 2 ^ 53 :=
  le_trans (double_err q) (div_le_div_of_nonneg_right h (by norm_num))

theorem daysBefore_le : ∀ y : Nat, daysOfYearsBefore y ≤ 366 * y
  | 0 => by simp [daysOfYearsBefore]
  | 1 => by simp [daysOfYearsBefore]
  | y + 2 => by
    have := daysBefore_le (y + 1)
    rw [daysOfYearsBefore]
    unfold yearDays
    split <;> omega

theorem monthDays_le (y : Nat) : ∀ n ∈ monthDays y, n ≤ 31 := by
  intro n hn
  simp only [monthDays, List.mem_cons, List.not_mem_nil, or_false] at hn
  rcases hn with h | h | h | h | h | h | h | h | h | h | h | h <;> first | omega | (split at h <;> omega)

theorem sum_le_31 : ∀ l : List Nat, (∀ n ∈ l, n ≤ 31) → l.sum ≤ 31 * l.length
  | [], _ => by simp
  | a :: l, h => by
    have h1 := h a (by simp)
    have h2 := sum_le_31 l (fun n hn => h n (by simp [hn]))
    simp only [List.sum_cons, List.length_cons]
    omega

/-- all dates of the calendar are within ten billion days -/
theorem instant_range {t : DateTime} (h : Legal t) : 0 ≤ instant t ∧ instant t < 10 ^ 10 * 86400000000 := by
  obtain ⟨⟨h1, h2, h3, h4, n, h5, h6⟩, h7, h8, h9, h10⟩ := h
  have hn := monthDays_le t.year n (List.mem_of_getElem? h5)
  have hy := daysBefore_le t.year
  have hs := sum_le_31 ((monthDays t.year).take (t.month - 1)) (fun n hn => monthDays_le t.year n (List.mem_of_mem_take hn))
  have hl : ((monthDays t.year).take (t.month - 1)).length ≤ 12 := by
    rw [List.length_take]
    exact le_trans (min_le_right _ _) (by simp [monthDays])
  unfold instant instantOf dayNumber
  push_cast
  omega

/-- the error of the second of the week in floating point: 10⁻¹¹ s for every day since the start of the system time and 10⁻⁹ s -/
theorem C89_error (t start : DateTime) (ht : Legal t) (hs : Legal start) (h : instant start ≤ instant t) :
    ∃ s : Int, WeekSecond start t s ∧
      |getWeekSecDouble t start - s| ≤ ((instant t - instant start) / 86400000000 : Int) / 10 ^ 11 + 1 / 10 ^ 9 := by
  obtain ⟨s, h1, h2⟩ := C33_week t start ht hs h
  refine ⟨s, h2, ?_⟩
  have hd : t.sub start = instant t - instant start := by
    unfold DateTime.sub; rw [instant_eq ht, instant_eq hs]
  have hlt : instant t - instant start < 10 ^ 10 * 86400000000 := by
    have := instant_range ht
    have := instant_range hs
    omega
  rw [← h1, ← hd]
  rw [← hd] at hlt
  have h0 : 0 ≤ t.sub start := by omega
  unfold getWeekSec getWeekSecDouble
  simp only
  generalize t.sub start = D at *
  obtain ⟨d, hdd⟩ : ∃ d : Nat, D / 86400000000 = d := ⟨(D / 86400000000).toNat, by omega⟩
  obtain ⟨σ, hσ⟩ : ∃ σ : Nat, (D - D / 86400000000 * 86400000000) / 1000000 = σ := ⟨_, (Int.toNat_of_nonneg (by omega)).symm⟩
  have hσ2 : σ < 86400 := by omega
  have hd2 : d < 2 ^ 40 := by omega
  have h7 := truncRat_div7 (d : Int) (by omega)
  rw [Int.cast_natCast] at h7
  rw [hσ, hdd, Int.cast_natCast, Int.cast_natCast, trunc_week d hd2, h7]
  have hn : (((d / 7 : Nat) : Int) : Rat) = (((d : Int) / 7 : Int) : Rat) := by push_cast; rfl
  rw [hn]
  have hdq : (0 : Rat) ≤ d := Nat.cast_nonneg _
  have hσq : (σ : Rat) < 86400 := by exact_mod_cast hσ2
  have hσ0 : (0 : Rat) ≤ σ := Nat.cast_nonneg _
  have hf1 : (((d : Int) / 7 : Int) : Rat) ≤ (d : Rat) / 7 := by
    have : ((d : Int) / 7) * 7 ≤ d := by omega
    have : ((((d : Int) / 7) * 7 : Int) : Rat) ≤ ((d : Int) : Rat) := by exact_mod_cast this
    rw [Int.cast_mul, Int.cast_natCast] at this
    push_cast at this ⊢
    linarith
  have hf2 : (d : Rat) / 7 ≤ (((d : Int) / 7 : Int) : Rat) + 6 / 7 := by
    have : (d : Int) ≤ ((d : Int) / 7) * 7 + 6 := by omega
    have : ((d : Int) : Rat) ≤ ((((d : Int) / 7) * 7 + 6 : Int) : Rat) := by exact_mod_cast this
    rw [Int.cast_add, Int.cast_mul, Int.cast_natCast] at this
    push_cast at this ⊢
    linarith
  have hdm : (d : Rat) < 2 ^ 40 := by exact_mod_cast hd2
  generalize (((d : Int) / 7 : Int) : Rat) = n at *
  have e1 := double_near ((d : Rat) / 7) _ (le_of_eq (abs_of_nonneg (by positivity)))
  generalize double ((d : Rat) / 7) = W at *
  obtain ⟨a1, a2⟩ := abs_le.1 e1
  have hsm : (d : Rat) / 7 / 2 ^ 53 < 1 / 100 := by
    rw [div_div, div_lt_div_iff₀ (by norm_num) (by norm_num)]
    linarith
  have e2 := double_near (W - n) 1 (abs_le.2 ⟨by linarith, by linarith⟩)
  generalize double (W - n) = F at *
  obtain ⟨b1, b2⟩ := abs_le.1 e2
  have hu : (1 : Rat) / 2 ^ 53 < 1 / 100 := by norm_num
  have e3 := double_near (F * (7 * 24 * 60 * 60)) 1300000 (abs_le.2 ⟨by linarith, by linarith⟩)
  generalize double (F * (7 * 24 * 60 * 60)) = P at *
  obtain ⟨c1, c2⟩ := abs_le.1 e3
  have hu2 : (1300000 : Rat) / 2 ^ 53 < 1 := by norm_num
  have e4 := double_near (P + σ) 1400000 (abs_le.2 ⟨by linarith, by linarith⟩)
  generalize double (P + σ) = R at *
  obtain ⟨d1, d2⟩ := abs_le.1 e4
  have k1 : (d : Rat) / 7 / 2 ^ 53 * 604800 ≤ d / 10 ^ 11 := by
    have : (d : Rat) / 7 / 2 ^ 53 * 604800 = d * (604800 / 7 / 2 ^ 53) := by ring
    rw [this, div_eq_mul_inv (d : Rat)]
    exact mul_le_mul_of_nonneg_left (by norm_num) hdq
  have k2 : (1 : Rat) / 2 ^ 53 * 604800 + 1300000 / 2 ^ 53 + 1400000 / 2 ^ 53 ≤ 1 / 10 ^ 9 := by norm_num
  rw [abs_le]
  constructor <;> linarith

/-- C89: up to 80 000 days after the start of the system time (GPS: until 2199) the second of the week computed in floating point is within a microsecond of the exact one. -/
theorem C89_week (t start : DateTime) (ht : Legal t) (hs : Legal start) (h : instant start ≤ instant t) (hd : instant t - instant start < 80000 * 86400000000) :
    ∃ s : Int, WeekSecond start t s ∧ |getWeekSecDouble t start - s| < 1 / 10 ^ 6 := by
  obtain ⟨s, h1, h2⟩ := C89_error t start ht hs h
  refine ⟨s, h1, lt_of_le_of_lt h2 ?_⟩
  have : (instant t - instant start) / 86400000000 < 80000 := by omega
  have : (((instant t - instant start) / 86400000000 : Int) : Rat) < 80000 := by exact_mod_cast this
  have k : (80000 : Rat) / 10 ^ 11 + 1 / 10 ^ 9 < 1 / 10 ^ 6 := by norm_num
  linarith [div_lt_div_of_pos_right this (by norm_num : (0 : Rat) < 10 ^ 11)]

/-- C89: the value is not a whole number in general: 2015-01-31 00:00:30 is a Saturday, 518430 s after the start of the week; the program computes 518430.0000000197. -/
theorem C89_example :
    getWeekSecDouble ⟨2015, 1, 31, 0, 0, 30, 0⟩ gpsStart = 4453279790530729 / 8589934592 ∧ WeekSecond gpsStart ⟨2015, 1, 31, 0, 0, 30, 0⟩ 518430 ∧
      instant ⟨2015, 1, 31, 0, 0, 30, 0⟩ - instant gpsStart < 80000 * 86400000000 := by
  refine ⟨by decide +kernel, ⟨by decide, by decide, 1829, 0, by decide, by decide, by decide +kernel⟩, by decide +kernel⟩

end Verif.Props
