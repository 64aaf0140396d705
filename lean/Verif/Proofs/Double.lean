import Verif.Py.Double
import Verif.Proofs.Rat
import Mathlib.Tactic.GCongr
import Mathlib.Algebra.Order.Field.Power
/-! # Rounding errors -/
namespace Verif.Py

theorem double_zero : double 0 = 0 := by simp [double]

/-- relative error of the rounding -/
theorem double_err (q : Rat) : |double q - q| ≤ |q| / 2 ^ 53 := by
  unfold double
  split
  · rename_i h; simp [h]
  · rename_i h
    have hq : 0 < |q| := abs_pos.2 h
    have hl : (2 : Rat) ^ Int.log 2 |q| ≤ |q| := by exact_mod_cast Int.zpow_log_le_self (b := 2) (by norm_num) hq
    set u := (2 : Rat) ^ (Int.log 2 |q| - 52) with hu
    have hu0 : 0 < u := by positivity
    have e : u * 2 ^ 52 = (2 : Rat) ^ Int.log 2 |q| := by
      rw [hu, zpow_sub₀ (by norm_num)]
      norm_num
    obtain ⟨a, b⟩ := roundHalfEven_bounds (q / u)
    have hqu : q = q / u * u := by field_simp
    have h1 : |(roundHalfEven (q / u) : Rat) - q / u| ≤ 1 / 2 := abs_le.2 ⟨by linarith, by linarith⟩
    have h2 : |(roundHalfEven (q / u) : Rat) * u - q| ≤ 1 / 2 * u := by
      have : (roundHalfEven (q / u) : Rat) * u - q = ((roundHalfEven (q / u) : Rat) - q / u) * u := by
        rw [sub_mul, ← hqu]
      rw [this, abs_mul, abs_of_pos hu0]
      exact mul_le_mul_of_nonneg_right h1 hu0.le
    refine h2.trans ?_
    rw [le_div_iff₀ (by norm_num)]
    calc 1 / 2 * u * 2 ^ 53 = u * 2 ^ 52 := by ring
      _ ≤ |q| := by rw [e]; exact hl

/-- binary numbers of at most 53 digits are not changed -/
theorem double_exact (m k : Int) (hm : |m| < 2 ^ 53) : double ((m : Rat) * 2 ^ k) = (m : Rat) * 2 ^ k := by
  unfold double
  split
  · rename_i h; rw [h]
  · rename_i h
    set q := (m : Rat) * 2 ^ k with hq
    have hq0 : 0 < |q| := abs_pos.2 h
    have hlt : |q| < (2 : Rat) ^ (k + 53) := by
      rw [hq, abs_mul, abs_of_pos (show (0 : Rat) < 2 ^ k by positivity), zpow_add₀ (by norm_num), mul_comm]
      refine mul_lt_mul_of_pos_left ?_ (by positivity)
      have : ((|m| : Int) : Rat) < ((2 ^ 53 : Int) : Rat) := by exact_mod_cast hm
      push_cast at this
      exact this
    have hlog : Int.log 2 |q| < k + 53 := by
      have := (Int.lt_zpow_iff_log_lt (b := 2) (by norm_num) hq0 (x := k + 53)).1 (by exact_mod_cast hlt)
      exact this
    obtain ⟨d, hd⟩ : ∃ d : ℕ, k = Int.log 2 |q| - 52 + d := ⟨(k - (Int.log 2 |q| - 52)).toNat, by omega⟩
    have hdiv : q / (2 : Rat) ^ (Int.log 2 |q| - 52) = ((m * 2 ^ d : Int) : Rat) := by
      rw [div_eq_iff (by positivity)]
      conv_lhs => rw [hq, hd, zpow_add₀ (by norm_num : (2 : Rat) ≠ 0)]
      push_cast
      rw [zpow_natCast]
      ring
    rw [hdiv, roundHalfEven_int, ← hdiv]
    field_simp

theorem double_int (m : Int) (hm : |m| < 2 ^ 53) : double (m : Rat) = m := by
  have := double_exact m 0 hm
  simpa using this

theorem double_half (m : Int) (hm : |m| < 2 ^ 53) : double ((m : Rat) / 2) = (m : Rat) / 2 := by
  have := double_exact m (-1) hm
  simpa [div_eq_mul_inv] using this

theorem double_neg_iff (q : Rat) : double q < 0 ↔ q < 0 := by
  have h := double_err q
  have hb : |q| / 2 ^ 53 ≤ |q| / 2 := by
    apply div_le_div_of_nonneg_left (abs_nonneg q) (by norm_num) (by norm_num)
  have := abs_le.1 (h.trans hb)
  rcases lt_trichotomy q 0 with hq | rfl | hq
  · rw [abs_of_neg hq] at this
    exact ⟨fun _ => hq, fun _ => by linarith⟩
  · simp [double_zero]
  · rw [abs_of_pos hq] at this
    exact ⟨fun h => by linarith, fun h => by linarith⟩

end Verif.Py
