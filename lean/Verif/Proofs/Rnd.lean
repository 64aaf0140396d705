import Verif.Py.Binary64
import Verif.Proofs.Double
import Mathlib.Tactic.Linarith
import Mathlib.Tactic.FieldSimp
/-!
# Facts about rounding
-/
namespace Verif.Proofs
open Verif.Py

theorem nearestEven_err (x : ℝ) : |(nearestEven x : ℝ) - x| ≤ 1 / 2 := by
  have h0 := Int.floor_le x
  have h1 := Int.lt_floor_add_one x
  unfold nearestEven
  rw [abs_le]
  split_ifs with h2 h3 h4 <;> push_cast <;> constructor <;> linarith

theorem rnd_zero : rnd 0 = 0 := by simp [rnd]

/-- relative error at most 2^-53, and half the smallest subnormal number -/
theorem rnd_err' (x : ℝ) : |rnd x - x| ≤ |x| / 2 ^ 53 + 2 ^ (-1075 : ℤ) := by
  by_cases h : x = 0
  · subst h; rw [rnd_zero]; simp
  · unfold rnd
    rw [if_neg h]
    have h3 : ((2 : ℕ) : ℝ) ^ Int.log 2 |x| ≤ |x| := Int.zpow_log_le_self (by norm_num) (abs_pos.2 h)
    push_cast at h3
    have hk : (2 : ℝ) ^ max (Int.log 2 |x| - 52) (-1074) ≤ |x| / 2 ^ 52 + 2 ^ (-1074 : ℤ) := by
      rcases max_cases (Int.log 2 |x| - 52) (-1074) with ⟨h5, -⟩ | ⟨h5, -⟩ <;> rw [h5]
      · have h4 : (2 : ℝ) ^ (Int.log 2 |x| - 52) = 2 ^ Int.log 2 |x| / 2 ^ 52 := by
          rw [zpow_sub₀ (by norm_num)]; norm_num
        rw [h4]
        have : (0 : ℝ) < 2 ^ (-1074 : ℤ) := by positivity
        have : (2 : ℝ) ^ Int.log 2 |x| / 2 ^ 52 ≤ |x| / 2 ^ 52 := by gcongr
        linarith
      · have : (0 : ℝ) ≤ |x| / 2 ^ 52 := by positivity
        linarith
    set k := max (Int.log 2 |x| - 52) (-1074)
    have hp : (0 : ℝ) < 2 ^ k := by positivity
    have h1 := nearestEven_err (x / 2 ^ k)
    have h2 : (nearestEven (x / 2 ^ k) : ℝ) * 2 ^ k - x = ((nearestEven (x / 2 ^ k) : ℝ) - x / 2 ^ k) * 2 ^ k := by field_simp
    rw [h2, abs_mul, abs_of_pos hp]
    have h6 : (2 : ℝ) ^ (-1075 : ℤ) = 2 ^ (-1074 : ℤ) / 2 := by
      rw [show (-1075 : ℤ) = -1074 - 1 by norm_num, zpow_sub₀ (by norm_num)]; norm_num
    calc |(nearestEven (x / 2 ^ k) : ℝ) - x / 2 ^ k| * 2 ^ k ≤ 1 / 2 * 2 ^ k := by gcongr
      _ ≤ 1 / 2 * (|x| / 2 ^ 52 + 2 ^ (-1074 : ℤ)) := by gcongr
      _ = |x| / 2 ^ 53 + 2 ^ (-1075 : ℤ) := by rw [h6]; ring

theorem rnd_err (x : ℝ) : |rnd x - x| ≤ |x| / 2 ^ 53 + 1 / 2 ^ 100 := by
  refine (rnd_err' x).trans ?_
  have : (2 : ℝ) ^ (-1075 : ℤ) ≤ 2 ^ (-100 : ℤ) := zpow_le_zpow_right₀ (by norm_num) (by norm_num)
  rw [zpow_neg (2 : ℝ) 100] at this
  norm_num at this ⊢
  exact this

theorem nearestEven_neg (x : ℝ) : nearestEven (-x) = -nearestEven x := by
  have h0 := Int.floor_le x
  have h1 := Int.lt_floor_add_one x
  by_cases hi : x = ⌊x⌋
  · have hn : ⌊-x⌋ = -⌊x⌋ := by
      rw [hi, ← Int.cast_neg, Int.floor_intCast, Int.floor_intCast]
    unfold nearestEven
    rw [hn]
    have e1 : -x - ((-⌊x⌋ : ℤ) : ℝ) < 1 / 2 := by push_cast; linarith
    have e2 : x - (⌊x⌋ : ℝ) < 1 / 2 := by linarith
    rw [if_pos e1, if_pos e2]
  · have hlt : (⌊x⌋ : ℝ) < x := lt_of_le_of_ne h0 (Ne.symm hi)
    have hn : ⌊-x⌋ = -⌊x⌋ - 1 := by
      rw [Int.floor_eq_iff]; push_cast; constructor <;> linarith
    unfold nearestEven
    rw [hn]
    push_cast
    split_ifs <;> first | omega | (exfalso; linarith)

theorem rnd_neg (x : ℝ) : rnd (-x) = -rnd x := by
  unfold rnd
  by_cases h : x = 0
  · simp [h]
  · rw [if_neg h, if_neg (by simpa using h), abs_neg, neg_div, nearestEven_neg]
    push_cast
    ring

/-- on rational numbers in the normal range it is the rounding of `Py/Double` -/
theorem rnd_rat (q : ℚ) (hn : q = 0 ∨ (2 : ℚ) ^ (-1022 : ℤ) ≤ |q|) : rnd (q : ℝ) = (double q : ℝ) := by
  have hfl : ∀ r : ℚ, ⌊(r : ℝ)⌋ = r.floor := by
    intro r; rw [Rat.floor_cast]; rfl
  have hne : ∀ r : ℚ, nearestEven (r : ℝ) = roundHalfEven r := by
    intro r
    unfold nearestEven roundHalfEven
    rw [hfl]
    have c1 : ((r : ℝ) - (r.floor : ℝ) < 1 / 2) ↔ (r - r.floor < 1 / 2) := by
      rw [← Rat.cast_lt (K := ℝ)]; push_cast; rfl
    have c2 : ((1 : ℝ) / 2 < (r : ℝ) - (r.floor : ℝ)) ↔ (1 / 2 < r - r.floor) := by
      rw [← Rat.cast_lt (K := ℝ)]; push_cast; rfl
    simp only [c1, c2]
  unfold rnd double
  by_cases h : q = 0
  · subst h; simp
  · have hlog : Int.log 2 |(q : ℝ)| = Int.log 2 |q| := by
      have hq : 0 < |q| := abs_pos.2 h
      have hr : 0 < |(q : ℝ)| := abs_pos.2 (by exact_mod_cast h)
      have key : ∀ x : ℤ, x ≤ Int.log 2 |(q : ℝ)| ↔ x ≤ Int.log 2 |q| := by
        intro x
        rw [← Int.zpow_le_iff_le_log (by norm_num) hr, ← Int.zpow_le_iff_le_log (by norm_num) hq, ← Rat.cast_abs, ← Rat.cast_le (K := ℝ)]
        push_cast
        rfl
      exact le_antisymm ((key _).1 le_rfl) ((key _).2 le_rfl)
    have hmax : max (Int.log 2 |q| - 52) (-1074) = Int.log 2 |q| - 52 := by
      have : -1022 ≤ Int.log 2 |q| := by
        rw [← Int.zpow_le_iff_le_log (by norm_num) (abs_pos.2 h)]
        exact_mod_cast hn.resolve_left h
      omega
    rw [if_neg (by exact_mod_cast h), if_neg h, hlog, hmax]
    have := hne (q / 2 ^ (Int.log 2 |q| - 52))
    push_cast at this ⊢
    rw [this]

end Verif.Proofs
