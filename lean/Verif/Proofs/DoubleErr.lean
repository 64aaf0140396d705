import Verif.Proofs.Double
import Mathlib.Tactic.FieldSimp
/-!
# Relative errors

`Near n x y`: `x` is `y` up to `n` units of `2⁻⁵³`, relatively.
-/
namespace Verif.Proofs
open Verif.Py

def Near (n : Nat) (x y : Rat) : Prop := |x - y| ≤ n / 2 ^ 53 * |y|

theorem near_refl (x : Rat) : Near 0 x x := by simp [Near]

theorem near_abs {n : Nat} {x y : Rat} (h : Near n x y) : |x| ≤ (1 + n / 2 ^ 53) * |y| := by
  unfold Near at h
  have := abs_sub_abs_le_abs_sub x y
  linarith

theorem near_mul {a b : Nat} {x y x' y' : Rat} (h : Near a x y) (h' : Near b x' y') (ha : a ≤ 1000) (hb : b ≤ 1000) : Near (a + b + 1) (x * x') (y * y') := by
  have hx' := near_abs h'
  unfold Near at *
  have haq : (a : Rat) ≤ 1000 := by exact_mod_cast ha
  have hbq : (b : Rat) ≤ 1000 := by exact_mod_cast hb
  have ha0 : (0 : Rat) ≤ a := Nat.cast_nonneg _
  have hb0 : (0 : Rat) ≤ b := Nat.cast_nonneg _
  have hY : 0 ≤ |y| * |y'| := by positivity
  have e : x * x' - y * y' = (x - y) * x' + y * (x' - y') := by ring
  rw [e, abs_mul y]
  calc |(x - y) * x' + y * (x' - y')| ≤ |(x - y) * x'| + |y * (x' - y')| := abs_add_le _ _
    _ = |x - y| * |x'| + |y| * |x' - y'| := by rw [abs_mul, abs_mul]
    _ ≤ (a / 2 ^ 53 * |y|) * ((1 + b / 2 ^ 53) * |y'|) + |y| * (b / 2 ^ 53 * |y'|) := by gcongr
    _ = (|y| * |y'|) * (a / 2 ^ 53 * (1 + b / 2 ^ 53) + b / 2 ^ 53) := by ring
    _ ≤ (|y| * |y'|) * (((a + b + 1 : Nat) : Rat) / 2 ^ 53) := by
        apply mul_le_mul_of_nonneg_left _ hY
        push_cast
        norm_num
        nlinarith
    _ = _ := by ring

theorem near_inv {b : Nat} {x y : Rat} (h : Near b x y) (hb : b ≤ 1000) (hy : y ≠ 0) : x ≠ 0 ∧ Near (b + 1) (1 / x) (1 / y) := by
  unfold Near at *
  have hbq : (b : Rat) ≤ 1000 := by exact_mod_cast hb
  have hb0 : (0 : Rat) ≤ b := Nat.cast_nonneg _
  have hY : 0 < |y| := abs_pos.2 hy
  have hlo : (1 - b / 2 ^ 53) * |y| ≤ |x| := by
    have := abs_sub_abs_le_abs_sub y x
    rw [abs_sub_comm y x] at this
    linarith
  have hc : (0 : Rat) < 1 - b / 2 ^ 53 := by norm_num; linarith
  have hX : 0 < |x| := lt_of_lt_of_le (by positivity) hlo
  have hx : x ≠ 0 := abs_pos.1 hX
  refine ⟨hx, ?_⟩
  have e : 1 / x - 1 / y = -(x - y) / (x * y) := by field_simp; ring
  rw [e, abs_div, abs_neg, abs_mul, abs_div, abs_one, div_le_iff₀ (by positivity)]
  have e2 : ((b + 1 : Nat) : Rat) / 2 ^ 53 * (1 / |y|) * (|x| * |y|) = ((b + 1 : Nat) : Rat) / 2 ^ 53 * |x| := by field_simp
  rw [e2]
  calc |x - y| ≤ b / 2 ^ 53 * |y| := h
    _ ≤ ((b + 1 : Nat) : Rat) / 2 ^ 53 * ((1 - b / 2 ^ 53) * |y|) := by
        rw [← mul_assoc]
        apply mul_le_mul_of_nonneg_right _ hY.le
        push_cast
        norm_num
        nlinarith
    _ ≤ _ := by gcongr

theorem near_div {a b : Nat} {x y x' y' : Rat} (h : Near a x y) (h' : Near b x' y') (hy : y' ≠ 0) (ha : a ≤ 1000) (hb : b < 1000) : Near (a + b + 2) (x / x') (y / y') := by
  have := near_mul h (near_inv h' (by omega) hy).2 ha (by omega)
  rw [mul_one_div, mul_one_div] at this
  exact this

theorem near_double {a : Nat} {x y : Rat} (h : Near a x y) (ha : a ≤ 1000) : Near (a + 2) (double x) y := by
  have hx := near_abs h
  have hd := double_err x
  unfold Near at *
  have haq : (a : Rat) ≤ 1000 := by exact_mod_cast ha
  have ha0 : (0 : Rat) ≤ a := Nat.cast_nonneg _
  calc |double x - y| = |(double x - x) + (x - y)| := by ring_nf
    _ ≤ |double x - x| + |x - y| := abs_add_le _ _
    _ ≤ (1 + a / 2 ^ 53) * |y| / 2 ^ 53 + a / 2 ^ 53 * |y| := by gcongr; exact hd.trans (by gcongr)
    _ = |y| * ((1 + a / 2 ^ 53) / 2 ^ 53 + a / 2 ^ 53) := by ring
    _ ≤ |y| * (((a + 2 : Nat) : Rat) / 2 ^ 53) := by
        apply mul_le_mul_of_nonneg_left _ (abs_nonneg y)
        push_cast
        norm_num
        nlinarith
    _ = _ := by ring

/-- a difference, in units of the sum of the operands -/
theorem sub_double {n : Nat} {x y x' y' : Rat} (h : Near n x y) (h' : Near n x' y') (hn : n ≤ 1000) :
    |double (x - x') - (y - y')| ≤ ((n + 2 : Nat) : Rat) / 2 ^ 53 * (|y| + |y'|) := by
  have hx := near_abs h
  have hx' := near_abs h'
  have hd := double_err (x - x')
  have hs : |x - x'| ≤ |x| + |x'| := abs_sub _ _
  unfold Near at *
  have hnq : (n : Rat) ≤ 1000 := by exact_mod_cast hn
  have hn0 : (0 : Rat) ≤ n := Nat.cast_nonneg _
  have e : double (x - x') - (y - y') = (double (x - x') - (x - x')) + ((x - y) - (x' - y')) := by ring
  have h1 : |double (x - x') - (y - y')| ≤ |double (x - x') - (x - x')| + (|x - y| + |x' - y'|) := by
    rw [e]
    exact (abs_add_le _ _).trans (by gcongr; exact abs_sub _ _)
  have h2 : |x - x'| / 2 ^ 53 ≤ (1 + n / 2 ^ 53) * (|y| + |y'|) / 2 ^ 53 := by
    gcongr
    linarith
  calc _ ≤ (1 + n / 2 ^ 53) * (|y| + |y'|) / 2 ^ 53 + (n / 2 ^ 53 * |y| + n / 2 ^ 53 * |y'|) := by linarith
    _ = (|y| + |y'|) * ((1 + n / 2 ^ 53) / 2 ^ 53 + n / 2 ^ 53) := by ring
    _ ≤ (|y| + |y'|) * (((n + 2 : Nat) : Rat) / 2 ^ 53) := by
        apply mul_le_mul_of_nonneg_left _ (by positivity)
        push_cast
        norm_num
        nlinarith
    _ = _ := by ring

/-- a product with a factor known relatively and one known absolutely -/
theorem scale_double {k m : Nat} {t K d Δ S : Rat} (ht : Near k t K) (hk : k ≤ 1000) (hm : m ≤ 1000) (hS : 0 ≤ S) (hd : |d - Δ| ≤ m / 2 ^ 53 * S) :
    |double (t * d) - K * Δ| ≤ |K| * (((k + 2 : Nat) : Rat) * |Δ| + ((m + 1 : Nat) : Rat) * S) / 2 ^ 53 := by
  have h1 := double_err (t * d)
  have ht' := near_abs ht
  unfold Near at ht
  have hkq : (k : Rat) ≤ 1000 := by exact_mod_cast hk
  have hk0 : (0 : Rat) ≤ k := Nat.cast_nonneg _
  have hmq : (m : Rat) ≤ 1000 := by exact_mod_cast hm
  have hm0 : (0 : Rat) ≤ m := Nat.cast_nonneg _
  have hdd : |d| ≤ |Δ| + m / 2 ^ 53 * S := by
    have := abs_sub_abs_le_abs_sub d Δ
    linarith
  have e : double (t * d) - K * Δ = (double (t * d) - t * d) + ((t - K) * d + K * (d - Δ)) := by ring
  have h2 : |double (t * d) - K * Δ| ≤ |t| * |d| / 2 ^ 53 + (|t - K| * |d| + |K| * |d - Δ|) := by
    rw [e]
    refine (abs_add_le _ _).trans ?_
    rw [abs_mul] at h1
    refine add_le_add h1 ((abs_add_le _ _).trans ?_)
    rw [abs_mul, abs_mul]
  have h3 : |t| * |d| / 2 ^ 53 ≤ ((1 + k / 2 ^ 53) * |K|) * (|Δ| + m / 2 ^ 53 * S) / 2 ^ 53 := by gcongr
  have h4 : |t - K| * |d| ≤ (k / 2 ^ 53 * |K|) * (|Δ| + m / 2 ^ 53 * S) := by gcongr
  have h5 : |K| * |d - Δ| ≤ |K| * (m / 2 ^ 53 * S) := by gcongr
  have hD := abs_nonneg Δ
  calc _ ≤ ((1 + k / 2 ^ 53) * |K|) * (|Δ| + m / 2 ^ 53 * S) / 2 ^ 53 + ((k / 2 ^ 53 * |K|) * (|Δ| + m / 2 ^ 53 * S) + |K| * (m / 2 ^ 53 * S)) := by linarith
    _ = |K| * ((((1 + k / 2 ^ 53) + k) * |Δ| + (((1 + k / 2 ^ 53) + k) * (m / 2 ^ 53) + m) * S) / 2 ^ 53) := by ring
    _ ≤ |K| * ((((k + 2 : Nat) : Rat) * |Δ| + ((m + 1 : Nat) : Rat) * S) / 2 ^ 53) := by
        apply mul_le_mul_of_nonneg_left _ (abs_nonneg K)
        apply div_le_div_of_nonneg_right _ (by norm_num)
        push_cast
        apply add_le_add
        · apply mul_le_mul_of_nonneg_right _ hD
          norm_num; linarith
        · apply mul_le_mul_of_nonneg_right _ hS
          norm_num; nlinarith
    _ = _ := by ring

end Verif.Proofs
