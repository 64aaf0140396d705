import Verif.Py.Num
import Mathlib.Algebra.Order.Field.Rat
import Mathlib.Tactic.Linarith
import Mathlib.Tactic.NormNum
import Mathlib.Tactic.Ring
import Mathlib.Tactic.FieldSimp
import Mathlib.Tactic.Positivity
import Mathlib.Tactic.Push
/-! # Floors, truncation and rounding of rationals -/
namespace Verif.Py

theorem ratFloor_eq {q : Rat} {n : Int} (h1 : (n : Rat) ≤ q) (h2 : q < n + 1) : q.floor = n := by
  have a := Rat.le_floor_iff.2 h1
  have b : q.floor < n + 1 := Rat.floor_lt_iff.2 (by push_cast; exact h2)
  omega

theorem ratFloor_le (q : Rat) : (q.floor : Rat) ≤ q := Rat.floor_le q

theorem ratFloor_lt (q : Rat) : q < (q.floor : Rat) + 1 := by
  have := Rat.lt_floor_add_one q
  push_cast at this; exact this

theorem ratFloor_nonneg {q : Rat} (h : 0 ≤ q) : 0 ≤ q.floor := Rat.le_floor_iff.2 (by simpa using h)

theorem truncRat_nonneg {q : Rat} (h : 0 ≤ q) : truncRat q = q.floor := by simp [truncRat, h]

theorem truncRat_int (n : Int) : truncRat (n : Rat) = n := by
  unfold truncRat
  split
  · exact Rat.floor_intCast n
  · have : (-(n : Rat)) = ((-n : Int) : Rat) := by push_cast; rfl
    rw [this, Rat.floor_intCast]; omega

theorem truncRat_eq {q : Rat} {n : Int} (h1 : (n : Rat) ≤ q) (h2 : q < n + 1) (h0 : 0 ≤ n) : truncRat q = n := by
  have : (0 : Rat) ≤ n := by exact_mod_cast h0
  rw [truncRat_nonneg (le_trans this h1), ratFloor_eq h1 h2]

theorem roundHalfEven_bounds (q : Rat) :
    q - 1 / 2 ≤ (roundHalfEven q : Rat) ∧ (roundHalfEven q : Rat) ≤ q + 1 / 2 := by
  have h1 := ratFloor_le q
  have h2 := ratFloor_lt q
  unfold roundHalfEven
  simp only
  split
  · constructor <;> linarith
  · split
    · push_cast; constructor <;> linarith
    · split
      · constructor <;> linarith
      · push_cast; constructor <;> linarith

theorem roundHalfEven_near {q : Rat} {n : Int} (h1 : (n : Rat) - 1 / 2 < q) (h2 : q < (n : Rat) + 1 / 2) :
    roundHalfEven q = n := by
  obtain ⟨a, b⟩ := roundHalfEven_bounds q
  have c1 : ((roundHalfEven q - 1 : Int) : Rat) < (n : Rat) := by push_cast; linarith
  have c2 : ((n : Int) : Rat) < ((roundHalfEven q + 1 : Int) : Rat) := by push_cast; linarith
  have d1 : roundHalfEven q - 1 < n := by exact_mod_cast c1
  have d2 : n < roundHalfEven q + 1 := by exact_mod_cast c2
  omega

theorem roundHalfEven_int (n : Int) : roundHalfEven (n : Rat) = n :=
  roundHalfEven_near (by linarith) (by linarith)

theorem roundHalfEven_mono_int {q : Rat} {n : Int} (h : (n : Rat) ≤ q) : n ≤ roundHalfEven q := by
  by_cases h2 : q < (n : Rat) + 1 / 2
  · rw [roundHalfEven_near (by linarith) h2]
  · have := (roundHalfEven_bounds q).1
    have c : (n : Rat) ≤ (roundHalfEven q : Rat) := by linarith
    exact_mod_cast c

theorem roundHalfEven_le_int {q : Rat} {n : Int} (h : q ≤ (n : Rat)) : roundHalfEven q ≤ n := by
  by_cases h2 : (n : Rat) - 1 / 2 < q
  · rw [roundHalfEven_near h2 (by linarith)]
  · have := (roundHalfEven_bounds q).2
    have c : (roundHalfEven q : Rat) ≤ (n : Rat) := by linarith
    exact_mod_cast c

theorem roundDec_bounds (k : Nat) (q : Rat) :
    q - 1 / (2 * 10 ^ k) ≤ roundDec k q ∧ roundDec k q ≤ q + 1 / (2 * 10 ^ k) := by
  unfold roundDec
  obtain ⟨a, b⟩ := roundHalfEven_bounds (q * 10 ^ k)
  have hp : (0 : Rat) < 10 ^ k := by positivity
  rw [le_div_iff₀ hp, div_le_iff₀ hp]
  have e : (1 / (2 * 10 ^ k) : Rat) * 10 ^ k = 1 / 2 := by field_simp
  constructor <;> nlinarith

/-- rounding a perturbed integer gives the integer back -/
theorem roundDec_near {k : Nat} {q : Rat} {n : Int} (h1 : (n : Rat) - 1 / (2 * 10 ^ k) < q)
    (h2 : q < (n : Rat) + 1 / (2 * 10 ^ k)) : roundDec k q = n := by
  have hp : (0 : Rat) < 10 ^ k := by positivity
  have e : (1 / (2 * 10 ^ k) : Rat) * 10 ^ k = 1 / 2 := by field_simp
  have : roundHalfEven (q * 10 ^ k) = n * 10 ^ k := by
    apply roundHalfEven_near
    · push_cast; nlinarith
    · push_cast; nlinarith
  unfold roundDec
  rw [this]; push_cast; field_simp

end Verif.Py
