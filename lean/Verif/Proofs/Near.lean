import Verif.Spec.Binary64
import Verif.Proofs.Rnd
import Mathlib.Tactic.Linarith
import Mathlib.Tactic.Positivity
import Mathlib.Analysis.Real.Pi.Bounds
import Verif.Props.Geo
/-!
# Error propagation

`Appr x' x B ε`: the number `x` is at most `B` in absolute value and `x'` differs from it by at most `ε`.
-/
namespace Verif.Proofs
open Verif.Py Verif.Spec

def Appr (x' x B ε : ℝ) : Prop := |x| ≤ B ∧ |x' - x| ≤ ε

namespace Appr
variable {F : Flt} {a' a A α b' b B β : ℝ}

theorem exact {x B : ℝ} (h : |x| ≤ B) : Appr x x B 0 := ⟨h, by simp⟩

theorem weaken {B' ε' : ℝ} (h : Appr a' a A α) (h1 : A ≤ B') (h2 : α ≤ ε') : Appr a' a B' ε' := ⟨h.1.trans h1, h.2.trans h2⟩

theorem bound (h : Appr a' a A α) : |a'| ≤ A + α := by
  have := abs_add_le a (a' - a)
  rw [add_sub_cancel] at this
  linarith [h.1, h.2]

theorem nn (h : Appr a' a A α) : 0 ≤ A ∧ 0 ≤ α := ⟨(abs_nonneg _).trans h.1, (abs_nonneg _).trans h.2⟩

theorem rnd (hF : Accurate F) {B' ε' : ℝ} (h : Appr a' a A α) (h1 : A ≤ B') (h2 : α + (A + α) / 2 ^ 53 + 1 / 2 ^ 100 ≤ ε') :
    Appr (F.rnd a') a B' ε' := by
  refine ⟨h.1.trans h1, ?_⟩
  have hr := hF.rnd a'
  have hb := h.bound
  have : |a'| / 2 ^ 53 ≤ (A + α) / 2 ^ 53 := by gcongr
  calc |F.rnd a' - a| ≤ |F.rnd a' - a'| + |a' - a| := abs_sub_le _ _ _
    _ ≤ ε' := by linarith [h.2]

theorem add (h : Appr a' a A α) (k : Appr b' b B β) : Appr (a' + b') (a + b) (A + B) (α + β) := by
  refine ⟨(abs_add_le _ _).trans (add_le_add h.1 k.1), ?_⟩
  rw [show a' + b' - (a + b) = (a' - a) + (b' - b) by ring]
  exact (abs_add_le _ _).trans (add_le_add h.2 k.2)

theorem sub (h : Appr a' a A α) (k : Appr b' b B β) : Appr (a' - b') (a - b) (A + B) (α + β) := by
  refine ⟨(abs_sub _ _).trans (add_le_add h.1 k.1), ?_⟩
  rw [show a' - b' - (a - b) = (a' - a) - (b' - b) by ring]
  exact (abs_sub _ _).trans (add_le_add h.2 k.2)

theorem mul (h : Appr a' a A α) (k : Appr b' b B β) : Appr (a' * b') (a * b) (A * B) (A * β + B * α + α * β) := by
  obtain ⟨hA, hα⟩ := h.nn
  obtain ⟨hB, hβ⟩ := k.nn
  refine ⟨?_, ?_⟩
  · rw [abs_mul]; exact mul_le_mul h.1 k.1 (abs_nonneg _) hA
  · rw [show a' * b' - a * b = a * (b' - b) + b * (a' - a) + (a' - a) * (b' - b) by ring]
    refine (abs_add_three _ _ _).trans ?_
    rw [abs_mul, abs_mul, abs_mul]
    gcongr
    · exact h.1
    · exact k.2
    · exact k.1
    · exact h.2
    · exact h.2
    · exact k.2

theorem div {m : ℝ} (h : Appr a' a A α) (k : Appr b' b B β) (hm : m ≤ |b|) (hβ : β < m) :
    Appr (a' / b') (a / b) (A / m) (α / (m - β) + A * β / (m * (m - β))) := by
  obtain ⟨hA, hα⟩ := h.nn
  obtain ⟨hB, hβ0⟩ := k.nn
  have hm0 : 0 < m := by linarith
  have hb : b ≠ 0 := by intro h0; rw [h0, abs_zero] at hm; linarith
  have hb'm : m - β ≤ |b'| := by
    have := abs_sub_abs_le_abs_sub b b'
    rw [abs_sub_comm b b'] at this
    linarith [k.2]
  have hmb : 0 < m - β := by linarith
  have hb' : b' ≠ 0 := by intro h0; rw [h0, abs_zero] at hb'm; linarith
  refine ⟨?_, ?_⟩
  · rw [abs_div]; exact div_le_div₀ hA h.1 hm0 hm
  · rw [show a' / b' - a / b = (a' - a) / b' - a * (b' - b) / (b * b') by field_simp; ring]
    refine (abs_sub _ _).trans ?_
    rw [abs_div, abs_div, abs_mul, abs_mul]
    apply add_le_add
    · exact div_le_div₀ hα h.2 hmb hb'm
    · exact div_le_div₀ (by positivity) (mul_le_mul h.1 k.2 (abs_nonneg _) hA) (by positivity) (mul_le_mul hm hb'm hmb.le (abs_nonneg _))

theorem neZero {m : ℝ} (k : Appr b' b B β) (hm : m ≤ |b|) (hβ : β < m) : b' ≠ 0 := by
  intro h0
  have := abs_sub_abs_le_abs_sub b b'
  rw [abs_sub_comm b b', h0, abs_zero] at this
  have h1 := k.2
  rw [h0] at h1
  linarith

theorem pos {m : ℝ} (k : Appr b' b B β) (hm : m ≤ b) (hβ : β ≤ m) : 0 ≤ b' := by
  have := (abs_le.1 k.2).1
  linarith

theorem sqrt {m C : ℝ} (h : Appr a' a A α) (hm0 : 0 < m) (hm : m ^ 2 ≤ a) (hα : α ≤ m ^ 2) (hC : 0 ≤ C) (hAC : A ≤ C ^ 2) :
    Appr √a' √a C (α / m) := by
  have ha' : 0 ≤ a' := h.pos hm hα
  have ha : 0 ≤ a := (sq_nonneg m).trans hm
  have hsm : m ≤ √a := Real.le_sqrt_of_sq_le hm
  refine ⟨?_, ?_⟩
  · rw [abs_of_nonneg (Real.sqrt_nonneg _)]
    exact Real.sqrt_le_iff.2 ⟨hC, (le_abs_self a).trans (h.1.trans hAC)⟩
  · have hs : 0 < √a' + √a := by have := Real.sqrt_nonneg a'; linarith
    have key : (√a' - √a) * (√a' + √a) = a' - a := by
      have h1 := Real.mul_self_sqrt ha'
      have h2 := Real.mul_self_sqrt ha
      linear_combination h1 - h2
    rw [le_div_iff₀ hm0]
    have hk : |√a' - √a| * (√a' + √a) = |a' - a| := by rw [← key, abs_mul, abs_of_pos hs]
    have : |√a' - √a| * m ≤ |√a' - √a| * (√a' + √a) := by
      apply mul_le_mul_of_nonneg_left _ (abs_nonneg _)
      have := Real.sqrt_nonneg a'; linarith
    linarith [h.2]

theorem sqrt' {m m1 C : ℝ} (h : Appr a' a A α) (hm0 : 0 < m) (hm1 : 0 ≤ m1) (hm : m ^ 2 ≤ a) (hα : m1 ^ 2 + α ≤ m ^ 2) (hC : 0 ≤ C) (hAC : A ≤ C ^ 2) :
    Appr √a' √a C (α / (m + m1)) := by
  have ha' : m1 ^ 2 ≤ a' := by have := (abs_le.1 h.2).1; linarith
  have ha : 0 ≤ a := (sq_nonneg m).trans hm
  have hsm : m ≤ √a := Real.le_sqrt_of_sq_le hm
  have hsm1 : m1 ≤ √a' := Real.le_sqrt_of_sq_le ha'
  refine ⟨?_, ?_⟩
  · rw [abs_of_nonneg (Real.sqrt_nonneg _)]
    exact Real.sqrt_le_iff.2 ⟨hC, (le_abs_self a).trans (h.1.trans hAC)⟩
  · have hs : 0 < √a' + √a := by linarith
    have key : (√a' - √a) * (√a' + √a) = a' - a := by
      have h1 := Real.mul_self_sqrt ((sq_nonneg m1).trans ha')
      have h2 := Real.mul_self_sqrt ha
      linear_combination h1 - h2
    rw [le_div_iff₀ (by linarith)]
    have hk : |√a' - √a| * (√a' + √a) = |a' - a| := by rw [← key, abs_mul, abs_of_pos hs]
    have : |√a' - √a| * (m + m1) ≤ |√a' - √a| * (√a' + √a) := by
      apply mul_le_mul_of_nonneg_left _ (abs_nonneg _)
      linarith
    linarith [h.2]

/-- `x ** 2` -/
theorem pow2 (hF : Accurate F) {B' ε' : ℝ} (h : Appr a' a A α) (h1 : A ^ 2 ≤ B') (h2 : 2 * A * α + α ^ 2 + (A + α) ^ 2 / 2 ^ 52 + 1 / 2 ^ 100 ≤ ε') :
    Appr (F.pow a' 2) (a ^ 2) B' ε' := by
  obtain ⟨hA, hα⟩ := h.nn
  refine ⟨?_, ?_⟩
  · rw [abs_pow]; exact (pow_le_pow_left₀ (abs_nonneg _) h.1 2).trans h1
  · have hr := hF.pow a' 2
    have hb : |a'| ^ 2 / 2 ^ 52 ≤ (A + α) ^ 2 / 2 ^ 52 := by gcongr; exact h.bound
    have hm := (h.mul h).2
    rw [← sq, ← sq] at hm
    have := abs_sub_le (F.pow a' 2) (a' ^ 2) (a ^ 2)
    nlinarith

theorem sin (hF : Accurate F) {ε' : ℝ} (h : Appr a' a A α) (h2 : α + 1 / 2 ^ 52 ≤ ε') : Appr (F.sin a') (Real.sin a) 1 ε' := by
  refine ⟨Real.abs_sin_le_one _, ?_⟩
  have h1 := hF.sin a'
  have h3 := Verif.Props.abs_sin_sub a' a
  have := abs_sub_le (F.sin a') (Real.sin a') (Real.sin a)
  linarith [h.2]

theorem cos (hF : Accurate F) {ε' : ℝ} (h : Appr a' a A α) (h2 : α + 1 / 2 ^ 52 ≤ ε') : Appr (F.cos a') (Real.cos a) 1 ε' := by
  refine ⟨Real.abs_cos_le_one _, ?_⟩
  have h1 := hF.cos a'
  have h3 := Verif.Props.abs_cos_sub a' a
  have := abs_sub_le (F.cos a') (Real.cos a') (Real.cos a)
  linarith [h.2]

end Appr

/-- correctly rounded binary64 is accurate -/
theorem accurate_binary64 : Accurate Flt.binary64 := by
  have hsmall : ∀ (x B ε : ℝ), |x| ≤ B → B / 2 ^ 53 + 1 / 2 ^ 100 ≤ ε → |Verif.Py.rnd x - x| ≤ ε := by
    intro x B ε h h'
    refine (rnd_err x).trans (le_trans ?_ h')
    gcongr
  have hpi := Real.pi_lt_d2
  refine ⟨rnd_err, fun x => hsmall _ 1 _ (Real.abs_sin_le_one x) (by norm_num), fun x => hsmall _ 1 _ (Real.abs_cos_le_one x) (by norm_num), ?_, ?_, ?_⟩
  · intro x
    refine hsmall _ 2 _ ?_ (by norm_num)
    rw [abs_le]
    constructor <;> linarith [Real.neg_pi_div_two_lt_arctan x, Real.arctan_lt_pi_div_two x]
  · intro y x _
    have h := Complex.abs_arg_le_pi ⟨x, y⟩
    have h1 := hsmall (Complex.arg ⟨x, y⟩) 3.15 (1 / 2 ^ 50) (by linarith) (by norm_num)
    have hpi' := Real.pi_lt_d4
    refine ⟨?_, 0, by simpa [Flt.binary64] using h1⟩
    have h2 := abs_sub_abs_le_abs_sub (Verif.Py.rnd (Complex.arg ⟨x, y⟩)) (Complex.arg ⟨x, y⟩)
    have h3 : |Verif.Py.rnd (Complex.arg ⟨x, y⟩)| ≤ 3.1416 + 1 / 2 ^ 50 := by linarith
    exact h3.trans (by norm_num)
  · intro x n
    refine (rnd_err (x ^ n)).trans ?_
    rw [abs_pow]
    have : 0 ≤ |x| ^ n := by positivity
    have : |x| ^ n / 2 ^ 53 ≤ |x| ^ n / 2 ^ 52 := by gcongr; norm_num; norm_num
    linarith

end Verif.Proofs
