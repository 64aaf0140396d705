import Mathlib.Geometry.Euclidean.Angle.Unoriented.TriangleInequality
import Mathlib.Analysis.InnerProductSpace.PiL2
import Mathlib.Analysis.SpecialFunctions.Trigonometric.Bounds
import Verif.Props.Geo
/-!
# Proofs: elevations of two close lines of sight
-/
namespace Verif.Proofs
open Verif.Spec.Geo Verif.Props Verif.Model.Geo Real InnerProductGeometry

/-- vectors of space as elements of the Euclidean space of Mathlib -/
noncomputable def eu (v : Vec) : EuclideanSpace ℝ (Fin 3) := !₂[v.1, v.2.1, v.2.2]

theorem eu_inner (u v : Vec) : inner ℝ (eu u) (eu v) = dot u v := by
  simp [eu, dot, PiLp.inner_apply, Fin.sum_univ_three]
  ring

theorem eu_norm (v : Vec) : ‖eu v‖ = len v := by
  rw [len, ← eu_inner, real_inner_self_eq_norm_sq, Real.sqrt_sq (norm_nonneg _)]

theorem eu_sub (u v : Vec) : eu (sub u v) = eu u - eu v := by
  ext i; fin_cases i <;> simp [eu, sub]

theorem eu_scale (k : ℝ) (v : Vec) : eu (scale k v) = k • eu v := by
  ext i; fin_cases i <;> simp [eu, scale]

/-- the elevation is the complement of the angle with the vertical -/
theorem elevation_angle (u p s : Vec) (hu : dot u u = 1) : elevation u p s = π / 2 - angle (eu s - eu p) (eu u) := by
  have h1 : ‖eu u‖ = 1 := by rw [eu_norm, len, hu, Real.sqrt_one]
  rw [elevation, ← eu_inner, ← eu_norm, eu_sub, angle, h1, mul_one, Real.arccos]
  ring

/-- the angle between two close vectors -/
theorem angle_close {V : Type*} [NormedAddCommGroup V] [InnerProductSpace ℝ V] (x y : V) (δ : ℝ) (hδ : δ ≤ 1 / 100) (hy : 0 < ‖y‖) (h : ‖x - y‖ ≤ δ * ‖y‖) :
    angle x y ≤ δ * 1.0001 := by
  have hδ0 : 0 ≤ δ := by
    by_contra hn
    have := norm_nonneg (x - y)
    nlinarith
  have hexp : ‖x - y‖ ^ 2 = ‖x‖ ^ 2 - 2 * inner ℝ x y + ‖y‖ ^ 2 := norm_sub_sq_real x y
  have hxy : ‖x - y‖ ≤ ‖y‖ / 100 := by nlinarith
  have hx : 0 < ‖x‖ := by
    have := norm_sub_norm_le y x
    rw [norm_sub_rev] at this
    linarith
  have hsq : ‖x - y‖ ^ 2 ≤ (‖y‖ / 100) ^ 2 := pow_le_pow_left₀ (norm_nonneg _) hxy 2
  have hin : 0 < inner ℝ x y := by nlinarith [sq_nonneg ‖x‖]
  have ha0 : 0 ≤ angle x y := angle_nonneg x y
  have hap : angle x y < π / 2 := by
    rw [angle, Real.arccos_lt_pi_div_two]
    positivity
  have hsin := sin_angle_mul_norm_mul_norm x y
  have hs : sin (angle x y) ≤ δ := by
    have hroot : √(inner ℝ x x * inner ℝ y y - inner ℝ x y * inner ℝ x y) ≤ ‖x‖ * (δ * ‖y‖) := by
      refine (Real.sqrt_le_sqrt (y := (‖x‖ * ‖x - y‖) ^ 2) ?_).trans ?_
      · rw [real_inner_self_eq_norm_sq, real_inner_self_eq_norm_sq, mul_pow, hexp]
        nlinarith [sq_nonneg (‖x‖ ^ 2 - inner ℝ x y)]
      · rw [Real.sqrt_sq (by positivity)]
        gcongr
    rw [← hsin] at hroot
    have hpos : 0 < ‖x‖ * ‖y‖ := by positivity
    by_contra hn
    push Not at hn
    have := mul_lt_mul_of_pos_right hn hpos
    linarith
  -- from the sine to the angle
  have hj : angle x y ≤ π / 2 * δ := by
    have := mul_le_sin ha0 hap.le
    have h2 : 2 / π * angle x y ≤ δ := this.trans hs
    have hp := Real.pi_pos
    calc angle x y = π / 2 * (2 / π * angle x y) := by field_simp
      _ ≤ π / 2 * δ := by gcongr
  rcases ha0.eq_or_lt with h0 | h0
  · rw [← h0]; positivity
  have hp := Real.pi_lt_d4
  have hle : angle x y ≤ 1.5708 * δ := by nlinarith
  have hc := sin_gt_sub_cube h0
  have hcube : angle x y ^ 3 / 6 ≤ angle x y * (1.5708 * δ) ^ 2 / 6 := by
    have : angle x y ^ 3 = angle x y * angle x y ^ 2 := by ring
    rw [this]
    gcongr
  have hd2 : (1.5708 * δ) ^ 2 ≤ 2.4675e-4 := by
    refine (pow_le_pow_left₀ (by positivity) (show 1.5708 * δ ≤ 0.015708 by linarith) 2).trans (by norm_num)
  have : angle x y * (1.5708 * δ) ^ 2 / 6 ≤ angle x y * 2.4675e-4 / 6 := by gcongr
  norm_num at this ⊢
  nlinarith

/-- the elevations of two close lines of sight -/
theorem elevation_close (u p s p' s' : Vec) (hu : dot u u = 1) (δ : ℝ) (hδ : δ ≤ 1 / 100) (hd : 0 < len (sub s' p'))
    (h : len (sub (sub s p) (sub s' p')) ≤ δ * len (sub s' p')) : |elevation u p s - elevation u p' s'| ≤ δ * 1.0001 := by
  rw [elevation_angle _ _ _ hu, elevation_angle _ _ _ hu]
  rw [← eu_norm, eu_sub] at hd
  rw [← eu_norm, ← eu_norm, eu_sub, eu_sub, eu_sub] at h
  have key := angle_close _ _ δ hδ hd h
  have t1 := angle_le_angle_add_angle (eu s - eu p) (eu s' - eu p') (eu u)
  have t2 := angle_le_angle_add_angle (eu s' - eu p') (eu s - eu p) (eu u)
  rw [angle_comm (eu s' - eu p') (eu s - eu p)] at t2
  rw [abs_le]
  constructor <;> linarith

theorem len_sub_le (a b c d : Vec) : len (sub (sub a b) (sub c d)) ≤ len (sub a c) + len (sub b d) := by
  simp only [← eu_norm, eu_sub]
  have : eu a - eu b - (eu c - eu d) = (eu a - eu c) - (eu b - eu d) := by abel
  rw [this]
  exact norm_sub_le _ _

end Verif.Proofs
