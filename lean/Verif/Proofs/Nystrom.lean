import Verif.Props.Orbit
import Mathlib.Analysis.Calculus.MeanValue
import Mathlib.Analysis.Asymptotics.Lemmas
/-!
# Expansions of the second order, for C69
-/
namespace Verif.Proofs.Geo
open Filter Topology Asymptotics

/-- `u h = a + b h + c h² + O(h³)` -/
def Exp2 (u : ℝ → ℝ) (a b c : ℝ) : Prop := (fun h => u h - (a + b * h + c * h ^ 2)) =O[𝓝 0] fun h => h ^ 3

theorem exp2_poly (a b c : ℝ) : Exp2 (fun h => a + b * h + c * h ^ 2) a b c := by
  unfold Exp2
  simp only [sub_self]
  exact isBigO_zero _ _

theorem Exp2.congr {u w : ℝ → ℝ} {a b c a' b' c' : ℝ} (h : Exp2 u a b c) (hu : ∀ t, u t = w t) (ha : a = a') (hb : b = b') (hc : c = c') : Exp2 w a' b' c' := by
  subst ha hb hc
  have : u = w := funext hu
  rwa [← this]

theorem exp2_const (a : ℝ) : Exp2 (fun _ => a) a 0 0 := (exp2_poly a 0 0).congr (by intro t; ring) rfl rfl rfl

theorem Exp2.add {u w : ℝ → ℝ} {a b c a' b' c' : ℝ} (h : Exp2 u a b c) (h' : Exp2 w a' b' c') : Exp2 (fun t => u t + w t) (a + a') (b + b') (c + c') := by
  unfold Exp2 at *
  refine (h.add h').congr_left fun t => ?_
  ring

theorem Exp2.bounded {u : ℝ → ℝ} {a b c : ℝ} (h : Exp2 u a b c) : u =O[𝓝 0] fun _ => (1 : ℝ) := by
  have h1 : (fun h : ℝ => h ^ 3) =O[𝓝 0] fun _ => (1 : ℝ) := by
    have : Continuous fun h : ℝ => h ^ 3 := by fun_prop
    exact this.continuousAt.tendsto.isBigO_one ℝ
  have h2 : (fun h : ℝ => a + b * h + c * h ^ 2) =O[𝓝 0] fun _ => (1 : ℝ) := by
    have : Continuous fun h : ℝ => a + b * h + c * h ^ 2 := by fun_prop
    exact this.continuousAt.tendsto.isBigO_one ℝ
  refine ((h.trans h1).add h2).congr_left fun t => ?_
  ring

theorem Exp2.mul {u w : ℝ → ℝ} {a b c a' b' c' : ℝ} (h : Exp2 u a b c) (h' : Exp2 w a' b' c') :
    Exp2 (fun t => u t * w t) (a * a') (a * b' + b * a') (a * c' + b * b' + c * a') := by
  have h1 : (fun t => (u t - (a + b * t + c * t ^ 2)) * w t) =O[𝓝 0] fun t => t ^ 3 := by
    simpa using IsBigO.mul h h'.bounded
  have h2 : (fun t => (a + b * t + c * t ^ 2) * (w t - (a' + b' * t + c' * t ^ 2))) =O[𝓝 0] fun t => t ^ 3 := by
    simpa using IsBigO.mul (exp2_poly a b c).bounded h'
  have h3 : (fun t : ℝ => (b * c' + c * b' + c * c' * t) * t ^ 3) =O[𝓝 0] fun t => t ^ 3 := by
    have : (fun t : ℝ => b * c' + c * b' + c * c' * t) =O[𝓝 0] fun _ => (1 : ℝ) := by
      have : Continuous fun t : ℝ => b * c' + c * b' + c * c' * t := by fun_prop
      exact this.continuousAt.tendsto.isBigO_one ℝ
    simpa using this.mul (isBigO_refl (fun t : ℝ => t ^ 3) (𝓝 0))
  unfold Exp2
  refine ((h1.add h2).add h3).congr_left fun t => ?_
  ring

/-- a function with small derivative that vanishes at zero is small -/
theorem integrate (n : ℕ) (e e' : ℝ → ℝ) (hd : ∀ᶠ t in 𝓝 0, HasDerivAt e (e' t) t) (h0 : e 0 = 0) (hb : e' =O[𝓝 0] fun h => h ^ n) :
    e =O[𝓝 0] fun h => h ^ (n + 1) := by
  obtain ⟨C, hC, hb⟩ := hb.exists_nonneg
  rw [IsBigOWith] at hb
  obtain ⟨δ, hδ, hall⟩ := Metric.eventually_nhds_iff.1 (hd.and hb)
  refine IsBigO.of_bound C ?_
  refine Metric.eventually_nhds_iff.2 ⟨δ, hδ, fun h hh => ?_⟩
  have hmem : ∀ t ∈ segment ℝ (0 : ℝ) h, |t| ≤ |h| := by
    intro t ht
    obtain ⟨a, b, ha, hb, hab, rfl⟩ := ht
    simp only [smul_eq_mul, mul_zero, zero_add, abs_mul, abs_of_nonneg hb]
    nlinarith [abs_nonneg h]
  have hd' : ∀ t ∈ segment ℝ (0 : ℝ) h, HasDerivWithinAt e (e' t) (segment ℝ 0 h) t := by
    intro t ht
    refine (hall (y := t) ?_).1.hasDerivWithinAt
    have := hmem t ht
    simp only [dist_zero_right, Real.norm_eq_abs] at hh ⊢
    linarith
  have hbd : ∀ t ∈ segment ℝ (0 : ℝ) h, ‖e' t‖ ≤ C * |h| ^ n := by
    intro t ht
    have h1 := hmem t ht
    have := (hall (y := t) (by simp only [dist_zero_right, Real.norm_eq_abs] at hh ⊢; linarith)).2
    refine this.trans ?_
    rw [norm_pow, Real.norm_eq_abs]
    exact mul_le_mul_of_nonneg_left (pow_le_pow_left₀ (abs_nonneg _) h1 n) hC
  have := (convex_segment (𝕜 := ℝ) (0 : ℝ) h).norm_image_sub_le_of_norm_hasDerivWithin_le hd' hbd (left_mem_segment ℝ 0 h) (right_mem_segment ℝ 0 h)
  rw [h0, sub_zero, sub_zero] at this
  rw [norm_pow, pow_succ, Real.norm_eq_abs h]
  rw [Real.norm_eq_abs h] at this
  linarith

/-- the force on one coordinate: linear, with the square of `z` in its coefficient -/
def force (α β γ x z : ℝ) : ℝ := α * x + β * x * z ^ 2 + γ

theorem force_exp {α β γ : ℝ} {x z : ℝ → ℝ} {a b c a' b' c' : ℝ} (hx : Exp2 x a b c) (hz : Exp2 z a' b' c') :
    Exp2 (fun t => force α β γ (x t) (z t)) (force α β γ a a') (α * b + β * (b * a' ^ 2 + 2 * a * a' * b'))
      (α * c + β * (c * a' ^ 2 + a * (b' ^ 2 + 2 * a' * c') + 2 * b * a' * b')) := by
  have h1 := ((exp2_const α).mul hx).add (((exp2_const β).mul hx).mul (hz.mul hz)) |>.add (exp2_const γ)
  refine h1.congr (fun t => ?_) ?_ ?_ ?_
  · unfold force; ring
  · unfold force; ring
  · ring
  · ring

/-- one coordinate of a motion under `force` -/
structure Coord (α β γ : ℝ) (x u z : ℝ → ℝ) : Prop where
  pos : ∀ᶠ t in 𝓝 0, HasDerivAt x (u t) t
  vel : ∀ᶠ t in 𝓝 0, HasDerivAt u (force α β γ (x t) (z t)) t

theorem coord_exp {α β γ : ℝ} {x u z : ℝ → ℝ} (h : Coord α β γ x u z) (hz : ∃ w, HasDerivAt z w 0) : Exp2 x (x 0) (u 0) (force α β γ (x 0) (z 0) / 2) := by
  obtain ⟨w, hz⟩ := hz
  have hx := h.pos.self_of_nhds
  have hg : HasDerivAt (fun t => force α β γ (x t) (z t)) (α * u 0 + (β * u 0 * z 0 ^ 2 + β * x 0 * (2 * z 0 * w))) 0 := by
    have h1 := ((hx.const_mul α).add ((hx.const_mul β).mul (hz.pow 2))).add_const γ
    refine h1.congr_deriv ?_
    simp
  have h1 : (fun t => force α β γ (x t) (z t) - force α β γ (x 0) (z 0)) =O[𝓝 0] fun t => t ^ 1 := by
    simpa using hg.isBigO_sub
  have h2 : (fun t => u t - (u 0 + force α β γ (x 0) (z 0) * t)) =O[𝓝 0] fun t => t ^ 2 := by
    refine integrate 1 _ _ ?_ (by simp) h1
    filter_upwards [h.vel] with t ht
    refine (ht.sub (((hasDerivAt_id t).const_mul (force α β γ (x 0) (z 0))).const_add (u 0))).congr_deriv ?_
    simp
  refine integrate 2 _ _ ?_ (by simp) h2
  filter_upwards [h.pos] with t ht
  have := ht.sub ((((hasDerivAt_id t).const_mul (u 0)).const_add (x 0)).add ((hasDerivAt_pow 2 t).const_mul (force α β γ (x 0) (z 0) / 2)))
  refine this.congr_deriv ?_
  simp
  ring

/-- the coordinate to the fifth order, and one step with two middle stages -/
theorem coord_step {α β γ : ℝ} {x u z : ℝ → ℝ} {vz az : ℝ} (h : Coord α β γ x u z) (hzd : ∃ w, HasDerivAt z w 0) (hz : Exp2 z (z 0) vz (az / 2)) {x1 z1 x2 z2 : ℝ → ℝ}
    (hx1 : Exp2 x1 (x 0) (u 0 / 2) (force α β γ (x 0) (z 0) / 8)) (hz1 : Exp2 z1 (z 0) (vz / 2) (az / 8))
    (hx2 : Exp2 x2 (x 0) (u 0 / 2) (force α β γ (x 0) (z 0) / 8)) (hz2 : Exp2 z2 (z 0) (vz / 2) (az / 8)) :
    (fun t => x 0 + u 0 * t + (force α β γ (x 0) (z 0) * t + force α β γ (x1 t) (z1 t) * t + force α β γ (x2 t) (z2 t) * t) * t / 6 - x t) =O[𝓝 0] fun t => t ^ 5 := by
  have hx := coord_exp h hzd
  have hf := force_exp (α := α) (β := β) (γ := γ) hx hz
  have h1 := force_exp (α := α) (β := β) (γ := γ) hx1 hz1
  have h2 := force_exp (α := α) (β := β) (γ := γ) hx2 hz2
  set k := force α β γ (x 0) (z 0) with hk
  set d := α * u 0 + β * (u 0 * z 0 ^ 2 + 2 * x 0 * z 0 * vz) with hd
  set e := α * (k / 2) + β * (k / 2 * z 0 ^ 2 + x 0 * (vz ^ 2 + 2 * z 0 * (az / 2)) + 2 * u 0 * z 0 * vz) with he
  have h1 : Exp2 (fun t => force α β γ (x1 t) (z1 t)) k (d / 2) (e / 4) := h1.congr (fun _ => rfl) rfl (by rw [hd]; ring) (by rw [he]; ring)
  have h2 : Exp2 (fun t => force α β γ (x2 t) (z2 t)) k (d / 2) (e / 4) := h2.congr (fun _ => rfl) rfl (by rw [hd]; ring) (by rw [he]; ring)
  have v4 : (fun t => u t - (u 0 + k * t + d * t ^ 2 / 2 + e * t ^ 3 / 3)) =O[𝓝 0] fun t => t ^ 4 := by
    refine integrate 3 _ _ ?_ (by simp) hf
    filter_upwards [h.vel] with t ht
    have := ht.sub (((((hasDerivAt_id t).const_mul k).const_add (u 0)).add (((hasDerivAt_pow 2 t).const_mul d).div_const 2)).add
      (((hasDerivAt_pow 3 t).const_mul e).div_const 3))
    refine this.congr_deriv ?_
    simp
    ring
  have x5 : (fun t => x t - (x 0 + u 0 * t + k * t ^ 2 / 2 + d * t ^ 3 / 6 + e * t ^ 4 / 12)) =O[𝓝 0] fun t => t ^ 5 := by
    refine integrate 4 _ _ ?_ (by simp) v4
    filter_upwards [h.pos] with t ht
    have := ht.sub ((((((hasDerivAt_id t).const_mul (u 0)).const_add (x 0)).add (((hasDerivAt_pow 2 t).const_mul k).div_const 2)).add
      (((hasDerivAt_pow 3 t).const_mul d).div_const 6)).add (((hasDerivAt_pow 4 t).const_mul e).div_const 12))
    refine this.congr_deriv ?_
    simp
    ring
  have hs : (fun t => (force α β γ (x1 t) (z1 t) - (k + d / 2 * t + e / 4 * t ^ 2) + (force α β γ (x2 t) (z2 t) - (k + d / 2 * t + e / 4 * t ^ 2))) * (t ^ 2 / 6)) =O[𝓝 0]
      fun t => t ^ 5 := by
    have hq : (fun t : ℝ => t ^ 2 / 6) =O[𝓝 0] fun t => t ^ 2 := by
      refine ((isBigO_refl (fun t : ℝ => t ^ 2) (𝓝 0)).const_mul_left (6⁻¹ : ℝ)).congr_left fun t => ?_
      ring
    have := (IsBigO.add h1 h2).mul hq
    refine this.congr_right fun t => ?_
    ring
  refine (hs.sub x5).congr_left fun t => ?_
  ring

end Verif.Proofs.Geo
