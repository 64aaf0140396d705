import Mathlib.Analysis.Calculus.MeanValue
import Mathlib.Analysis.Calculus.Deriv.Pow
import Mathlib.Analysis.Calculus.Deriv.Mul
import Mathlib.Analysis.Calculus.Deriv.Comp
import Mathlib.Tactic.LinearCombination
import Mathlib.Tactic.Positivity
import Mathlib.Tactic.Linarith
/-!
# Bounds for motions over a finite time
-/
namespace Verif.Proofs.Drift
open Set

/-- a function with a bounded derivative is bounded by the integral of the bound -/
theorem fence {T : ℝ} {e u B b : ℝ → ℝ} (h : ∀ t, |t| ≤ T → HasDerivAt e (u t) t) (e0 : e 0 = 0) (hB : ∀ x, HasDerivAt B (b x) x) (B0 : B 0 = 0)
    (bound : ∀ t, |t| ≤ T → |u t| ≤ b |t|) : ∀ t, |t| ≤ T → |e t| ≤ B |t| := by
  have key : ∀ (f v : ℝ → ℝ), (∀ t, |t| ≤ T → HasDerivAt f (v t) t) → f 0 = 0 → (∀ t, |t| ≤ T → |v t| ≤ b |t|) → ∀ t, 0 ≤ t → t ≤ T → |f t| ≤ B t := by
    intro f v hf f0 hv t ht hT
    have hin : ∀ x ∈ Icc 0 t, |x| ≤ T := fun x hx => by rw [abs_of_nonneg hx.1]; exact hx.2.trans hT
    refine image_norm_le_of_norm_deriv_right_le_deriv_boundary (a := 0) (b := t) (f := f) (f' := v) (B := B) (B' := b) ?_ ?_ (by simp [f0, B0]) hB ?_ (x := t) ⟨ht, le_refl t⟩
    · exact fun x hx => (hf x (hin x hx)).continuousAt.continuousWithinAt
    · exact fun x hx => (hf x (hin x ⟨hx.1, hx.2.le⟩)).hasDerivWithinAt
    · intro x hx
      have := hv x (hin x ⟨hx.1, hx.2.le⟩)
      rwa [abs_of_nonneg hx.1] at this
  intro t ht
  rcases le_total 0 t with h0 | h0
  · rw [abs_of_nonneg h0] at ht ⊢
    exact key e u h e0 bound t h0 ht
  · rw [abs_of_nonpos h0] at ht ⊢
    have := key (fun s => e (-s)) (fun s => -u (-s)) (fun s hs => ?_) (by simp [e0]) (fun s hs => ?_) (-t) (by linarith) ht
    · simpa using this
    · have h1 := (h (-s) (by rwa [abs_neg])).scomp s (hasDerivAt_neg s)
      exact h1.congr_deriv (by simp)
    · have h2 := bound (-s) (by rwa [abs_neg])
      rwa [abs_neg] at h2 ⊢

/-- twice: a constant bound of the acceleration -/
theorem fence_const {T A : ℝ} {x u g : ℝ → ℝ} (h1 : ∀ t, |t| ≤ T → HasDerivAt x (u t) t) (h2 : ∀ t, |t| ≤ T → HasDerivAt u (g t) t) (hg : ∀ t, |t| ≤ T → |g t| ≤ A) :
    (∀ t, |t| ≤ T → |u t - u 0| ≤ A * |t|) ∧ ∀ t, |t| ≤ T → |x t - x 0 - u 0 * t| ≤ A * |t| ^ 2 / 2 := by
  have hu : ∀ t, |t| ≤ T → |u t - u 0| ≤ A * |t| := by
    refine fence (e := fun t => u t - u 0) (u := g) (B := fun s => A * s) (b := fun _ => A) (fun t ht => (h2 t ht).sub_const (u 0)) (by simp) (fun s => ?_) (by simp) hg
    simpa using (hasDerivAt_id s).const_mul A
  refine ⟨hu, ?_⟩
  refine fence (e := fun t => x t - x 0 - u 0 * t) (u := fun t => u t - u 0) (B := fun s => A * s ^ 2 / 2) (b := fun s => A * s) (fun t ht => ?_) (by simp) (fun s => ?_) (by simp) hu
  · exact (((h1 t ht).sub_const (x 0)).sub ((hasDerivAt_id t).const_mul (u 0))).congr_deriv (by simp)
  · refine (((hasDerivAt_pow 2 s).const_mul A).div_const 2).congr_deriv ?_
    norm_num
    ring

theorem fence_vel {T A : ℝ} {u g : ℝ → ℝ} (h2 : ∀ t, |t| ≤ T → HasDerivAt u (g t) t) (hg : ∀ t, |t| ≤ T → |g t| ≤ A) : ∀ t, |t| ≤ T → |u t - u 0| ≤ A * |t| := by
  refine fence (e := fun t => u t - u 0) (u := g) (B := fun s => A * s) (b := fun _ => A) (fun t ht => (h2 t ht).sub_const (u 0)) (by simp) (fun s => ?_) (by simp) hg
  simpa using (hasDerivAt_id s).const_mul A

/-- a bound of the rate of change of the acceleration -/
theorem fence_jerk {T J : ℝ} {u g : ℝ → ℝ} (h2 : ∀ t, |t| ≤ T → HasDerivAt u (g t) t) (hg : ∀ t, |t| ≤ T → |g t - g 0| ≤ J * |t|) :
    ∀ t, |t| ≤ T → |u t - u 0 - g 0 * t| ≤ J * |t| ^ 2 / 2 := by
  refine fence (e := fun t => u t - u 0 - g 0 * t) (u := fun t => g t - g 0) (B := fun s => J * s ^ 2 / 2) (b := fun s => J * s) (fun t ht => ?_) (by simp) (fun s => ?_) (by simp) hg
  · exact (((h2 t ht).sub_const (u 0)).sub ((hasDerivAt_id t).const_mul (g 0))).congr_deriv (by simp)
  · refine (((hasDerivAt_pow 2 s).const_mul J).div_const 2).congr_deriv ?_
    norm_num
    ring

/-- Taylor's formula of the third order with a remainder -/
theorem fence_cubic {T c1 c2 m : ℝ} {x u g : ℝ → ℝ} (h1 : ∀ t, |t| ≤ T → HasDerivAt x (u t) t) (h2 : ∀ t, |t| ≤ T → HasDerivAt u (g t) t)
    (hg : ∀ t, |t| ≤ T → |g t - g 0 - m * t| ≤ c1 * |t| + c2 * |t| ^ 2) :
    ∀ t, |t| ≤ T → |x t - (x 0 + u 0 * t + g 0 * t ^ 2 / 2 + m * t ^ 3 / 6)| ≤ c1 * |t| ^ 3 / 6 + c2 * |t| ^ 4 / 12 := by
  have hu : ∀ t, |t| ≤ T → |u t - (u 0 + g 0 * t + m * t ^ 2 / 2)| ≤ c1 * |t| ^ 2 / 2 + c2 * |t| ^ 3 / 3 := by
    refine fence (e := fun t => u t - (u 0 + g 0 * t + m * t ^ 2 / 2)) (u := fun t => g t - g 0 - m * t) (B := fun s => c1 * s ^ 2 / 2 + c2 * s ^ 3 / 3)
      (b := fun s => c1 * s + c2 * s ^ 2) (fun t ht => ?_) (by simp) (fun s => ?_) (by simp) hg
    · refine ((h2 t ht).sub ((((hasDerivAt_id t).const_mul (g 0)).const_add (u 0)).add (((hasDerivAt_pow 2 t).const_mul m).div_const 2))).congr_deriv ?_
      norm_num
      ring
    · refine ((((hasDerivAt_pow 2 s).const_mul c1).div_const 2).add (((hasDerivAt_pow 3 s).const_mul c2).div_const 3)).congr_deriv ?_
      norm_num
      ring
  refine fence (e := fun t => x t - (x 0 + u 0 * t + g 0 * t ^ 2 / 2 + m * t ^ 3 / 6)) (u := fun t => u t - (u 0 + g 0 * t + m * t ^ 2 / 2))
    (B := fun s => c1 * s ^ 3 / 6 + c2 * s ^ 4 / 12) (b := fun s => c1 * s ^ 2 / 2 + c2 * s ^ 3 / 3) (fun t ht => ?_) (by simp) (fun s => ?_) (by simp) hu
  · refine ((h1 t ht).sub (((((hasDerivAt_id t).const_mul (u 0)).const_add (x 0)).add (((hasDerivAt_pow 2 t).const_mul (g 0)).div_const 2)).add
      (((hasDerivAt_pow 3 t).const_mul m).div_const 6))).congr_deriv ?_
    norm_num
    ring
  · refine ((((hasDerivAt_pow 3 s).const_mul c1).div_const 6).add (((hasDerivAt_pow 4 s).const_mul c2).div_const 12)).congr_deriv ?_
    norm_num
    ring

theorem cube_diff {x x0 z z0 M d : ℝ} (hd : 0 ≤ d) (h1 : |x| ≤ M) (h2 : |x0| ≤ M) (h3 : |z| ≤ M) (h4 : |z0| ≤ M) (h5 : |x - x0| ≤ d) (h6 : |z - z0| ≤ d) : |x * z ^ 2 - x0 * z0 ^ 2| ≤ 3 * M ^ 2 * d := by
  have hM : 0 ≤ M := (abs_nonneg _).trans h1
  have e : x * z ^ 2 - x0 * z0 ^ 2 = (x - x0) * (z * z) + x0 * ((z - z0) * (z + z0)) := by ring
  have a1 : |(x - x0) * (z * z)| ≤ d * (M * M) := by
    rw [abs_mul, abs_mul]
    exact mul_le_mul h5 (mul_le_mul h3 h3 (abs_nonneg _) hM) (by positivity) hd
  have a2 : |x0 * ((z - z0) * (z + z0))| ≤ M * (d * (M + M)) := by
    rw [abs_mul, abs_mul]
    exact mul_le_mul h2 (mul_le_mul h6 ((abs_add_le _ _).trans (add_le_add h3 h4)) (abs_nonneg _) hd) (by positivity) hM
  rw [e]
  have := abs_add_le ((x - x0) * (z * z)) (x0 * ((z - z0) * (z + z0)))
  nlinarith

/-- how far a coordinate of a satellite goes in a time -/
theorem way {x x0 u0 t : ℝ} (ht : |t| ≤ 900) (hu : |u0| ≤ 4000) (h : |x - x0 - u0 * t| ≤ 0.8 * |t| ^ 2 / 2) : |x - x0| ≤ 4360 * |t| := by
  have e : x - x0 = (x - x0 - u0 * t) + u0 * t := by ring
  rw [e]
  refine (abs_add_le _ _).trans ?_
  rw [abs_mul]
  have : |u0| * |t| ≤ 4000 * |t| := mul_le_mul_of_nonneg_right hu (abs_nonneg _)
  nlinarith [abs_nonneg t]

/-- one coordinate of the motion of a satellite around the earth over 15 minutes -/
structure Coord15 (α β κ : ℝ) (x u g z U h : ℝ → ℝ) : Prop where
  hα : |α| ≤ 2.56e-8
  hβ : |β| ≤ 2.2e-26
  hκ : |κ| ≤ 1.4585e-4
  dx : ∀ t, |t| ≤ 900 → HasDerivAt x (u t) t
  du : ∀ t, |t| ≤ 900 → HasDerivAt u (g t) t
  dU : ∀ t, |t| ≤ 900 → HasDerivAt U (h t) t
  ag : ∀ t, |t| ≤ 900 → |g t| ≤ 0.8
  ah : ∀ t, |t| ≤ 900 → |h t| ≤ 0.8
  ax : ∀ t, |t| ≤ 900 → |x t| ≤ 2.6e7
  az : ∀ t, |t| ≤ 900 → |z t| ≤ 2.6e7
  u0 : |u 0| ≤ 4000
  wz : ∀ t, |t| ≤ 900 → |z t - z 0| ≤ 4360 * |t|
  law : ∀ t, |t| ≤ 900 → |g t - g 0 - (α * (x t - x 0) + β * (x t * z t ^ 2 - x 0 * z 0 ^ 2) + κ * (U t - U 0))| ≤ 1.62e-6 * |t|

theorem Coord15.wx {α β κ : ℝ} {x u g z U h : ℝ → ℝ} (c : Coord15 α β κ x u g z U h) : ∀ t, |t| ≤ 900 → |x t - x 0| ≤ 4360 * |t| :=
  fun t ht => way ht c.u0 ((fence_const c.dx c.du c.ag).2 t ht)

theorem Coord15.cube {α β κ : ℝ} {x u g z U h : ℝ → ℝ} (c : Coord15 α β κ x u g z U h) (t : ℝ) (ht : |t| ≤ 900) : |β * (x t * z t ^ 2 - x 0 * z 0 ^ 2)| ≤ 2e-7 * |t| := by
  have z0 : |(0:ℝ)| ≤ 900 := by norm_num
  have := cube_diff (by positivity) (c.ax t ht) (c.ax 0 z0) (c.az t ht) (c.az 0 z0) (c.wx t ht) (c.wz t ht)
  rw [abs_mul]
  have h2 := mul_le_mul c.hβ this (abs_nonneg _) (by norm_num)
  refine h2.trans ?_
  have := abs_nonneg t
  norm_num
  nlinarith

theorem Coord15.jerk {α β κ : ℝ} {x u g z U h : ℝ → ℝ} (c : Coord15 α β κ x u g z U h) : ∀ t, |t| ≤ 900 → |g t - g 0| ≤ 2.4e-4 * |t| := by
  intro t ht
  have h1 := c.law t ht
  have h2 := c.cube t ht
  have h3 : |α * (x t - x 0)| ≤ 2.56e-8 * (4360 * |t|) := by rw [abs_mul]; exact mul_le_mul c.hα (c.wx t ht) (abs_nonneg _) (by norm_num)
  have h4 : |κ * (U t - U 0)| ≤ 1.4585e-4 * (0.8 * |t|) := by rw [abs_mul]; exact mul_le_mul c.hκ (fence_vel c.dU c.ah t ht) (abs_nonneg _) (by norm_num)
  have h0 := abs_nonneg t
  rw [abs_le] at h1 h2 h3 h4 ⊢
  norm_num at h1 h2 h3 h4 ⊢
  constructor <;> linarith [h1.1, h1.2]

theorem Coord15.cubic {α β κ : ℝ} {x u g z U h : ℝ → ℝ} (c : Coord15 α β κ x u g z U h) (hh : ∀ t, |t| ≤ 900 → |h t - h 0| ≤ 2.4e-4 * |t|) (t : ℝ) (ht : |t| ≤ 900) :
    |x t - (x 0 + u 0 * t + g 0 * t ^ 2 / 2 + (α * u 0 + κ * h 0) * t ^ 3 / 6)| ≤ 1.82e-6 * |t| ^ 3 / 6 + 2.775e-8 * |t| ^ 4 / 12 := by
  refine fence_cubic c.dx c.du (fun t ht => ?_) t ht
  have h1 := c.law t ht
  have h2 := c.cube t ht
  have h3 : |α * (x t - x 0 - u 0 * t)| ≤ 2.56e-8 * (0.8 * |t| ^ 2 / 2) := by
    rw [abs_mul]; exact mul_le_mul c.hα ((fence_const c.dx c.du c.ag).2 t ht) (abs_nonneg _) (by norm_num)
  have h4 : |κ * (U t - U 0 - h 0 * t)| ≤ 1.4585e-4 * (2.4e-4 * |t| ^ 2 / 2) := by
    rw [abs_mul]; exact mul_le_mul c.hκ (fence_jerk c.dU hh t ht) (abs_nonneg _) (by norm_num)
  have h0 := sq_nonneg (|t|)
  rw [abs_le] at h1 h2 h3 h4 ⊢
  norm_num only at h1 h2 h3 h4 ⊢
  constructor <;> linarith [h1.1, h1.2]

/-- a point half a step on -/
theorem half_way {x0 u0 k t : ℝ} (ht : |t| ≤ 900) (hu : |u0| ≤ 4000) (hk : |k| ≤ 0.85) : |x0 + u0 * t / 2 + k * t * t / 8 - x0| ≤ 2100 * |t| := by
  have e : x0 + u0 * t / 2 + k * t * t / 8 - x0 = u0 * (t / 2) + k * (t * t / 8) := by ring
  rw [e]
  refine (abs_add_le _ _).trans ?_
  rw [abs_mul, abs_mul, abs_div, abs_div, abs_mul, abs_of_pos (by norm_num : (0:ℝ) < 2), abs_of_pos (by norm_num : (0:ℝ) < 8)]
  have h0 := abs_nonneg t
  have a1 : |u0| * (|t| / 2) ≤ 4000 * (|t| / 2) := mul_le_mul_of_nonneg_right hu (by positivity)
  have a2 : |k| * (|t| * |t| / 8) ≤ 0.85 * (|t| * 900 / 8) := mul_le_mul hk (by nlinarith) (by positivity) (by norm_num)
  norm_num only at a2
  linarith

/-- the acceleration at a point half a step on -/
theorem force_half {α β x0 z0 x z t : ℝ} (hα : |α| ≤ 2.56e-8) (hβ : |β| ≤ 2.2e-26) (ht : |t| ≤ 900) (hx0 : |x0| ≤ 2.6e7) (hz0 : |z0| ≤ 2.6e7) (hx : |x - x0| ≤ 2100 * |t|)
    (hz : |z - z0| ≤ 2100 * |t|) : |β * (x * z ^ 2 - x0 * z0 ^ 2)| ≤ 1.1e-7 * |t| ∧ |α * (x - x0) + β * (x * z ^ 2 - x0 * z0 ^ 2)| ≤ 0.05 := by
  have h0 := abs_nonneg t
  have bx : |x| ≤ 2.8e7 := by
    have := abs_add_le (x - x0) x0
    rw [sub_add_cancel] at this
    norm_num at hx0 ⊢
    linarith
  have bz : |z| ≤ 2.8e7 := by
    have := abs_add_le (z - z0) z0
    rw [sub_add_cancel] at this
    norm_num at hz0 ⊢
    linarith
  have := cube_diff (by positivity) bx (hx0.trans (by norm_num)) bz (hz0.trans (by norm_num)) hx hz
  have h2 : |β * (x * z ^ 2 - x0 * z0 ^ 2)| ≤ 1.1e-7 * |t| := by
    rw [abs_mul]
    refine (mul_le_mul hβ this (abs_nonneg _) (by norm_num)).trans ?_
    norm_num
    nlinarith
  refine ⟨h2, ?_⟩
  refine (abs_add_le _ _).trans ?_
  have h3 : |α * (x - x0)| ≤ 2.56e-8 * (2100 * |t|) := by rw [abs_mul]; exact mul_le_mul hα hx (abs_nonneg _) (by norm_num)
  norm_num at h2 h3 ⊢
  linarith

/-- what one step of the integration gives for a coordinate, the accelerations at the three points being `k1`, `k2` and `k3` -/
theorem step_cubic {α β x0 u0 k1 k2 k3 x1 z1 x2 z2 z0 t : ℝ} (hα : |α| ≤ 2.56e-8) (hβ : |β| ≤ 2.2e-26) (ht : |t| ≤ 900) (hx0 : |x0| ≤ 2.6e7) (hz0 : |z0| ≤ 2.6e7) (hk1 : |k1| ≤ 0.8)
    (hk2b : |k2| ≤ 0.85) (h1 : x1 = x0 + u0 * t / 2 + k1 * t * t / 8) (h2 : x2 = x0 + u0 * t / 2 + k2 * t * t / 8)
    (wx1 : |x1 - x0| ≤ 2100 * |t|) (wz1 : |z1 - z0| ≤ 2100 * |t|) (wx2 : |x2 - x0| ≤ 2100 * |t|) (wz2 : |z2 - z0| ≤ 2100 * |t|)
    (hk2 : k2 - k1 = α * (x1 - x0) + β * (x1 * z1 ^ 2 - x0 * z0 ^ 2)) (hk3 : k3 - k1 = α * (x2 - x0) + β * (x2 * z2 ^ 2 - x0 * z0 ^ 2)) :
    |x0 + u0 * t + (k1 * t + k2 * t + k3 * t) * t / 6 - (x0 + u0 * t + k1 * t ^ 2 / 2 + α * u0 * t ^ 3 / 6)| ≤ 3.7e-8 * |t| ^ 3 + 8.81e-10 * |t| ^ 4 := by
  have f1 := (force_half hα hβ ht hx0 hz0 wx1 wz1).1
  have f2 := (force_half hα hβ ht hx0 hz0 wx2 wz2).1
  set b1 := β * (x1 * z1 ^ 2 - x0 * z0 ^ 2)
  set b2 := β * (x2 * z2 ^ 2 - x0 * z0 ^ 2)
  have e : x0 + u0 * t + (k1 * t + k2 * t + k3 * t) * t / 6 - (x0 + u0 * t + k1 * t ^ 2 / 2 + α * u0 * t ^ 3 / 6) = (α * ((k1 + k2) / 8 * t ^ 2) + b1 + b2) * (t ^ 2 / 6) := by
    have e2 : k2 = k1 + α * (u0 * t / 2 + k1 * t * t / 8) + b1 := by rw [h1] at hk2; linear_combination hk2
    have e3 : k3 = k1 + α * (u0 * t / 2 + k2 * t * t / 8) + b2 := by rw [h2] at hk3; linear_combination hk3
    linear_combination (t ^ 2 / 6) * e2 + (t ^ 2 / 6) * e3
  have hs : 0 ≤ |t| ^ 2 := by positivity
  have h3 : |α * ((k1 + k2) / 8 * t ^ 2)| ≤ 2.56e-8 * (1.65 / 8 * |t| ^ 2) := by
    rw [abs_mul, abs_mul, abs_div, abs_pow, abs_of_pos (by norm_num : (0:ℝ) < 8)]
    refine mul_le_mul hα (mul_le_mul_of_nonneg_right ?_ hs) (by positivity) (by norm_num)
    have := (abs_add_le k1 k2).trans (add_le_add hk1 hk2b)
    norm_num at this ⊢
    linarith
  rw [e, abs_mul, abs_div, abs_pow, abs_of_pos (by norm_num : (0:ℝ) < 6)]
  have h4 : |α * ((k1 + k2) / 8 * t ^ 2) + b1 + b2| ≤ 5.285e-9 * |t| ^ 2 + 2.2e-7 * |t| := by
    refine (abs_add_le _ _).trans ?_
    have := abs_add_le (α * ((k1 + k2) / 8 * t ^ 2)) b1
    norm_num only at f1 f2 h3 ⊢
    linarith
  have h5 := mul_le_mul_of_nonneg_right h4 (show (0:ℝ) ≤ |t| ^ 2 / 6 by positivity)
  refine h5.trans ?_
  have h6 : 0 ≤ |t| ^ 3 := by positivity
  have h7 : 0 ≤ |t| ^ 4 := by positivity
  norm_num only
  nlinarith

/-- the motion and the integration together: what is missed is the third-order effect of the rotation -/
theorem Coord15.drift {α β κ : ℝ} {x u g z U h : ℝ → ℝ} (c : Coord15 α β κ x u g z U h) (hh : ∀ t, |t| ≤ 900 → |h t - h 0| ≤ 2.4e-4 * |t|) {t P : ℝ} (ht : |t| ≤ 900)
    (hP : |P - (x 0 + u 0 * t + g 0 * t ^ 2 / 2 + α * u 0 * t ^ 3 / 6)| ≤ 3.7e-8 * |t| ^ 3 + 8.81e-10 * |t| ^ 4) :
    |x t - P - κ * h 0 * t ^ 3 / 6| ≤ 2500 * (|t| / 900) ^ 3 := by
  have h1 := c.cubic hh t ht
  have h3 : 0 ≤ |t| ^ 3 := by positivity
  have h4 : |t| ^ 4 ≤ 900 * |t| ^ 3 := by nlinarith
  rw [abs_le] at h1 hP ⊢
  rw [div_pow]
  norm_num only at h1 hP ⊢
  constructor <;> linarith [h1.1, h1.2, hP.1, hP.2]

end Verif.Proofs.Drift
