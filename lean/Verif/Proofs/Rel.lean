import Verif.Proofs.Near
/-!
# Relative errors of positive numbers, and the angle of a vector
-/
namespace Verif.Proofs
open Verif.Py Verif.Spec

/-- `x'` is `x` up to the relative error `ρ` -/
structure Rel (x' x ρ : ℝ) : Prop where
  lo : (1 - ρ) * x ≤ x'
  hi : x' ≤ (1 + ρ) * x

namespace Rel
variable {F : Flt} {x' x ρ y' y σ : ℝ}

theorem refl (x : ℝ) : Rel x x 0 := ⟨by simp, by simp⟩

theorem of_abs (h : |x' - x| ≤ ρ * x) : Rel x' x ρ := by
  rw [abs_le] at h
  constructor <;> nlinarith

theorem abs (h : Rel x' x ρ) : |x' - x| ≤ ρ * x := by
  rw [abs_le]; constructor <;> nlinarith [h.lo, h.hi]

theorem pos (h : Rel x' x ρ) (hx : 0 < x) (hρ : ρ < 1) : 0 < x' := lt_of_lt_of_le (mul_pos (by linarith) hx) h.lo

theorem rnd (hF : Accurate F) {ρ' : ℝ} (h : Rel x' x ρ) (hx : 1 / 2 ^ 46 ≤ x) (hρ : ρ < 1) (hρ' : ρ + (1 + ρ) / 2 ^ 53 + 1 / 2 ^ 54 ≤ ρ') :
    Rel (F.rnd x') x ρ' := by
  have hx0 : 0 < x := lt_of_lt_of_le (by positivity) hx
  have hp := h.pos hx0 hρ
  have hr := hF.rnd x'
  rw [abs_of_pos hp] at hr
  have hw : (1 : ℝ) / 2 ^ 100 ≤ 1 / 2 ^ 54 * x := by
    have : (1 : ℝ) / 2 ^ 100 = 1 / 2 ^ 54 * (1 / 2 ^ 46) := by norm_num
    rw [this]; gcongr
  apply of_abs
  have h1 := h.abs
  have h2 := abs_sub_le (F.rnd x') x' x
  have h3 : x' / 2 ^ 53 ≤ (1 + ρ) * x / 2 ^ 53 := by gcongr; exact h.hi
  have h4 := mul_le_mul_of_nonneg_right hρ' hx0.le
  have : (ρ + (1 + ρ) / 2 ^ 53 + 1 / 2 ^ 54) * x = ρ * x + (1 + ρ) * x / 2 ^ 53 + 1 / 2 ^ 54 * x := by ring
  linarith

theorem pow (hF : Accurate F) {ρ' ρ1 : ℝ} (n : ℕ) (h : Rel x' x ρ) (hx : 1 ≤ x) (hρ : ρ < 1)
    (hlo : 1 - ρ1 ≤ (1 - ρ) ^ n) (hhi : (1 + ρ) ^ n ≤ 1 + ρ1) (hρ' : ρ1 + (1 + ρ1) / 2 ^ 52 + 1 / 2 ^ 100 ≤ ρ') :
    Rel (F.pow x' n) (x ^ n) ρ' := by
  have hx0 : 0 < x := by linarith
  have hp := h.pos hx0 hρ
  have hr := hF.pow x' n
  rw [abs_of_pos hp] at hr
  have hxn : 1 ≤ x ^ n := one_le_pow₀ hx
  have hxn0 : 0 < x ^ n := by linarith
  have k1 : (1 - ρ1) * x ^ n ≤ x' ^ n := by
    calc (1 - ρ1) * x ^ n ≤ (1 - ρ) ^ n * x ^ n := by gcongr
      _ = ((1 - ρ) * x) ^ n := (mul_pow _ _ _).symm
      _ ≤ x' ^ n := pow_le_pow_left₀ (mul_nonneg (by linarith) hx0.le) h.lo n
  have k2 : x' ^ n ≤ (1 + ρ1) * x ^ n := by
    calc x' ^ n ≤ ((1 + ρ) * x) ^ n := pow_le_pow_left₀ hp.le h.hi n
      _ = (1 + ρ) ^ n * x ^ n := mul_pow _ _ _
      _ ≤ (1 + ρ1) * x ^ n := by gcongr
  have k3 : x' ^ n / 2 ^ 52 ≤ (1 + ρ1) * x ^ n / 2 ^ 52 := by gcongr
  have k4 := mul_le_mul_of_nonneg_right hρ' hxn0.le
  have k5 : (ρ1 + (1 + ρ1) / 2 ^ 52 + 1 / 2 ^ 100) * x ^ n = ρ1 * x ^ n + (1 + ρ1) * x ^ n / 2 ^ 52 + 1 / 2 ^ 100 * x ^ n := by ring
  have k6 : (1 : ℝ) / 2 ^ 100 ≤ 1 / 2 ^ 100 * x ^ n := by
    have : (0 : ℝ) < 1 / 2 ^ 100 := by positivity
    nlinarith
  rw [abs_le] at hr
  constructor <;> nlinarith

theorem mul {τ : ℝ} (h : Rel x' x ρ) (k : Rel y' y σ) (hx : 0 < x) (hy : 0 < y) (hρ : ρ < 1) (hσ : σ < 1)
    (hlo : 1 - τ ≤ (1 - ρ) * (1 - σ)) (hhi : (1 + ρ) * (1 + σ) ≤ 1 + τ) : Rel (x' * y') (x * y) τ := by
  have hx' := h.pos hx hρ
  have hy' := k.pos hy hσ
  have hxy : 0 < x * y := mul_pos hx hy
  constructor
  · calc (1 - τ) * (x * y) ≤ (1 - ρ) * (1 - σ) * (x * y) := mul_le_mul_of_nonneg_right hlo hxy.le
      _ = ((1 - ρ) * x) * ((1 - σ) * y) := by ring
      _ ≤ x' * y' := mul_le_mul h.lo k.lo (mul_nonneg (by linarith) hy.le) hx'.le
  · calc x' * y' ≤ ((1 + ρ) * x) * ((1 + σ) * y) := mul_le_mul h.hi k.hi hy'.le (hx'.le.trans h.hi)
      _ = (1 + ρ) * (1 + σ) * (x * y) := by ring
      _ ≤ (1 + τ) * (x * y) := mul_le_mul_of_nonneg_right hhi hxy.le

theorem div {τ : ℝ} (h : Rel x' x ρ) (k : Rel y' y σ) (hx : 0 < x) (hy : 0 < y) (hρ : ρ < 1) (hσ : σ < 1)
    (hlo : (1 - τ) * (1 + σ) ≤ 1 - ρ) (hhi : 1 + ρ ≤ (1 + τ) * (1 - σ)) : Rel (x' / y') (x / y) τ := by
  have hy' := k.pos hy hσ
  have hx' := h.pos hx hρ
  have hq : 0 < x / y := div_pos hx hy
  have hxq : x = x / y * y := by field_simp
  constructor
  · rw [le_div_iff₀ hy']
    by_cases hτ : 0 ≤ 1 - τ
    · calc (1 - τ) * (x / y) * y' ≤ (1 - τ) * (x / y) * ((1 + σ) * y) := by gcongr; exact k.hi
        _ = ((1 - τ) * (1 + σ)) * (x / y * y) := by ring
        _ = ((1 - τ) * (1 + σ)) * x := by rw [← hxq]
        _ ≤ (1 - ρ) * x := by gcongr
        _ ≤ x' := h.lo
    · have : (1 - τ) * (x / y) * y' ≤ 0 := by
        have : (1 - τ) ≤ 0 := by linarith
        have := mul_nonneg_of_nonpos_of_nonpos this (neg_nonpos.2 (mul_pos hq hy').le)
        nlinarith
      linarith
  · rw [div_le_iff₀ hy']
    have hτ : 0 ≤ 1 + τ := by
      by_contra hneg
      have : (1 + τ) * (1 - σ) ≤ 0 := mul_nonpos_of_nonpos_of_nonneg (by linarith) (by linarith)
      have hρ1 : -1 < ρ := by
        have := h.lo.trans h.hi
        nlinarith
      linarith
    calc x' ≤ (1 + ρ) * x := h.hi
      _ ≤ ((1 + τ) * (1 - σ)) * x := by gcongr
      _ = ((1 + τ) * (1 - σ)) * (x / y * y) := by rw [← hxq]
      _ = (1 + τ) * (x / y) * ((1 - σ) * y) := by ring
      _ ≤ (1 + τ) * (x / y) * y' := by gcongr; exact k.lo

theorem sqrt (h : Rel x' x ρ) (hx : 0 < x) (h0 : 0 ≤ ρ) (hρ : ρ < 1) : Rel √x' √x ρ := by
  constructor
  · apply Real.le_sqrt_of_sq_le
    rw [mul_pow, Real.sq_sqrt hx.le]
    refine le_trans ?_ h.lo
    gcongr
    nlinarith
  · rw [Real.sqrt_le_iff]
    refine ⟨by positivity, h.hi.trans ?_⟩
    rw [mul_pow, Real.sq_sqrt hx.le]
    gcongr
    nlinarith

end Rel

/-- the argument of a vector near the unit vector of the angle `v` is near `v` up to whole turns -/
theorem arg_near (v X' Y' δ : ℝ) (hδ : δ ≤ 1e-4) (hX : |X' - Real.cos v| ≤ δ) (hY : |Y' - Real.sin v| ≤ δ) :
    (X', Y') ≠ (0, 0) ∧ ∃ k : ℤ, |Complex.arg ⟨X', Y'⟩ - (v + 2 * Real.pi * k)| ≤ 1.415 * δ := by
  have hδ0 : 0 ≤ δ := (abs_nonneg _).trans hX
  set c := Real.cos v with hc
  set s := Real.sin v with hs
  have hcs : s ^ 2 + c ^ 2 = 1 := Real.sin_sq_add_cos_sq v
  -- norm of the vector
  set z : ℂ := ⟨X', Y'⟩ with hz
  have hn0 : 0 ≤ ‖z‖ := norm_nonneg z
  have hnsq : ‖z‖ ^ 2 = X' ^ 2 + Y' ^ 2 := by
    rw [Complex.sq_norm, Complex.normSq_mk]; ring
  have hdot : X' * c + Y' * s = 1 + ((X' - c) * c + (Y' - s) * s) := by linear_combination hcs
  have hcb : |c| ≤ 1 := Real.abs_cos_le_one v
  have hsb : |s| ≤ 1 := Real.abs_sin_le_one v
  have hsum : |c| + |s| ≤ 1.4143 := by
    have h1 : (|c| + |s|) ^ 2 ≤ 1.4143 ^ 2 := by
      have h2 := sq_abs c
      have h3 := sq_abs s
      nlinarith [sq_nonneg (|c| - |s|)]
    exact le_of_sq_le_sq h1 (by norm_num)
  have hA : |(X' - c) * c + (Y' - s) * s| ≤ 1.4143 * δ := by
    refine (abs_add_le _ _).trans ?_
    rw [abs_mul, abs_mul]
    nlinarith [abs_nonneg c, abs_nonneg s]
  have hB : |Y' * c - X' * s| ≤ 1.4143 * δ := by
    rw [show Y' * c - X' * s = (Y' - s) * c - (X' - c) * s by ring]
    refine (abs_sub _ _).trans ?_
    rw [abs_mul, abs_mul]
    nlinarith [abs_nonneg c, abs_nonneg s]
  have hdot1 : 1 - 1.4143 * δ ≤ X' * c + Y' * s := by rw [hdot]; linarith [(abs_le.1 hA).1]
  have hnlo : 1 - 1.4143 * δ ≤ ‖z‖ := by
    have : (X' * c + Y' * s) ^ 2 ≤ ‖z‖ ^ 2 := by
      rw [hnsq]
      nlinarith [sq_nonneg (Y' * c - X' * s)]
    have := le_of_sq_le_sq this hn0
    linarith
  have hnpos : 0 < ‖z‖ := by nlinarith
  have hzne : z ≠ 0 := norm_pos_iff.1 hnpos
  refine ⟨?_, ?_⟩
  · intro h
    apply hzne
    rw [hz]
    injection h with h1 h2
    rw [h1, h2]; rfl
  -- sine and cosine of the difference
  set t := Complex.arg z with ht
  have hct : Real.cos t = X' / ‖z‖ := by rw [ht, Complex.cos_arg hzne]
  have hst : Real.sin t = Y' / ‖z‖ := by rw [ht, Complex.sin_arg]
  have hsd : Real.sin (t - v) = (Y' * c - X' * s) / ‖z‖ := by rw [Real.sin_sub, hct, hst]; ring
  have hcd : Real.cos (t - v) = (X' * c + Y' * s) / ‖z‖ := by rw [Real.cos_sub, hct, hst]; ring
  -- reduce the difference to one turn
  obtain ⟨k, hk⟩ : ∃ k : ℤ, (t - v - 2 * Real.pi * k) ∈ Set.Ioc (-Real.pi) Real.pi := by
    refine ⟨toIocDiv Real.two_pi_pos (-Real.pi) (t - v), ?_⟩
    have := sub_toIocDiv_zsmul_mem_Ioc Real.two_pi_pos (-Real.pi) (t - v)
    rw [zsmul_eq_mul, show -Real.pi + 2 * Real.pi = Real.pi by ring] at this
    rwa [mul_comm (2 * Real.pi)]
  set θ := t - v - 2 * Real.pi * k with hθ
  have hsθ : Real.sin θ = Real.sin (t - v) := by rw [hθ, mul_comm (2 * Real.pi), Real.sin_sub_int_mul_two_pi]
  have hcθ : Real.cos θ = Real.cos (t - v) := by rw [hθ, mul_comm (2 * Real.pi), Real.cos_sub_int_mul_two_pi]
  have hcpos : 0 < Real.cos θ := by
    rw [hcθ, hcd]
    exact div_pos (by nlinarith) hnpos
  have hpi := Real.pi_pos
  have hθ2 : |θ| ≤ Real.pi / 2 := by
    by_contra hcon
    rw [not_le] at hcon
    have : Real.cos θ ≤ 0 := by
      rw [← Real.cos_abs]
      exact Real.cos_nonpos_of_pi_div_two_le_of_le hcon.le (by rcases abs_cases θ with ⟨h, -⟩ | ⟨h, -⟩ <;> rw [h] <;> linarith [hk.1, hk.2])
    linarith
  have hsin : |Real.sin θ| ≤ 1.4146 * δ := by
    rw [hsθ, hsd, abs_div, abs_of_pos hnpos, div_le_iff₀ hnpos]
    nlinarith
  have hJ := Real.mul_abs_le_abs_sin hθ2
  have hpi3 := Real.pi_lt_d2
  have hθ3 : |θ| ≤ 2.3 * δ := by
    have h1 : 2 / Real.pi * |θ| ≤ 1.4146 * δ := hJ.trans hsin
    have h2 : |θ| ≤ 1.4146 * δ * (Real.pi / 2) := by
      have h3 := mul_le_mul_of_nonneg_right h1 (by positivity : 0 ≤ Real.pi / 2)
      rwa [show 2 / Real.pi * |θ| * (Real.pi / 2) = |θ| by field_simp] at h3
    nlinarith
  refine ⟨k, ?_⟩
  rw [show t - (v + 2 * Real.pi * k) = θ by rw [hθ]; ring]
  -- for small angles the sine is nearly the angle
  by_cases h0 : θ = 0
  · rw [h0, abs_zero]; linarith
  · have hpos : 0 < |θ| := abs_pos.2 h0
    have hcube := Real.sin_gt_sub_cube hpos
    have hss : Real.sin |θ| = |Real.sin θ| := by
      rcases abs_cases θ with ⟨h, hh⟩ | ⟨h, hh⟩ <;> rw [h]
      · rw [abs_of_nonneg]; exact Real.sin_nonneg_of_nonneg_of_le_pi hh (by linarith [hk.2])
      · rw [Real.sin_neg, abs_of_nonpos]; exact Real.sin_nonpos_of_nonpos_of_neg_pi_le hh.le hk.1.le
    rw [hss] at hcube
    have hsmall : |θ| ^ 3 / 6 ≤ |θ| * 1e-7 := by
      have : |θ| ^ 2 ≤ (2.3e-4) ^ 2 := pow_le_pow_left₀ hpos.le (by linarith) 2
      have h2 := mul_le_mul_of_nonneg_left this hpos.le
      have h3 : |θ| ^ 3 / 6 = |θ| * |θ| ^ 2 / 6 := by ring
      rw [h3]
      norm_num at h2 ⊢
      linarith
    clear hX hY hdot hA hB hdot1 hnlo hnsq hcs hθ hk hsθ hcθ hsd hcd hct hst hss hJ hθ2
    norm_num at hcube hsmall hsin hθ3 ⊢
    linarith

/-- the same for a vector of any length -/
theorem arg_near_scaled (v X Y X' Y' R δ : ℝ) (hR : 0 < R) (hδ : δ ≤ 1e-4) (hx : X = R * Real.cos v) (hy : Y = R * Real.sin v)
    (hX : |X' - X| ≤ R * δ) (hY : |Y' - Y| ≤ R * δ) :
    (X', Y') ≠ (0, 0) ∧ ∃ k : ℤ, |Complex.arg ⟨X', Y'⟩ - (v + 2 * Real.pi * k)| ≤ 1.415 * δ := by
  have sc : ∀ A B : ℝ, |A - R * B| ≤ R * δ → |A / R - B| ≤ δ := by
    intro A B h
    rw [show A - R * B = R * (A / R - B) by field_simp, abs_mul, abs_of_pos hR] at h
    exact le_of_mul_le_mul_left h hR
  obtain ⟨h1, k, hk⟩ := arg_near v (X' / R) (Y' / R) δ hδ (sc _ _ (hx ▸ hX)) (sc _ _ (hy ▸ hY))
  refine ⟨?_, k, ?_⟩
  · intro h
    apply h1
    injection h with h2 h3
    rw [h2, h3]; simp
  · have : (⟨X', Y'⟩ : ℂ) = (R : ℂ) * ⟨X' / R, Y' / R⟩ := by
      apply Complex.ext <;> simp <;> field_simp
    rw [this, Complex.arg_real_mul _ hR]
    exact hk

end Verif.Proofs
