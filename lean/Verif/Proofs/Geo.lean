import Verif.Model.Geo
import Verif.Spec.Geo
import Mathlib.Analysis.SpecialFunctions.Trigonometric.ArctanDeriv
import Mathlib.Analysis.SpecialFunctions.Sqrt
import Mathlib.Analysis.Calculus.MeanValue
/-!
# The latitude iteration
-/
namespace Verif.Proofs.Geo
open Verif.Py Verif.Model.Geo Verif.Spec.Geo Real

theorem datumE_sq : datumE ^ 2 = ecc2 := by
  unfold datumE ecc2 datumA datumB semiMajor semiMinor
  rw [Real.sq_sqrt (by norm_num)]
  norm_num

theorem ecc2_pos : 0 < ecc2 := by unfold ecc2 semiMajor semiMinor; norm_num
theorem ecc2_lt : ecc2 < 0.0066944 := by unfold ecc2 semiMajor semiMinor; norm_num
theorem ecc2_gt : 0.0066943 < ecc2 := by unfold ecc2 semiMajor semiMinor; norm_num

/-- the W of the ellipsoid -/
noncomputable def W (b : ℝ) : ℝ := √(1 - ecc2 * sin b ^ 2)

theorem radicand (b : ℝ) : 0.9933056 < 1 - ecc2 * sin b ^ 2 := by
  have h1 := sin_sq_le_one b
  have h2 := sq_nonneg (sin b)
  have := ecc2_lt
  have := ecc2_pos
  nlinarith

theorem W_sq (b : ℝ) : W b ^ 2 = 1 - ecc2 * sin b ^ 2 := Real.sq_sqrt (by have := radicand b; linarith)
theorem W_gt (b : ℝ) : 0.99664 < W b := by
  unfold W
  rw [Real.lt_sqrt (by norm_num)]
  have := radicand b
  norm_num at this ⊢
  linarith
theorem W_pos (b : ℝ) : 0 < W b := by have := W_gt b; linarith
theorem W_le (b : ℝ) : W b ≤ 1 := by
  unfold W
  rw [Real.sqrt_le_one]
  have := ecc2_pos
  have := sq_nonneg (sin b)
  nlinarith

theorem primeVertical_eq (b : ℝ) : primeVertical b = semiMajor / W b := rfl

theorem primeVertical_pos (b : ℝ) : 0 < primeVertical b := by
  rw [primeVertical_eq]; exact div_pos (by unfold semiMajor; norm_num) (W_pos b)

theorem hasDeriv_W (b : ℝ) : HasDerivAt W (-(ecc2 * sin b * cos b) / W b) b := by
  have h : HasDerivAt (fun b => 1 - ecc2 * sin b ^ 2) (0 - ecc2 * (2 * sin b ^ (2 - 1) * cos b)) b :=
    (hasDerivAt_const b 1).sub (((hasDerivAt_sin b).pow 2).const_mul ecc2)
  have hr := radicand b
  refine (h.sqrt (by linarith)).congr_deriv ?_
  have := W_pos b
  show _ / (2 * W b) = _
  field_simp
  ring

theorem hasDeriv_N (b : ℝ) : HasDerivAt primeVertical (semiMajor * ecc2 * sin b * cos b / W b ^ 3) b := by
  have h := (hasDerivAt_const b semiMajor).div (hasDeriv_W b) (W_pos b).ne'
  refine HasDerivAt.congr_deriv h ?_
  have := W_pos b
  field_simp
  ring

/-- N e² sin B -/
noncomputable def shift (b : ℝ) : ℝ := primeVertical b * ecc2 * sin b

theorem hasDeriv_shift (b : ℝ) : HasDerivAt shift (semiMajor * ecc2 * cos b / W b ^ 3) b := by
  have h := ((hasDeriv_N b).mul_const ecc2).mul (hasDerivAt_sin b)
  refine HasDerivAt.congr_deriv h ?_
  have hp := W_pos b
  have hw := W_sq b
  have hc := sin_sq_add_cos_sq b
  rw [primeVertical_eq]
  field_simp
  rw [hw]
  ring

theorem cube_ge (b : ℝ) : 0.98995 < W b ^ 3 := by
  have h := W_gt b
  have : (0.99664 : ℝ) ^ 3 < W b ^ 3 := by gcongr
  refine lt_trans ?_ this
  norm_num

theorem aecc_lt : semiMajor * ecc2 < 42698 := by unfold ecc2 semiMajor semiMinor; norm_num

theorem shift_deriv_le (b : ℝ) : |semiMajor * ecc2 * cos b / W b ^ 3| ≤ 43200 := by
  have h := cube_ge b
  have ha := aecc_lt
  have h0 : 0 < semiMajor * ecc2 := mul_pos (by unfold semiMajor; norm_num) ecc2_pos
  rw [abs_div, abs_mul, abs_of_pos h0, abs_of_pos (by linarith : 0 < W b ^ 3), div_le_iff₀ (by linarith)]
  have := abs_cos_le_one b
  have := abs_nonneg (cos b)
  nlinarith

theorem N_deriv_le (b : ℝ) : |semiMajor * ecc2 * sin b * cos b / W b ^ 3| ≤ 43200 := by
  have h := cube_ge b
  have ha := aecc_lt
  have h0 : 0 < semiMajor * ecc2 := mul_pos (by unfold semiMajor; norm_num) ecc2_pos
  rw [abs_div, abs_mul, abs_mul, abs_of_pos h0, abs_of_pos (by linarith : 0 < W b ^ 3), div_le_iff₀ (by linarith)]
  have h1 := abs_cos_le_one b
  have h2 := abs_sin_le_one b
  have h3 := abs_nonneg (cos b)
  have h4 := abs_nonneg (sin b)
  have : |sin b| * |cos b| ≤ 1 := by nlinarith
  have : 0 ≤ |sin b| * |cos b| := by positivity
  nlinarith

theorem shift_lip (b c : ℝ) : |shift b - shift c| ≤ 43200 * |b - c| := by
  have := Convex.norm_image_sub_le_of_norm_hasDerivWithin_le (f := shift) (s := Set.univ) (C := 43200) (x := c) (y := b)
    (fun x _ => (hasDeriv_shift x).hasDerivWithinAt) (fun x _ => by rw [Real.norm_eq_abs]; exact shift_deriv_le x) convex_univ trivial trivial
  simpa [Real.norm_eq_abs] using this

theorem N_lip (b c : ℝ) : |primeVertical b - primeVertical c| ≤ 43200 * |b - c| := by
  have := Convex.norm_image_sub_le_of_norm_hasDerivWithin_le (f := primeVertical) (s := Set.univ) (C := 43200) (x := c) (y := b)
    (fun x _ => (hasDeriv_N x).hasDerivWithinAt) (fun x _ => by rw [Real.norm_eq_abs]; exact N_deriv_le x) convex_univ trivial trivial
  simpa [Real.norm_eq_abs] using this

theorem shift_le (b : ℝ) : |shift b| ≤ 42900 := by
  unfold shift
  rw [primeVertical_eq]
  have h := W_gt b
  have ha := aecc_lt
  have h0 : 0 < semiMajor * ecc2 := mul_pos (by unfold semiMajor; norm_num) ecc2_pos
  rw [show semiMajor / W b * ecc2 * sin b = semiMajor * ecc2 * sin b / W b by ring, abs_div, abs_mul, abs_of_pos h0, abs_of_pos (W_pos b),
    div_le_iff₀ (W_pos b)]
  have := abs_sin_le_one b
  have := abs_nonneg (sin b)
  nlinarith

/-! ## the map iterated -/

theorem atan2_pos (y x : ℝ) (h : 0 < x) : atan2 y x = arctan (y / x) := by
  unfold atan2
  rw [eq_comm]
  refine arctan_eq_of_tan_eq (Complex.tan_arg ⟨x, y⟩) ?_
  have := Complex.abs_arg_lt_pi_div_two_iff (z := ⟨x, y⟩).2 (.inl h)
  exact abs_lt.1 this

/-- one pass of the loop -/
noncomputable def next (Q z b : ℝ) : ℝ := arctan ((z + shift b) / Q)

theorem dist_le (Q z δ T : ℝ) (hT : |T - z| ≤ δ) : √(Q ^ 2 + z ^ 2) - δ ≤ √(Q ^ 2 + T ^ 2) := by
  have hδ : 0 ≤ δ := (abs_nonneg _).trans hT
  rw [sub_le_iff_le_add, Real.sqrt_le_left (by positivity)]
  have hs : √(Q ^ 2 + T ^ 2) ^ 2 = Q ^ 2 + T ^ 2 := Real.sq_sqrt (by positivity)
  have ht : |T| ≤ √(Q ^ 2 + T ^ 2) := Real.abs_le_sqrt (by nlinarith [sq_nonneg Q])
  set s := √(Q ^ 2 + T ^ 2)
  have h1 : (z - T) ^ 2 ≤ δ ^ 2 := by
    rw [← sq_abs (z - T), abs_sub_comm]
    gcongr
  have h2 : T * (z - T) ≤ s * δ := by
    calc T * (z - T) ≤ |T * (z - T)| := le_abs_self _
      _ = |T| * |T - z| := by rw [abs_mul, abs_sub_comm]
      _ ≤ s * δ := by gcongr
  nlinarith

theorem hasDeriv_next (Q z b : ℝ) (hQ : 0 < Q) :
    HasDerivAt (next Q z) (Q * (semiMajor * ecc2 * cos b / W b ^ 3) / (Q ^ 2 + (z + shift b) ^ 2)) b := by
  have h := (((hasDeriv_shift b).const_add z).div_const Q).arctan
  refine HasDerivAt.congr_deriv h ?_
  have hp := W_pos b
  have : (0 : ℝ) < Q ^ 2 + (z + shift b) ^ 2 := by positivity
  field_simp

/-- the iteration contracts -/
theorem next_lip (Q z : ℝ) (hQ : 0 < Q) (hr : 42900 < √(Q ^ 2 + z ^ 2)) (b c : ℝ) :
    |next Q z b - next Q z c| ≤ 43200 / (√(Q ^ 2 + z ^ 2) - 42900) * |b - c| := by
  have key : ∀ x, |Q * (semiMajor * ecc2 * cos x / W x ^ 3) / (Q ^ 2 + (z + shift x) ^ 2)| ≤ 43200 / (√(Q ^ 2 + z ^ 2) - 42900) := by
    intro x
    have h1 := dist_le Q z 42900 (z + shift x) (by simpa using shift_le x)
    have hs : √(Q ^ 2 + (z + shift x) ^ 2) ^ 2 = Q ^ 2 + (z + shift x) ^ 2 := Real.sq_sqrt (by positivity)
    have hq : Q ≤ √(Q ^ 2 + (z + shift x) ^ 2) := Real.le_sqrt_of_sq_le (by nlinarith [sq_nonneg (z + shift x)])
    rw [← hs]
    set s := √(Q ^ 2 + (z + shift x) ^ 2)
    have hsp : 0 < s := by linarith
    rw [abs_div, abs_mul, abs_of_pos hQ, abs_of_pos (by positivity : (0 : ℝ) < s ^ 2), div_le_div_iff₀ (by positivity) (by linarith)]
    have h2 := shift_deriv_le x
    have h3 := abs_nonneg (semiMajor * ecc2 * cos x / W x ^ 3)
    calc Q * |semiMajor * ecc2 * cos x / W x ^ 3| * (√(Q ^ 2 + z ^ 2) - 42900) ≤ s * 43200 * s := by gcongr
      _ = 43200 * s ^ 2 := by ring
  have := Convex.norm_image_sub_le_of_norm_hasDerivWithin_le (f := next Q z) (s := Set.univ) (C := 43200 / (√(Q ^ 2 + z ^ 2) - 42900)) (x := c) (y := b)
    (fun x _ => (hasDeriv_next Q z x hQ).hasDerivWithinAt) (fun x _ => by rw [Real.norm_eq_abs]; exact key x) convex_univ trivial trivial
  simpa [Real.norm_eq_abs] using this

/-! ## the loop -/

theorem pySqrt_ok (x : ℝ) (h : 0 ≤ x) : pySqrt x = .ok √x := by unfold pySqrt; rw [if_neg (not_lt.2 h)]
theorem pyDiv_ok (x y : ℝ) (h : y ≠ 0) : pyDiv x y = .ok (x / y) := by unfold pyDiv; rw [if_neg h]
theorem pyDiv_zero (x : ℝ) : pyDiv x 0 = .error .zeroDiv := by unfold pyDiv; rw [if_pos rfl]

theorem latLoop_succ (n : ℕ) (Q z b : ℝ) (hQ : 0 < Q) : latLoop (n + 1) Q z b =
    open Classical in if |next Q z b - b| ≤ 1e-12 then .ok (some (next Q z b, primeVertical b)) else latLoop n Q z (next Q z b) := by
  have hr := radicand b
  simp only [latLoop]
  rw [datumE_sq, pySqrt_ok _ (by linarith)]
  simp only
  rw [show √(1 - ecc2 * sin b ^ 2) = W b from rfl, pyDiv_ok _ _ (W_pos b).ne']
  simp only [atan2_pos _ _ hQ]
  rfl

/-- the loop ends with two successive values closer than the threshold -/
theorem latLoop_result (n : ℕ) (Q z : ℝ) (hQ : 0 < Q) : ∀ b B N, latLoop n Q z b = .ok (some (B, N)) →
    ∃ b', B = next Q z b' ∧ N = primeVertical b' ∧ |B - b'| ≤ 1e-12 := by
  induction n with
  | zero => intro b B N h; cases h
  | succ n ih =>
    intro b B N h
    rw [latLoop_succ n Q z b hQ] at h
    split at h
    · rename_i hle
      cases h
      exact ⟨b, rfl, rfl, hle⟩
    · exact ih _ _ _ h

theorem latLoop_total (n : ℕ) (Q z : ℝ) (hQ : 0 < Q) : ∀ b, ∃ r, latLoop n Q z b = .ok r := by
  induction n with
  | zero => intro b; exact ⟨none, rfl⟩
  | succ n ih =>
    intro b
    rw [latLoop_succ n Q z b hQ]
    split
    · exact ⟨_, rfl⟩
    · exact ih _

/-- if the differences of successive values shrink by the factor `κ`, `n + 1` passes are enough -/
theorem latLoop_ends (n : ℕ) (Q z κ : ℝ) (hQ : 0 < Q) (hκ : 0 ≤ κ) (hl : ∀ b c, |next Q z b - next Q z c| ≤ κ * |b - c|) :
    ∀ b, κ ^ n * |next Q z b - b| ≤ 1e-12 → ∃ B N, latLoop (n + 1) Q z b = .ok (some (B, N)) := by
  induction n with
  | zero =>
    intro b h
    rw [latLoop_succ _ Q z b hQ, if_pos (by simpa using h)]
    exact ⟨_, _, rfl⟩
  | succ n ih =>
    intro b h
    rw [latLoop_succ _ Q z b hQ]
    split
    · exact ⟨_, _, rfl⟩
    · apply ih
      refine le_trans ?_ h
      rw [pow_succ, mul_assoc]
      gcongr
      exact hl _ _

theorem latLoop_mono (n m : ℕ) (Q z : ℝ) (hQ : 0 < Q) (hm : n ≤ m) : ∀ b B N, latLoop n Q z b = .ok (some (B, N)) →
    latLoop m Q z b = .ok (some (B, N)) := by
  induction n generalizing m with
  | zero => intro b B N h; cases h
  | succ n ih =>
    intro b B N h
    obtain ⟨m, rfl⟩ : ∃ k, m = k + 1 := ⟨m - 1, by omega⟩
    rw [latLoop_succ _ Q z b hQ] at h ⊢
    split at h
    · rename_i hle; rw [if_pos hle]; exact h
    · rename_i hle; rw [if_neg hle]; exact ih m (by omega) _ _ _ h

/-- two passes after any start the values differ by less than π -/
theorem next_step (Q z b : ℝ) : |next Q z (next Q z b) - next Q z b| ≤ π := by
  have h1 := arctan_mem_Ioo ((z + shift (next Q z b)) / Q)
  have h2 := arctan_mem_Ioo ((z + shift b) / Q)
  rw [abs_le]
  unfold next at *
  constructor <;> linarith [h1.1, h1.2, h2.1, h2.2]

theorem latLoop_ends' (n : ℕ) (Q z κ : ℝ) (hQ : 0 < Q) (hκ : 0 ≤ κ) (hl : ∀ b c, |next Q z b - next Q z c| ≤ κ * |b - c|)
    (hn : κ ^ n * π ≤ 1e-12) (b : ℝ) : ∃ B N, latLoop (n + 2) Q z b = .ok (some (B, N)) := by
  rw [latLoop_succ _ Q z b hQ]
  split
  · exact ⟨_, _, rfl⟩
  · apply latLoop_ends n Q z κ hQ hκ hl
    refine le_trans ?_ hn
    gcongr
    exact next_step Q z b

end Verif.Proofs.Geo
