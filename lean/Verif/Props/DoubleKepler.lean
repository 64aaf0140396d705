import Verif.Props.Orbit
import Verif.Proofs.Near
import Verif.Model.DoubleGeo
/-!
# Property C94: Kepler's equation in floating point
-/
namespace Verif.Props
open Verif.Py Verif.Spec Verif.Spec.Geo Verif.Proofs Verif.Model.DoubleGeo

theorem divF_ok (F : Flt) (x y : ℝ) (h : y ≠ 0) : divF F x y = .ok (F.rnd (x / y)) := by unfold divF; rw [if_neg h]

/-- Newton's method: the error is squared -/
theorem newton_error (e M E G : ℝ) (h0 : 0 ≤ e) (h1 : e ≤ 1 / 4) (h : Kepler e M G) :
    |E - keplerStep e M E - G| ≤ (E - G) ^ 2 / 6 := by
  obtain ⟨hs1, -⟩ := kepler_slope e E h0
  have hpos : 0 < 1 - e * Real.cos E := by linarith
  have hq := sin_second_order E (E - G)
  rw [sub_sub_cancel] at hq
  have heq : E - keplerStep e M E - G = e * (Real.sin E - (E - G) * Real.cos E - Real.sin G) / (1 - e * Real.cos E) := by
    unfold keplerStep keplerRes
    unfold Kepler at h
    rw [← h]
    field_simp
    ring
  rw [heq, abs_div, abs_of_pos hpos, abs_mul, abs_of_nonneg h0, div_le_iff₀ hpos]
  have h2 : e * |Real.sin E - (E - G) * Real.cos E - Real.sin G| ≤ 1 / 4 * ((E - G) ^ 2 / 2) := mul_le_mul h1 hq (abs_nonneg _) (by norm_num)
  nlinarith [sq_nonneg (E - G)]

/-- one pass of the loop: no exception, and the new value is that of Newton's method up to 320/2^53 -/
theorem kepler_pass (F : Flt) (hF : Accurate F) (e M E G : ℝ) (h0 : 0 ≤ e) (h1 : e ≤ 1 / 4) (hM : |M| ≤ 128) (hG : Kepler e M G) (hE : |E - G| ≤ 0.26) :
    F.rnd (1 - F.rnd (e * F.cos E)) ≠ 0 ∧
    |F.rnd (E - F.rnd (F.rnd (F.rnd (E - F.rnd (e * F.sin E)) - M) / F.rnd (1 - F.rnd (e * F.cos E)))) - G| ≤ (E - G) ^ 2 / 6 + 320 / 2 ^ 53 := by
  have hGM : |G - M| ≤ 1 / 4 := by
    unfold Kepler at hG
    rw [show G - M = e * Real.sin G by linarith, abs_mul, abs_of_nonneg h0]
    nlinarith [Real.abs_sin_le_one G, abs_nonneg (Real.sin G)]
  have hEB : |E| ≤ 129 := by
    have := abs_add_three (E - G) (G - M) M
    rw [show E - G + (G - M) + M = E by ring] at this
    linarith
  have hEM : |E - M| ≤ 0.51 := by
    have := abs_add_le (E - G) (G - M)
    rw [show E - G + (G - M) = E - M by ring] at this
    linarith
  obtain ⟨hs1, hs2⟩ := kepler_slope e E h0
  have aE : Appr E E 129 0 := .exact hEB
  have ae : Appr e e (1 / 4) 0 := .exact (by rw [abs_of_nonneg h0]; exact h1)
  have aM : Appr M M 128 0 := .exact hM
  have as := aE.sin hF (ε' := 1 / 2 ^ 52) (by norm_num)
  have ac := aE.cos hF (ε' := 1 / 2 ^ 52) (by norm_num)
  have a1 : Appr (F.rnd (e * F.sin E)) (e * Real.sin E) (1 / 4) (1 / 2 ^ 53) := (ae.mul as).rnd hF (by norm_num) (by norm_num)
  have a2 : Appr (F.rnd (E - F.rnd (e * F.sin E))) (E - e * Real.sin E) 129.25 (131 / 2 ^ 53) := (aE.sub a1).rnd hF (by norm_num) (by norm_num)
  have a3 : Appr (F.rnd (E - F.rnd (e * F.sin E)) - M) (E - e * Real.sin E - M) 0.76 (131 / 2 ^ 53) := by
    refine ⟨?_, by simpa using (a2.sub aM).2⟩
    have := abs_sub (E - M) (e * Real.sin E)
    rw [show E - M - e * Real.sin E = E - e * Real.sin E - M by ring] at this
    have := a1.1
    linarith
  have a3 := a3.rnd hF (B' := 0.76) (ε' := 132 / 2 ^ 53) le_rfl (by norm_num)
  have b1 : Appr (F.rnd (e * F.cos E)) (e * Real.cos E) (1 / 4) (1 / 2 ^ 53) := (ae.mul ac).rnd hF (by norm_num) (by norm_num)
  have b2 : Appr (F.rnd (1 - F.rnd (e * F.cos E))) (1 - e * Real.cos E) 1.25 (2.5 / 2 ^ 53) :=
    ((Appr.exact (x := 1) (B := 1) (by norm_num)).sub b1).rnd hF (by norm_num) (by norm_num)
  have hm : (3 / 4 : ℝ) ≤ |1 - e * Real.cos E| := by rw [abs_of_pos (by linarith)]; linarith
  have c1 : Appr _ (keplerStep e M E) 1.02 (182 / 2 ^ 53) := (a3.div b2 hm (by norm_num)).rnd hF (by norm_num) (by norm_num)
  have c2 := aE.sub c1
  refine ⟨b2.neZero hm (by norm_num), ?_⟩
  have c3 := (c2.rnd hF (B' := 130.02) (ε' := 320 / 2 ^ 53) (by norm_num) (by norm_num)).2
  have hn := newton_error e M E G h0 h1 hG
  have := abs_sub_le (F.rnd (E - F.rnd (F.rnd (F.rnd (E - F.rnd (e * F.sin E)) - M) / F.rnd (1 - F.rnd (e * F.cos E))))) (E - keplerStep e M E) G
  linarith

/-- a distance and its rounded value -/
theorem rnd_abs (F : Flt) (hF : Accurate F) (x : ℝ) : |x| * (1 - 1 / 2 ^ 53) - 1 / 2 ^ 100 ≤ |F.rnd x| ∧ |F.rnd x| ≤ |x| * (1 + 1 / 2 ^ 53) + 1 / 2 ^ 100 := by
  have h := hF.rnd x
  have h1 := abs_sub_abs_le_abs_sub (F.rnd x) x
  have h2 := abs_sub_abs_le_abs_sub x (F.rnd x)
  rw [abs_sub_comm x] at h2
  constructor <;> linarith

/-- where the last two steps are equally long, the value is accurate -/
theorem kepler_ends (F : Flt) (hF : Accurate F) (x y z G : ℝ) (hx : |x - G| ≤ 0.26) (hy : |y - G| ≤ (x - G) ^ 2 / 6 + 320 / 2 ^ 53)
    (hz : |z - G| ≤ (y - G) ^ 2 / 6 + 320 / 2 ^ 53) (h : |F.rnd (y - x)| = |F.rnd (z - y)|) : |z - G| ≤ 4e-14 := by
  have h1 := (rnd_abs F hF (y - x)).1
  have h2 := (rnd_abs F hF (z - y)).2
  rw [h] at h1
  have h3 : |x - G| - |y - G| ≤ |y - x| := by
    have := abs_sub_abs_le_abs_sub (x - G) (y - G)
    rw [show x - G - (y - G) = -(y - x) by ring, abs_neg] at this
    exact this
  have h4 : |z - y| ≤ |z - G| + |y - G| := by
    have := abs_sub (z - G) (y - G)
    rwa [show z - G - (y - G) = z - y by ring] at this
  have hx0 := abs_nonneg (x - G)
  have hy0 := abs_nonneg (y - G)
  have hz0 := abs_nonneg (z - G)
  rw [← sq_abs] at hy hz
  set p := |x - G|
  set q := |y - G|
  set r := |z - G|
  have hp2 : p ^ 2 / 6 ≤ p * (0.26 / 6) := by nlinarith
  have hq1 : q ≤ 0.012 := by
    have : q ≤ 0.26 * (0.26 / 6) + 320 / 2 ^ 53 := by linarith [mul_le_mul_of_nonneg_right hx (by norm_num : (0 : ℝ) ≤ 0.26 / 6)]
    exact this.trans (by norm_num)
  have hq2 : q ^ 2 / 6 ≤ q * 0.002 := by nlinarith
  have k1 : (p - q) * (1 - 1 / 2 ^ 53) ≤ (r + q) * (1 + 1 / 2 ^ 53) + 2 / 2 ^ 100 := by nlinarith
  norm_num at *
  linarith

/-- the value after `n` passes, in rounded arithmetic -/
noncomputable def newtonF (F : Flt) (e M : ℝ) : ℕ → ℝ
  | 0 => M
  | n + 1 => F.rnd (newtonF F e M n - F.rnd (F.rnd (F.rnd (newtonF F e M n - F.rnd (e * F.sin (newtonF F e M n))) - M) /
      F.rnd (1 - F.rnd (e * F.cos (newtonF F e M n)))))

theorem kepler_near (e M G : ℝ) (h0 : 0 ≤ e) (h1 : e ≤ 1 / 4) (hG : Kepler e M G) : |M - G| ≤ 1 / 4 := by
  unfold Kepler at hG
  rw [show M - G = -(e * Real.sin G) by linarith, abs_neg, abs_mul, abs_of_nonneg h0]
  nlinarith [Real.abs_sin_le_one G, abs_nonneg (Real.sin G)]

theorem newtonF_error (F : Flt) (hF : Accurate F) (e M G : ℝ) (h0 : 0 ≤ e) (h1 : e ≤ 1 / 4) (hM : |M| ≤ 128) (hG : Kepler e M G) (n : ℕ) :
    |newtonF F e M n - G| ≤ 0.26 ∧ |newtonF F e M (n + 1) - G| ≤ (newtonF F e M n - G) ^ 2 / 6 + 320 / 2 ^ 53 ∧
      F.rnd (1 - F.rnd (e * F.cos (newtonF F e M n))) ≠ 0 := by
  have key : |newtonF F e M n - G| ≤ 0.26 := by
    induction n with
    | zero => have := kepler_near e M G h0 h1 hG; show |M - G| ≤ _; norm_num at *; linarith
    | succ n ih =>
      have hy := (kepler_pass F hF e M _ G h0 h1 hM hG ih).2
      rw [← sq_abs] at hy
      have : |newtonF F e M n - G| ^ 2 ≤ 0.26 ^ 2 := pow_le_pow_left₀ (abs_nonneg _) ih 2
      show |F.rnd _ - G| ≤ _
      norm_num at *
      linarith
  exact ⟨key, (kepler_pass F hF e M _ G h0 h1 hM hG key).2, (kepler_pass F hF e M _ G h0 h1 hM hG key).1⟩

/-- C94: whether the loop has ended or not, from the fourth pass on the value is the solution of Kepler's equation up to 4·10⁻¹⁴. -/
theorem C94_values (F : Flt) (hF : Accurate F) (e M G : ℝ) (h0 : 0 ≤ e) (h1 : e ≤ 1 / 4) (hM : |M| ≤ 128) (hG : Kepler e M G) (n : ℕ) (hn : 4 ≤ n) :
    Within 4e-14 (newtonF F e M n) G := by
  have step : ∀ (n : ℕ) (t t' : ℝ), |newtonF F e M n - G| ≤ t → t ^ 2 / 6 + 320 / 2 ^ 53 ≤ t' → |newtonF F e M (n + 1) - G| ≤ t' := by
    intro n t t' h ht
    have hy := (newtonF_error F hF e M G h0 h1 hM hG n).2.1
    rw [← sq_abs] at hy
    have : |newtonF F e M n - G| ^ 2 ≤ t ^ 2 := pow_le_pow_left₀ (abs_nonneg _) h 2
    linarith
  have s0 := (newtonF_error F hF e M G h0 h1 hM hG 0).1
  have s1 := step 0 _ 0.012 s0 (by norm_num)
  have s2 := step 1 _ 2.5e-5 s1 (by norm_num)
  have s3 := step 2 _ 2e-10 s2 (by norm_num)
  have s4 := step 3 _ 4e-14 s3 (by norm_num)
  show |_ - _| ≤ _
  induction n, hn using Nat.le_induction with
  | base => exact s4
  | succ n _ ih => exact step n _ _ ih (by norm_num)

/-- the loop after `n + 1` passes that did not end it -/
theorem newtonF_loop (F : Flt) (hF : Accurate F) (e M G : ℝ) (h0 : 0 ≤ e) (h1 : e ≤ 1 / 4) (hM : |M| ≤ 128) (hG : Kepler e M G) (fuel : ℕ) :
    ∀ (n : ℕ) (prv cur : ℝ), prv ≠ cur → keplerLoopF F fuel e M (newtonF F e M (n + 1)) (newtonF F e M n) prv cur = .ok none →
      ∀ i < fuel, |F.rnd (newtonF F e M (n + i + 1) - newtonF F e M (n + i))| ≠ |F.rnd (newtonF F e M (n + i + 2) - newtonF F e M (n + i + 1))| := by
  induction fuel with
  | zero => intro n prv cur _ _ i hi; omega
  | succ k ih =>
    intro n prv cur hne h i hi
    unfold keplerLoopF at h
    rw [if_neg hne] at h
    simp only at h
    rw [divF_ok _ _ _ (newtonF_error F hF e M G h0 h1 hM hG (n + 1)).2.2] at h
    simp only at h
    change keplerLoopF F k e M (newtonF F e M (n + 2)) (newtonF F e M (n + 1)) _ |F.rnd (newtonF F e M (n + 2) - newtonF F e M (n + 1))| = _ at h
    by_cases heq : |F.rnd (newtonF F e M (n + 1) - newtonF F e M n)| = |F.rnd (newtonF F e M (n + 2) - newtonF F e M (n + 1))|
    · unfold keplerLoopF at h
      rw [if_pos heq] at h
      cases h
    · cases i with
      | zero => exact heq
      | succ i =>
        have := ih (n + 1) _ _ heq h i (by omega)
        rwa [show n + 1 + i = n + (i + 1) by omega] at this

/-- the loop from the second pass on -/
theorem kepler_loopF (F : Flt) (hF : Accurate F) (e M G : ℝ) (h0 : 0 ≤ e) (h1 : e ≤ 1 / 4) (hM : |M| ≤ 128) (hG : Kepler e M G) (fuel : ℕ) :
    ∀ (x y prv cur : ℝ), |x - G| ≤ 0.26 → |y - G| ≤ (x - G) ^ 2 / 6 + 320 / 2 ^ 53 → prv ≠ cur →
      ∃ r, keplerLoopF F fuel e M y x prv cur = .ok r ∧ ∀ E, r = some E → |E - G| ≤ 4e-14 := by
  induction fuel with
  | zero =>
    intro x y prv cur _ _ hne
    exact ⟨none, by unfold keplerLoopF; rw [if_neg hne], by simp⟩
  | succ n ih =>
    intro x y prv cur hx hy hne
    have hy' : |y - G| ≤ 0.26 := by
      rw [← sq_abs] at hy
      have : |x - G| ^ 2 ≤ 0.26 ^ 2 := pow_le_pow_left₀ (abs_nonneg _) hx 2
      norm_num at *
      linarith
    obtain ⟨hd, hz⟩ := kepler_pass F hF e M y G h0 h1 hM hG hy'
    unfold keplerLoopF
    rw [if_neg hne]
    simp only
    rw [divF_ok _ _ _ hd]
    simp only
    set z := F.rnd (y - F.rnd (F.rnd (F.rnd (y - F.rnd (e * F.sin y)) - M) / F.rnd (1 - F.rnd (e * F.cos y))))
    by_cases heq : |F.rnd (y - x)| = |F.rnd (z - y)|
    · refine ⟨some z, by unfold keplerLoopF; rw [if_pos heq], ?_⟩
      rintro E ⟨⟩
      exact kepler_ends F hF x y z G hx hy hz heq
    · exact ih y z _ _ hy' hz heq

/-- C94: in floating point, for an eccentricity up to 1/4 and a mean anomaly up to 128 (20 revolutions), the iteration raises no exception and the value it ends with
is the solution of Kepler's equation up to 4·10⁻¹⁴ (two micrometres in a GNSS orbit). -/
theorem C94_kepler (F : Flt) (hF : Accurate F) (fuel : ℕ) (e M : ℝ) (h0 : 0 ≤ e) (h1 : e ≤ 1 / 4) (hM : |M| ≤ 128) :
    ∃ r, keplerLoopF F fuel e M M (F.rnd (M + 1)) 0 1 = .ok r ∧ ∀ E, r = some E → ∀ G, Kepler e M G → Within 4e-14 E G := by
  obtain ⟨G, hG, huniq⟩ := (C68_converges e M h0 (by linarith)).1
  suffices h : ∃ r, keplerLoopF F fuel e M M (F.rnd (M + 1)) 0 1 = .ok r ∧ ∀ E, r = some E → |E - G| ≤ 4e-14 by
    obtain ⟨r, hr, hE⟩ := h
    exact ⟨r, hr, fun E h G' hG' => by rw [huniq G' hG']; exact hE E h⟩
  have hGM : |M - G| ≤ 1 / 4 := by
    have hG' := hG
    unfold Kepler at hG'
    rw [show M - G = -(e * Real.sin G) by linarith, abs_neg, abs_mul, abs_of_nonneg h0]
    nlinarith [Real.abs_sin_le_one G, abs_nonneg (Real.sin G)]
  cases fuel with
  | zero => exact ⟨none, by unfold keplerLoopF; rw [if_neg (by norm_num)], by simp⟩
  | succ n =>
    obtain ⟨hd, hz⟩ := kepler_pass F hF e M M G h0 h1 hM hG (by norm_num at *; linarith)
    unfold keplerLoopF
    rw [if_neg (by norm_num)]
    simp only
    rw [divF_ok _ _ _ hd]
    simp only
    set z := F.rnd (M - F.rnd (F.rnd (F.rnd (M - F.rnd (e * F.sin M)) - M) / F.rnd (1 - F.rnd (e * F.cos M))))
    apply kepler_loopF F hF e M G h0 h1 hM hG n M z _ _ (by norm_num at *; linarith) hz
    -- the first pass cannot be the last one
    have a1 : Appr (F.rnd (M + 1)) (M + 1) 129 (130 / 2 ^ 53) :=
      ((Appr.exact hM).add (Appr.exact (x := 1) (B := 1) (by norm_num))).rnd hF (by norm_num) (by norm_num)
    have h2 := (rnd_abs F hF (M - F.rnd (M + 1))).1
    have h3 := (rnd_abs F hF (z - M)).2
    have h4 : 1 - 130 / 2 ^ 53 ≤ |M - F.rnd (M + 1)| := by
      rw [abs_sub_comm]
      have := (abs_le.1 a1.2).1
      have := le_abs_self (F.rnd (M + 1) - M)
      linarith
    have h5 : |z - M| ≤ 0.27 := by
      have := abs_add_le (z - G) (-(M - G))
      rw [show z - G + -(M - G) = z - M by ring, abs_neg] at this
      rw [← sq_abs] at hz
      have : |M - G| ^ 2 ≤ (1 / 4) ^ 2 := pow_le_pow_left₀ (abs_nonneg _) hGM 2
      norm_num at *
      linarith
    intro heq
    rw [heq] at h2
    norm_num at *
    linarith

/-- C94: the loop ends when the values repeat with the period 1 or 2 (the rounding being the same for `x` and `-x`).  It runs on for ever only if the values, all of
them within 4·10⁻¹⁴ of the solution, go round in a longer cycle. -/
theorem C94_ends (F : Flt) (hF : Accurate F) (hodd : ∀ x, F.rnd (-x) = -F.rnd x) (e M : ℝ) (h0 : 0 ≤ e) (h1 : e ≤ 1 / 4) (hM : |M| ≤ 128) (n : ℕ)
    (h : newtonF F e M (n + 2) = newtonF F e M n) : ∃ E, keplerLoopF F (n + 2) e M M (F.rnd (M + 1)) 0 1 = .ok (some E) := by
  obtain ⟨G, hG, -⟩ := (C68_converges e M h0 (by linarith)).1
  obtain ⟨r, hr, -⟩ := C94_kepler F hF (n + 2) e M h0 h1 hM
  cases r with
  | some E => exact ⟨E, hr⟩
  | none =>
    exfalso
    unfold keplerLoopF at hr
    rw [if_neg (by norm_num)] at hr
    simp only at hr
    have hd0 : F.rnd (1 - F.rnd (e * F.cos M)) ≠ 0 := (newtonF_error F hF e M G h0 h1 hM hG 0).2.2
    rw [divF_ok _ _ _ hd0] at hr
    simp only at hr
    change keplerLoopF F (n + 1) e M (newtonF F e M 1) (newtonF F e M 0) |F.rnd (M - F.rnd (M + 1))| |F.rnd (newtonF F e M 1 - newtonF F e M 0)| = _ at hr
    have hne : |F.rnd (M - F.rnd (M + 1))| ≠ |F.rnd (newtonF F e M 1 - newtonF F e M 0)| := by
      intro heq
      unfold keplerLoopF at hr
      rw [if_pos heq] at hr
      cases hr
    have := newtonF_loop F hF e M G h0 h1 hM hG (n + 1) 0 _ _ hne hr n (by omega)
    rw [zero_add, h, show newtonF F e M n - newtonF F e M (n + 1) = -(newtonF F e M (n + 1) - newtonF F e M n) by ring, hodd, abs_neg] at this
    exact this rfl

/-- C94: the value the loop ends with is the value after some number of passes of Newton's method, each operation rounded. -/
theorem C94_newton (F : Flt) (e M E : ℝ) (fuel : ℕ) (h : keplerLoopF F fuel e M M (F.rnd (M + 1)) 0 1 = .ok (some E)) : ∃ n ≤ fuel, E = newtonF F e M n := by
  have gen : ∀ (fuel n : ℕ) (ek1 prv cur : ℝ), keplerLoopF F fuel e M (newtonF F e M n) ek1 prv cur = .ok (some E) → ∃ k ≤ n + fuel, E = newtonF F e M k := by
    intro fuel
    induction fuel with
    | zero =>
      intro n ek1 prv cur h
      unfold keplerLoopF at h
      split at h
      · cases h; exact ⟨n, le_rfl, rfl⟩
      · cases h
    | succ k ih =>
      intro n ek1 prv cur h
      unfold keplerLoopF at h
      split at h
      · cases h; exact ⟨n, by omega, rfl⟩
      · simp only at h
        by_cases hd : F.rnd (1 - F.rnd (e * F.cos (newtonF F e M n))) = 0
        · unfold divF at h; rw [if_pos hd] at h; cases h
        · rw [divF_ok _ _ _ hd] at h
          obtain ⟨j, hj, hE⟩ := ih (n + 1) _ _ _ h
          exact ⟨j, by omega, hE⟩
  obtain ⟨k, hk, hE⟩ := gen fuel 0 _ _ _ h
  exact ⟨k, by omega, hE⟩

/-- C94: binary64 with a correctly rounding C library meets the hypotheses; with the eccentricity 0.01, at perigee, the loop ends after two passes -/
theorem C94_example : Accurate Flt.binary64 ∧ (∀ x, Flt.binary64.rnd (-x) = -Flt.binary64.rnd x) ∧
    keplerLoopF Flt.binary64 2 0.01 0 0 (Flt.binary64.rnd (0 + 1)) 0 1 = .ok (some 0) := by
  have hv : ∀ n, newtonF Flt.binary64 0.01 0 n = 0 := by
    intro n
    induction n with
    | zero => rfl
    | succ n ih =>
      show Flt.binary64.rnd _ = 0
      rw [ih]
      simp [Flt.binary64, rnd_zero]
  obtain ⟨E, hE⟩ := C94_ends Flt.binary64 accurate_binary64 rnd_neg 0.01 0 (by norm_num) (by norm_num) (by norm_num) 0 (by rw [hv, hv])
  refine ⟨accurate_binary64, rnd_neg, ?_⟩
  obtain ⟨n, -, hn⟩ := C94_newton _ _ _ _ _ hE
  rw [hv] at hn
  subst hn
  exact hE

end Verif.Props
