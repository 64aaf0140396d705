import Verif.Props.Geo
import Mathlib.Analysis.Calculus.Deriv.MeanValue
/-!
# Properties C68, C69: satellite positions

All of this is about exact real arithmetic.
-/
namespace Verif.Props
open Verif.Py Verif.Model.Geo Verif.Spec.Geo Verif.Proofs.Geo Real

/-! ## Kepler's equation -/

/-- residual of Kepler's equation and the step of the iteration -/
noncomputable def keplerRes (e M E : ℝ) : ℝ := E - e * sin E - M
noncomputable def keplerStep (e M E : ℝ) : ℝ := keplerRes e M E / (1 - e * cos E)

theorem kepler_iff (e M E : ℝ) : Kepler e M E ↔ keplerRes e M E = 0 := by
  unfold Kepler keplerRes
  constructor <;> intro h <;> linarith

theorem kepler_slope (e E : ℝ) (h0 : 0 ≤ e) : 1 - e ≤ 1 - e * cos E ∧ 1 - e * cos E ≤ 1 + e := by
  have h1 := cos_le_one E
  have h2 := neg_one_le_cos E
  constructor <;> nlinarith

theorem hasDeriv_res (e M E : ℝ) : HasDerivAt (keplerRes e M) (1 - e * cos E) E := by
  have h := (((hasDerivAt_id E).sub ((hasDerivAt_sin E).const_mul e)).sub_const M)
  exact h

/-- distance of any value from a solution -/
theorem kepler_dist (e M E F : ℝ) (h0 : 0 ≤ e) (h : Kepler e M F) : (1 - e) * |E - F| ≤ |keplerRes e M E| := by
  have hs := abs_sin_sub E F
  have : keplerRes e M E = (E - F) - e * (sin E - sin F) := by
    unfold Kepler at h
    unfold keplerRes
    rw [← h]; ring
  rw [this]
  have h2 : |E - F| - |e * (sin E - sin F)| ≤ |(E - F) - e * (sin E - sin F)| := abs_sub_abs_le_abs_sub _ _
  rw [abs_mul, abs_of_nonneg h0] at h2
  nlinarith

theorem sin_second_order_nonneg (E d : ℝ) (hd : 0 ≤ d) : |sin E - d * cos E - sin (E - d)| ≤ d ^ 2 / 2 := by
  have hder : ∀ t, HasDerivAt (fun t => sin E - t * cos E - sin (E - t)) (-cos E + cos (E - t)) t := by
    intro t
    have h1 : HasDerivAt (fun t : ℝ => E - t) (-1) t := by simpa using (hasDerivAt_id t).const_sub E
    have h2 := (((hasDerivAt_id t).mul_const (cos E)).const_sub (sin E)).sub h1.sin
    refine HasDerivAt.congr_deriv h2 ?_
    ring
  have hsq : ∀ t : ℝ, HasDerivAt (fun t => t ^ 2 / 2) t t := by
    intro t
    refine HasDerivAt.congr_deriv (((hasDerivAt_id t).pow 2).div_const 2) ?_
    simp
  have hb : ∀ t, 0 ≤ t → |(-cos E + cos (E - t))| ≤ t := by
    intro t ht
    have := abs_cos_sub (E - t) E
    rw [show -cos E + cos (E - t) = cos (E - t) - cos E by ring]
    refine this.trans ?_
    rw [show E - t - E = -t by ring, abs_neg, abs_of_nonneg ht]
  have m1 : MonotoneOn (fun t : ℝ => t ^ 2 / 2 + (sin E - t * cos E - sin (E - t))) (Set.Ici 0) := by
    apply monotoneOn_of_deriv_nonneg (convex_Ici 0)
    · exact fun t _ => ((hsq t).add (hder t)).continuousAt.continuousWithinAt
    · exact fun t _ => ((hsq t).add (hder t)).differentiableAt.differentiableWithinAt
    · intro t ht
      rw [interior_Ici] at ht
      rw [(show HasDerivAt (fun t : ℝ => t ^ 2 / 2 + (sin E - t * cos E - sin (E - t))) _ t from (hsq t).add (hder t)).deriv]
      have := (abs_le.1 (hb t (Set.mem_Ioi.1 ht).le)).1
      linarith
  have m2 : MonotoneOn (fun t : ℝ => t ^ 2 / 2 - (sin E - t * cos E - sin (E - t))) (Set.Ici 0) := by
    apply monotoneOn_of_deriv_nonneg (convex_Ici 0)
    · exact fun t _ => ((hsq t).sub (hder t)).continuousAt.continuousWithinAt
    · exact fun t _ => ((hsq t).sub (hder t)).differentiableAt.differentiableWithinAt
    · intro t ht
      rw [interior_Ici] at ht
      rw [(show HasDerivAt (fun t : ℝ => t ^ 2 / 2 - (sin E - t * cos E - sin (E - t))) _ t from (hsq t).sub (hder t)).deriv]
      have := (abs_le.1 (hb t (Set.mem_Ioi.1 ht).le)).2
      linarith
  have a1 := m1 (Set.mem_Ici.2 le_rfl) (Set.mem_Ici.2 hd) hd
  have a2 := m2 (Set.mem_Ici.2 le_rfl) (Set.mem_Ici.2 hd) hd
  simp only [zero_mul, sub_zero, sub_self] at a1 a2
  norm_num at a1 a2
  rw [abs_le]
  constructor <;> linarith

theorem sin_second_order (E d : ℝ) : |sin E - d * cos E - sin (E - d)| ≤ d ^ 2 / 2 := by
  rcases le_total 0 d with h | h
  · exact sin_second_order_nonneg E d h
  · have := sin_second_order_nonneg (π - E) (-d) (by linarith)
    rw [sin_pi_sub, cos_pi_sub, show π - E - -d = π - (E - d) by ring, sin_pi_sub] at this
    simpa using this

/-- one step makes the residual quadratically small -/
theorem kepler_quadratic (e M E : ℝ) (h0 : 0 ≤ e) (h1 : e < 1) : |keplerRes e M (E - keplerStep e M E)| ≤ e / 2 * keplerStep e M E ^ 2 := by
  obtain ⟨hs1, -⟩ := kepler_slope e E h0
  have hpos : 0 < 1 - e * cos E := by linarith
  have hd : keplerRes e M E = keplerStep e M E * (1 - e * cos E) := by unfold keplerStep; field_simp
  set d := keplerStep e M E
  -- residual after the step is e (sin E - d cos E - sin (E - d))
  have heq : keplerRes e M (E - d) = e * (sin E - d * cos E - sin (E - d)) := by
    unfold keplerRes at hd ⊢
    linear_combination hd
  rw [heq, abs_mul, abs_of_nonneg h0]
  have key := sin_second_order E d
  calc e * |sin E - d * cos E - sin (E - d)| ≤ e * (d ^ 2 / 2) := by gcongr
    _ = _ := by ring

theorem kepler_next (e M E : ℝ) (h0 : 0 ≤ e) (h1 : e < 1 / 2) :
    |keplerStep e M (E - keplerStep e M E)| ≤ 1 / 2 * keplerStep e M E ^ 2 := by
  have hq := kepler_quadratic e M E h0 (by linarith)
  obtain ⟨hs1, -⟩ := kepler_slope e (E - keplerStep e M E) h0
  set d := keplerStep e M E
  unfold keplerStep
  rw [abs_div, abs_of_pos (by linarith : 0 < 1 - e * cos (E - d)), div_le_iff₀ (by linarith)]
  nlinarith [sq_nonneg d]

theorem keplerStep_zero (e M : ℝ) (h0 : 0 ≤ e) (h1 : e < 1 / 2) : |keplerStep e M M| < 1 := by
  obtain ⟨hs1, -⟩ := kepler_slope e M h0
  unfold keplerStep keplerRes
  rw [abs_div, abs_of_pos (by linarith : 0 < 1 - e * cos M), div_lt_one (by linarith)]
  have h := abs_sin_le_one M
  rw [show M - e * sin M - M = -(e * sin M) by ring, abs_neg, abs_mul, abs_of_nonneg h0]
  nlinarith [abs_nonneg (sin M)]

theorem keplerStep_small (e M : ℝ) (h0 : 0 ≤ e) (h1 : e < 1 / 2) (n : ℕ) : |keplerStep e M (newton e M n)| ≤ (1 / 2) ^ (2 ^ n - 1) := by
  induction n with
  | zero => simpa [newton] using (keplerStep_zero e M h0 h1).le
  | succ n ih =>
    have h := kepler_next e M (newton e M n) h0 h1
    refine h.trans ?_
    rw [← sq_abs]
    calc 1 / 2 * |keplerStep e M (newton e M n)| ^ 2 ≤ 1 / 2 * ((1 / 2) ^ (2 ^ n - 1)) ^ 2 := by gcongr
      _ = (1 / 2) ^ (2 ^ (n + 1) - 1) := by
        rw [← pow_mul, ← pow_succ']
        congr 1
        have : 1 ≤ 2 ^ n := Nat.one_le_two_pow
        rw [pow_succ]
        omega

theorem loop_step (fuel : ℕ) (e M ek ek1 prv cur : ℝ) (h0 : 0 ≤ e) (h1 : e < 1) (hne : prv ≠ cur) :
    keplerLoop (fuel + 1) e M ek ek1 prv cur = keplerLoop fuel e M (ek - keplerStep e M ek) ek |ek - ek1| |keplerStep e M ek| := by
  obtain ⟨hs, -⟩ := kepler_slope e ek h0
  conv_lhs => rw [keplerLoop]
  rw [if_neg hne, pyDiv_ok _ _ (by linarith)]
  simp only
  rw [show (ek - e * sin ek - M) / (1 - e * cos ek) = keplerStep e M ek from rfl, show ek - keplerStep e M ek - ek = -keplerStep e M ek by ring, abs_neg]

theorem loop_zero (e M ek ek1 prv cur : ℝ) (hne : prv ≠ cur) : keplerLoop 0 e M ek ek1 prv cur = .ok none := by
  rw [keplerLoop, if_neg hne]

theorem loop_end (fuel : ℕ) (e M ek ek1 prv cur : ℝ) (h : prv = cur) : keplerLoop fuel e M ek ek1 prv cur = .ok (some ek) := by
  rw [keplerLoop.eq_def]; simp only; rw [if_pos h]

theorem loop_kepler (e M : ℝ) (h0 : 0 ≤ e) (h1 : e < 1 / 2) (fuel : ℕ) : ∀ (ek1 prv E : ℝ), |keplerStep e M ek1| < 1 →
    (prv = |keplerStep e M ek1| → keplerStep e M ek1 = 0) →
    keplerLoop fuel e M (ek1 - keplerStep e M ek1) ek1 prv |keplerStep e M ek1| = .ok (some E) → Kepler e M E := by
  induction fuel with
  | zero =>
    intro ek1 prv E hlt hz h
    by_cases hp : prv = |keplerStep e M ek1|
    · rw [loop_end _ _ _ _ _ _ _ hp] at h
      cases h
      have hz := hz hp
      rw [hz, sub_zero, kepler_iff]
      obtain ⟨hs, -⟩ := kepler_slope e ek1 h0
      unfold keplerStep at hz
      exact (div_eq_zero_iff.1 hz).resolve_right (by linarith)
    · rw [loop_zero _ _ _ _ _ _ hp] at h; cases h
  | succ fuel ih =>
    intro ek1 prv E hlt hz h
    by_cases hp : prv = |keplerStep e M ek1|
    · rw [loop_end _ _ _ _ _ _ _ hp] at h
      cases h
      have hz := hz hp
      rw [hz, sub_zero, kepler_iff]
      obtain ⟨hs, -⟩ := kepler_slope e ek1 h0
      unfold keplerStep at hz
      exact (div_eq_zero_iff.1 hz).resolve_right (by linarith)
    · rw [loop_step _ _ _ _ _ _ _ h0 (by linarith) hp] at h
      rw [show ek1 - keplerStep e M ek1 - ek1 = -keplerStep e M ek1 by ring, abs_neg] at h
      have hq := kepler_next e M ek1 h0 h1
      rw [← sq_abs] at hq
      have hn := abs_nonneg (keplerStep e M ek1)
      refine ih _ _ E ?_ ?_ h
      · nlinarith
      · intro heq
        rw [← heq] at hq
        have : |keplerStep e M ek1| = 0 := by nlinarith
        rw [this] at heq
        exact abs_eq_zero.1 heq.symm

theorem loop_newton (e M : ℝ) (h0 : 0 ≤ e) (h1 : e < 1) (fuel : ℕ) : ∀ (n : ℕ) (ek1 prv cur E : ℝ),
    keplerLoop fuel e M (newton e M n) ek1 prv cur = .ok (some E) → ∃ m, E = newton e M m := by
  induction fuel with
  | zero =>
    intro n ek1 prv cur E h
    by_cases hp : prv = cur
    · rw [loop_end _ _ _ _ _ _ _ hp] at h; cases h; exact ⟨n, rfl⟩
    · rw [loop_zero _ _ _ _ _ _ hp] at h; cases h
  | succ fuel ih =>
    intro n ek1 prv cur E h
    by_cases hp : prv = cur
    · rw [loop_end _ _ _ _ _ _ _ hp] at h; cases h; exact ⟨n, rfl⟩
    · rw [loop_step _ _ _ _ _ _ _ h0 h1 hp] at h
      exact ih (n + 1) _ _ _ E h

/-- C68: for an eccentricity below 1/2, when the iteration ends Kepler's equation holds exactly. -/
theorem C68_kepler (fuel : ℕ) (e M E : ℝ) (h0 : 0 ≤ e) (h1 : e < 1 / 2) (h : keplerLoop fuel e M M (M + 1) 0 1 = .ok (some E)) : Kepler e M E := by
  cases fuel with
  | zero => rw [loop_zero _ _ _ _ _ _ (by norm_num)] at h; cases h
  | succ fuel =>
    rw [loop_step _ _ _ _ _ _ _ h0 (by linarith) (by norm_num)] at h
    have hz := keplerStep_zero e M h0 h1
    rw [show M - (M + 1) = -1 by ring, abs_neg, abs_one] at h
    refine loop_kepler e M h0 h1 fuel M 1 E hz ?_ h
    intro h'; rw [← h'] at hz; exact absurd hz (lt_irrefl _)

/-- C68: Kepler's equation has exactly one solution; the values of the iteration are Newton's method, they approach the solution quadratically: after `n`
passes the distance is at most 3·2^(1−2^n). -/
theorem C68_converges (e M : ℝ) (h0 : 0 ≤ e) (h1 : e < 1 / 2) :
    (∃! E, Kepler e M E) ∧ (∀ E, Kepler e M E → ∀ n, |newton e M n - E| ≤ 3 * (1 / 2) ^ (2 ^ n - 1)) ∧
    (∀ fuel E, keplerLoop fuel e M M (M + 1) 0 1 = .ok (some E) → ∃ n, E = newton e M n) := by
  refine ⟨?_, ?_, ?_⟩
  · have hc : ContractingWith (Real.toNNReal e) (fun E => M + e * sin E) := by
      refine ⟨?_, ?_⟩
      · rw [← NNReal.coe_lt_coe, Real.coe_toNNReal _ h0]; norm_num; linarith
      · refine LipschitzWith.of_dist_le_mul fun b c => ?_
        rw [Real.dist_eq, Real.dist_eq, Real.coe_toNNReal _ h0, show M + e * sin b - (M + e * sin c) = e * (sin b - sin c) by ring, abs_mul, abs_of_nonneg h0]
        exact mul_le_mul_of_nonneg_left (abs_sin_sub b c) h0
    have hf : M + e * sin (hc.fixedPoint _) = hc.fixedPoint _ := hc.fixedPoint_isFixedPt
    refine ⟨hc.fixedPoint _, ?_, ?_⟩
    · show _ - _ = M
      linarith
    · intro E hE
      have := kepler_dist e M (hc.fixedPoint _) E h0 hE
      have hz : keplerRes e M (hc.fixedPoint _) = 0 := by unfold keplerRes; linarith
      rw [hz, abs_zero] at this
      have h2 : |hc.fixedPoint _ - E| = 0 := by
        have := abs_nonneg (hc.fixedPoint _ - E)
        nlinarith
      linarith [abs_eq_zero.1 h2]
  · intro E hE n
    have hd := kepler_dist e M (newton e M n) E h0 hE
    obtain ⟨hs1, hs2⟩ := kepler_slope e (newton e M n) h0
    have hst := keplerStep_small e M h0 h1 n
    have hres : |keplerRes e M (newton e M n)| = |keplerStep e M (newton e M n)| * (1 - e * cos (newton e M n)) := by
      unfold keplerStep
      rw [abs_div, abs_of_pos (by linarith : 0 < 1 - e * cos (newton e M n)), div_mul_cancel₀ _ (by linarith)]
    rw [hres] at hd
    have h3 : |keplerStep e M (newton e M n)| * (1 - e * cos (newton e M n)) ≤ (1 / 2) ^ (2 ^ n - 1) * (1 + e) :=
      mul_le_mul hst hs2 (by linarith) (by positivity)
    have hp : (0 : ℝ) < (1 / 2) ^ (2 ^ n - 1) := by positivity
    nlinarith [abs_nonneg (newton e M n - E)]
  · intro fuel E h
    exact loop_newton e M h0 (by linarith) fuel 0 _ _ _ E h

/-! ## the GPS position -/

/-- the true anomaly of the code is the true anomaly -/
theorem trueAnomaly_atan2 (e E : ℝ) (h0 : 0 ≤ e) (h1 : e < 1) :
    TrueAnomaly e E (atan2 (√(1 - e ^ 2) * sin E / (1 - e * cos E)) ((cos E - e) / (1 - e * cos E))) := by
  obtain ⟨hs, -⟩ := kepler_slope e E h0
  have hp : 0 < 1 - e * cos E := by linarith
  have hss : √(1 - e ^ 2) ^ 2 = 1 - e ^ 2 := Real.sq_sqrt (by nlinarith)
  have hnorm : √(((cos E - e) / (1 - e * cos E)) ^ 2 + (√(1 - e ^ 2) * sin E / (1 - e * cos E)) ^ 2) = 1 := by
    rw [Real.sqrt_eq_one]
    rw [div_pow, div_pow, mul_pow, hss, ← add_div, div_eq_one_iff_eq (by positivity)]
    linear_combination (1 - e ^ 2) * sin_sq_add_cos_sq E
  have hc := atan2_cos (√(1 - e ^ 2) * sin E / (1 - e * cos E)) ((cos E - e) / (1 - e * cos E))
  have hsn := atan2_sin (√(1 - e ^ 2) * sin E / (1 - e * cos E)) ((cos E - e) / (1 - e * cos E))
  rw [hnorm, one_mul] at hc hsn
  unfold TrueAnomaly
  rw [hc, hsn]
  constructor <;> field_simp

/-- the two usual formulas of the radius agree (about the specification only) -/
theorem orbitRadius_eq (a e E v : ℝ) (h0 : 0 ≤ e) (h1 : e < 1) (h : TrueAnomaly e E v) : orbitRadius a e v = a * (1 - e * cos E) := by
  obtain ⟨hs, -⟩ := kepler_slope e E h0
  have hp : 0 < 1 - e * cos E := by linarith
  have hpe : (0 : ℝ) < 1 - e ^ 2 := by nlinarith
  have hv : (1 - e * cos E) * (1 + e * cos v) = 1 - e ^ 2 := by linear_combination e * h.1
  have hne : 1 + e * cos v ≠ 0 := by
    intro h'; rw [h', mul_zero] at hv; linarith
  unfold orbitRadius
  rw [div_eq_iff hne, ← hv]
  ring

theorem orbitPoint_len (r u i o : ℝ) : len (orbitPoint r u i o) = |r| := by
  unfold len
  rw [← Real.sqrt_sq_eq_abs]
  congr 1
  simp only [dot, orbitPoint]
  have h1 := sin_sq_add_cos_sq u
  have h2 := sin_sq_add_cos_sq i
  have h3 := sin_sq_add_cos_sq o
  linear_combination r ^ 2 * ((cos u ^ 2 + sin u ^ 2 * cos i ^ 2) * h3 + sin u ^ 2 * h2 + h1)

theorem point_and_len {p : Vec} {r u i o : ℝ} (h : p = orbitPoint r u i o) : p = orbitPoint r u i o ∧ len p = |r| :=
  ⟨h, by rw [h]; exact orbitPoint_len _ _ _ _⟩

/-- C68: the position computed is that of the IS-GPS-200 algorithm except for the distance from the centre, which is larger by 2 a e cos E. -/
theorem C68_position (fuel : ℕ) (o : Elements) (iode : ℝ) (rest : List ℝ) (sec : ℝ) (p : ℝ × ℝ × ℝ) (h0 : 0 ≤ o.e) (h1 : o.e < 1 / 2)
    (h : gpsSatXyz fuel (iode :: o.layout ++ rest) sec = .ok (some p)) :
    ∃ tk E v, ToWeek (sec - o.toe) tk ∧ Kepler o.e (meanAnomaly o tk) E ∧ TrueAnomaly o.e E v ∧
      p = orbitPoint (radius o E v + 2 * o.sqrtA ^ 2 * o.e * cos E) (argLat o v) (inclination o v tk) (nodeLon o tk) ∧
      len p = |radius o E v + 2 * o.sqrtA ^ 2 * o.e * cos E| := by
  obtain ⟨sqrtA, e, m0, w, i0, node, dn, nodeDot, iDot, cuc, cus, crc, crs, cic, cis, toe⟩ := o
  simp only at h0 h1
  simp only [Elements.layout, List.cons_append, List.nil_append, gpsSatXyz] at h
  set tk := (open Classical in if sec - toe > 302400 then sec - toe - 604800 else if sec - toe < -302400 then sec - toe + 604800 else sec - toe) with htk
  have htkW : ToWeek (sec - toe) tk := by
    rw [htk]
    split
    · refine ⟨.inr (.inl rfl), fun h => ?_⟩
      rw [abs_le] at h ⊢
      constructor <;> linarith [h.1, h.2]
    · split
      · refine ⟨.inr (.inr rfl), fun h => ?_⟩
        rw [abs_le] at h ⊢
        constructor <;> linarith [h.1, h.2]
      · refine ⟨.inl rfl, fun h => ?_⟩
        rw [abs_le]
        constructor <;> linarith
  have hmu : datumMu = earthMu := by unfold datumMu earthMu; norm_num
  have hom : datumOmega = earthOmega := rfl
  by_cases ha : (sqrtA ^ 2) ^ 3 = 0
  · rw [ha, pyDiv_zero] at h; cases h
  · rw [pyDiv_ok _ _ ha] at h
    simp only at h
    have hnn : 0 ≤ datumMu / (sqrtA ^ 2) ^ 3 := by
      have : 0 ≤ datumMu := by unfold datumMu; norm_num
      positivity
    rw [pySqrt_ok _ hnn] at h
    simp only at h
    cases hk : keplerLoop fuel e (m0 + (√(datumMu / (sqrtA ^ 2) ^ 3) + dn) * tk) (m0 + (√(datumMu / (sqrtA ^ 2) ^ 3) + dn) * tk)
        (m0 + (√(datumMu / (sqrtA ^ 2) ^ 3) + dn) * tk + 1) 0 1 with
    | error er => rw [hk] at h; cases h
    | ok r =>
      rw [hk] at h
      cases r with
      | none => cases h
      | some E =>
        simp only at h
        have hkep := C68_kepler fuel e _ E h0 h1 hk
        obtain ⟨hs, -⟩ := kepler_slope e E h0
        unfold gpsAfter at h
        rw [pySqrt_ok _ (by nlinarith)] at h
        simp only at h
        rw [pyDiv_ok _ _ (by linarith), pyDiv_ok _ _ (by linarith)] at h
        simp only at h
        have hta := trueAnomaly_atan2 e E h0 (by linarith)
        set v := atan2 (√(1 - e ^ 2) * sin E / (1 - e * cos E)) ((cos E - e) / (1 - e * cos E))
        cases h
        refine ⟨tk, E, v, htkW, ?_, hta, point_and_len ?_⟩
        · unfold meanAnomaly; rw [← hmu]; exact hkep
        · simp only [orbitPoint, radius, argLat, inclination, nodeLon, ← hom, Prod.mk.injEq]
          rw [show v + w + cuc * cos (2 * (v + w)) + cus * sin (2 * (v + w)) = v + w + cus * sin (2 * (v + w)) + cuc * cos (2 * (v + w)) by ring,
            show i0 + (cic * cos (2 * (v + w)) + cis * sin (2 * (v + w))) + iDot * tk = i0 + (cis * sin (2 * (v + w)) + cic * cos (2 * (v + w))) + iDot * tk by ring]
          refine ⟨?_, ?_, ?_⟩ <;> ring

/-- C68: with an orbit of eccentricity 0.01 at perigee, the position is at the distance a (1 + e) instead of a (1 − e) (531 km too far for a GPS orbit) -/
theorem C68_example : ∃ p, gpsSatXyz 2 (0 :: (⟨5153.6, 0.01, 0, 0, 0, 0, 0, 0, 0, 0, 0, 0, 0, 0, 0, 0⟩ : Elements).layout ++ [0, 0]) 0 = .ok (some p) ∧
    len p = 5153.6 ^ 2 * (1 + 0.01) ∧ ∀ v, TrueAnomaly 0.01 0 v → orbitRadius (5153.6 ^ 2) 0.01 v = 5153.6 ^ 2 * (1 - 0.01) := by
  have hk : keplerLoop 2 0.01 0 0 (0 + 1) 0 1 = .ok (some 0) := by
    have hz : keplerStep 0.01 0 0 = 0 := by unfold keplerStep keplerRes; simp
    rw [loop_step _ _ _ _ _ _ _ (by norm_num) (by norm_num) (by norm_num), hz, loop_step _ _ _ _ _ _ _ (by norm_num) (by norm_num) (by norm_num), sub_zero, hz,
      loop_end _ _ _ _ _ _ _ (by norm_num)]
    norm_num
  have hex : ∃ p, gpsSatXyz 2 (0 :: (⟨5153.6, 0.01, 0, 0, 0, 0, 0, 0, 0, 0, 0, 0, 0, 0, 0, 0⟩ : Elements).layout ++ [0, 0]) 0 = .ok (some p) := by
    simp only [Elements.layout, List.cons_append, List.nil_append, gpsSatXyz]
    rw [pyDiv_ok _ _ (by norm_num)]
    simp only
    rw [pySqrt_ok _ (by unfold datumMu; norm_num)]
    simp only
    rw [show (open Classical in if (0 : ℝ) - 0 > 302400 then (0 : ℝ) - 0 - 604800 else if (0 : ℝ) - 0 < -302400 then (0 : ℝ) - 0 + 604800 else (0 : ℝ) - 0) = 0 by norm_num,
      mul_zero, add_zero, hk]
    simp only
    unfold gpsAfter
    rw [pySqrt_ok _ (by norm_num)]
    simp only
    rw [pyDiv_ok _ _ (by simp; norm_num), pyDiv_ok _ _ (by simp; norm_num)]
    exact ⟨_, rfl⟩
  obtain ⟨p, hp⟩ := hex
  refine ⟨p, hp, ?_, ?_⟩
  · obtain ⟨tk, E, v, ⟨htk, hw⟩, hkep, -, -, hl⟩ := C68_position 2 ⟨5153.6, 0.01, 0, 0, 0, 0, 0, 0, 0, 0, 0, 0, 0, 0, 0, 0⟩ 0 [0, 0] 0 p (by norm_num) (by norm_num) hp
    have htk0 : tk = 0 := by
      have := hw (by norm_num)
      simp only at htk
      rw [abs_le] at this
      rcases htk with rfl | rfl | rfl
      · norm_num
      · norm_num at this
      · norm_num at this
    have hM : meanAnomaly ⟨5153.6, 0.01, 0, 0, 0, 0, 0, 0, 0, 0, 0, 0, 0, 0, 0, 0⟩ tk = 0 := by unfold meanAnomaly; rw [htk0]; simp
    rw [hM] at hkep
    have hE : E = 0 := (C68_converges 0.01 0 (by norm_num) (by norm_num)).1.unique hkep (by unfold Kepler; simp)
    rw [hl, hE]
    unfold radius
    simp only [cos_zero]
    rw [abs_of_pos (by norm_num)]
    norm_num
  · intro v hv
    rw [orbitRadius_eq _ _ 0 v (by norm_num) (by norm_num) hv, cos_zero, mul_one]

/-! ## C69 -/

/-- the accelerations of the three coordinates in the code, with the constants `q = mu / r³` and `s` of the oblateness -/
noncomputable def accX (q s r vY aX x z : ℝ) : ℝ := -q * x - s * x * (1 - 5 * z ^ 2 / r ^ 2) + datumOmega ^ 2 * x + 2 * datumOmega * vY + aX
noncomputable def accY (q s r vX aY y z : ℝ) : ℝ := -q * y - s * y * (1 - 5 * z ^ 2 / r ^ 2) + datumOmega ^ 2 * y - 2 * datumOmega * vX + aY
noncomputable def accZ (q s r aZ z : ℝ) : ℝ := -q * z - s * z * (3 - 5 * z ^ 2 / r ^ 2) + aZ

open Filter Topology in
theorem stage_limit (K2 K3 : ℝ → ℝ) (k c v : ℝ) (h2 : Continuous K2) (h3 : Continuous K3) (e2 : K2 0 = k) (e3 : K3 0 = k) :
    Tendsto (fun dt => 1 / dt * (c + v * dt + (k * dt + K2 dt * dt + K3 dt * dt) * dt / 6 - c)) (𝓝[≠] 0) (𝓝 v) ∧
    Tendsto (fun dt => 2 / dt ^ 2 * (c + v * dt + (k * dt + K2 dt * dt + K3 dt * dt) * dt / 6 - c - dt * v)) (𝓝[≠] 0) (𝓝 k) := by
  have hne : ∀ᶠ dt : ℝ in 𝓝[≠] 0, dt ≠ 0 := eventually_mem_nhdsWithin
  constructor
  · have hc : Tendsto (fun dt : ℝ => v + (k + K2 dt + K3 dt) * dt / 6) (𝓝[≠] 0) (𝓝 (v + (k + K2 0 + K3 0) * 0 / 6)) :=
      (Continuous.tendsto (by fun_prop) 0).mono_left nhdsWithin_le_nhds
    rw [mul_zero, zero_div, add_zero] at hc
    refine hc.congr' ?_
    filter_upwards [hne] with dt hdt
    field_simp
    ring
  · have hc : Tendsto (fun dt : ℝ => (k + K2 dt + K3 dt) / 3) (𝓝[≠] 0) (𝓝 ((k + K2 0 + K3 0) / 3)) :=
      (Continuous.tendsto (by fun_prop) 0).mono_left nhdsWithin_le_nhds
    rw [e2, e3, show (k + k + k) / 3 = k by ring] at hc
    refine hc.congr' ?_
    filter_upwards [hne] with dt hdt
    field_simp
    ring

open Filter Topology in
set_option maxHeartbeats 1000000 in
/-- C69: the position as a function of the time from the reference time: at the reference time the broadcast position in metres; it is continuous, starts with
the broadcast velocity and with the acceleration of the equations of motion of the ICD. -/
theorem C69_motion (p v w : Vec) (health freq : ℝ) (rest : List ℝ) (hp : p ≠ (0, 0, 0)) :
    ∃ P : ℝ → Vec, (∀ dt, glonassSatXyz (broadcastLayout p v w health freq ++ rest) dt = .ok (P dt)) ∧ P 0 = scale 1000 p ∧ Continuous P ∧
      Tendsto (fun dt => scale (1 / dt) (sub (P dt) (scale 1000 p))) (𝓝[≠] 0) (𝓝 (scale 1000 v)) ∧
      Tendsto (fun dt => scale (2 / dt ^ 2) (sub (sub (P dt) (scale 1000 p)) (scale dt (scale 1000 v)))) (𝓝[≠] 0)
        (𝓝 (acceleration earthMu iccRadius iccJ2 earthOmega (scale 1000 p) (scale 1000 v) (scale 1000 w))) := by
  obtain ⟨px, py, pz⟩ := p
  obtain ⟨vx, vy, vz⟩ := v
  obtain ⟨wx, wy, wz⟩ := w
  have hlen : √((px * 1000) ^ 2 + (py * 1000) ^ 2 + (pz * 1000) ^ 2) = len (scale 1000 (px, py, pz)) := by
    unfold len dot scale; simp only; congr 1; ring
  have hr : 0 < len (scale 1000 (px, py, pz)) := by
    rw [← hlen]
    apply Real.sqrt_pos.2
    by_contra hn
    apply hp
    have hx : px ^ 2 = 0 := by nlinarith [sq_nonneg px, sq_nonneg py, sq_nonneg pz]
    have hy : py ^ 2 = 0 := by nlinarith [sq_nonneg px, sq_nonneg py, sq_nonneg pz]
    have hz : pz ^ 2 = 0 := by nlinarith [sq_nonneg px, sq_nonneg py, sq_nonneg pz]
    simp only [ne_eq, OfNat.ofNat_ne_zero, not_false_eq_true, pow_eq_zero_iff] at hx hy hz
    rw [hx, hy, hz]
  set r := len (scale 1000 (px, py, pz)) with hrdef
  set q := datumMu / r ^ 3 with hq
  set s := 3 / 2 * datumJ0sqd * datumMu * datumAe ^ 2 / r ^ 5 with hs
  set kx := accX q s r (vy * 1000) (wx * 1000) (px * 1000) (pz * 1000) with hkx
  set ky := accY q s r (vx * 1000) (wy * 1000) (py * 1000) (pz * 1000) with hky
  set kz := accZ q s r (wz * 1000) (pz * 1000) with hkz
  let x1 : ℝ → ℝ := fun dt => px * 1000 + vx * 1000 * dt / 2 + kx * dt * dt / 8
  let y1 : ℝ → ℝ := fun dt => py * 1000 + vy * 1000 * dt / 2 + ky * dt * dt / 8
  let z1 : ℝ → ℝ := fun dt => pz * 1000 + vz * 1000 * dt / 2 + kz * dt * dt / 8
  let kx2 : ℝ → ℝ := fun dt => accX q s r (vy * 1000) (wx * 1000) (x1 dt) (z1 dt)
  let ky2 : ℝ → ℝ := fun dt => accY q s r (vx * 1000) (wy * 1000) (y1 dt) (z1 dt)
  let kz2 : ℝ → ℝ := fun dt => accZ q s r (wz * 1000) (z1 dt)
  let x2 : ℝ → ℝ := fun dt => px * 1000 + vx * 1000 * dt / 2 + kx2 dt * dt * dt / 8
  let y2 : ℝ → ℝ := fun dt => py * 1000 + vy * 1000 * dt / 2 + ky2 dt * dt * dt / 8
  let z2 : ℝ → ℝ := fun dt => pz * 1000 + vz * 1000 * dt / 2 + kz2 dt * dt * dt / 8
  let kx3 : ℝ → ℝ := fun dt => accX q s r (vy * 1000) (wx * 1000) (x2 dt) (z2 dt)
  let ky3 : ℝ → ℝ := fun dt => accY q s r (vx * 1000) (wy * 1000) (y2 dt) (z2 dt)
  let kz3 : ℝ → ℝ := fun dt => accZ q s r (wz * 1000) (z2 dt)
  let X : ℝ → ℝ := fun dt => px * 1000 + vx * 1000 * dt + (kx * dt + kx2 dt * dt + kx3 dt * dt) * dt / 6
  let Y : ℝ → ℝ := fun dt => py * 1000 + vy * 1000 * dt + (ky * dt + ky2 dt * dt + ky3 dt * dt) * dt / 6
  let Z : ℝ → ℝ := fun dt => pz * 1000 + vz * 1000 * dt + (kz * dt + kz2 dt * dt + kz3 dt * dt) * dt / 6
  have caX : ∀ f g : ℝ → ℝ, Continuous f → Continuous g → Continuous fun t => accX q s r (vy * 1000) (wx * 1000) (f t) (g t) := by
    intro f g hf hg; unfold accX; fun_prop
  have caY : ∀ f g : ℝ → ℝ, Continuous f → Continuous g → Continuous fun t => accY q s r (vx * 1000) (wy * 1000) (f t) (g t) := by
    intro f g hf hg; unfold accY; fun_prop
  have caZ : ∀ g : ℝ → ℝ, Continuous g → Continuous fun t => accZ q s r (wz * 1000) (g t) := by
    intro g hg; unfold accZ; fun_prop
  have c1x : Continuous x1 := by fun_prop
  have c1y : Continuous y1 := by fun_prop
  have c1z : Continuous z1 := by fun_prop
  have ck2x : Continuous kx2 := caX _ _ c1x c1z
  have ck2y : Continuous ky2 := caY _ _ c1y c1z
  have ck2z : Continuous kz2 := caZ _ c1z
  have c2x : Continuous x2 := by fun_prop
  have c2y : Continuous y2 := by fun_prop
  have c2z : Continuous z2 := by fun_prop
  have ck3x : Continuous kx3 := caX _ _ c2x c2z
  have ck3y : Continuous ky3 := caY _ _ c2y c2z
  have ck3z : Continuous kz3 := caZ _ c2z
  have hX := stage_limit kx2 kx3 kx (px * 1000) (vx * 1000) ck2x ck3x (by simp [kx2, x1, z1, hkx]) (by simp [kx3, x2, z2, hkx])
  have hY := stage_limit ky2 ky3 ky (py * 1000) (vy * 1000) ck2y ck3y (by simp [ky2, y1, z1, hky]) (by simp [ky3, y2, z2, hky])
  have hZ := stage_limit kz2 kz3 kz (pz * 1000) (vz * 1000) ck2z ck3z (by simp [kz2, z1, hkz]) (by simp [kz3, z2, hkz])
  have hacc : acceleration earthMu iccRadius iccJ2 earthOmega (scale 1000 (px, py, pz)) (scale 1000 (vx, vy, vz)) (scale 1000 (wx, wy, wz)) = (kx, ky, kz) := by
    have m1 : earthMu = datumMu := by unfold datumMu earthMu; norm_num
    have m2 : iccRadius = datumAe := rfl
    have m3 : iccJ2 = datumJ0sqd := by unfold iccJ2 datumJ0sqd; norm_num
    have m4 : earthOmega = datumOmega := rfl
    rw [m1, m2, m3, m4]
    unfold acceleration
    rw [← hrdef, hkx, hky, hkz, hq, hs]
    clear_value r
    simp only [accX, accY, accZ, scale, Prod.mk.injEq]
    refine ⟨?_, ?_, ?_⟩ <;> ring
  have ep : scale 1000 (px, py, pz) = (px * 1000, py * 1000, pz * 1000) := by unfold scale; simp only [mul_comm]
  have ev : scale 1000 (vx, vy, vz) = (vx * 1000, vy * 1000, vz * 1000) := by unfold scale; simp only [mul_comm]
  refine ⟨fun dt => (X dt, Y dt, Z dt), ?_, ?_, ?_, ?_, ?_⟩
  · intro dt
    simp only [broadcastLayout, List.cons_append, List.nil_append, glonassSatXyz]
    by_cases hdt : dt = 0
    · rw [if_pos hdt, hdt]
      simp [X, Y, Z]
    · rw [if_neg hdt, pySqrt_ok _ (by positivity), hlen]
      simp only
      rw [pyDiv_ok _ _ (by positivity)]
      simp only
      rw [pyDiv_ok _ _ (by positivity)]
      rfl
  · rw [ep]
    simp only [X, Y, Z, mul_zero, add_zero, zero_div]
  · have cX : Continuous X := by fun_prop
    have cY : Continuous Y := by fun_prop
    have cZ : Continuous Z := by fun_prop
    exact cX.prodMk (cY.prodMk cZ)
  · have h := hX.1.prodMk_nhds (hY.1.prodMk_nhds hZ.1)
    rw [ep, ev]
    exact h
  · have h := hX.2.prodMk_nhds (hY.2.prodMk_nhds hZ.2)
    rw [hacc, ep, ev]
    exact h

/-- C69: a message with the position at the centre of the Earth is an error except at the reference time. -/
theorem C69_centre (v w : Vec) (health freq : ℝ) (rest : List ℝ) (dt : ℝ) (h : dt ≠ 0) :
    glonassSatXyz (broadcastLayout (0, 0, 0) v w health freq ++ rest) dt = .error .zeroDiv := by
  simp only [broadcastLayout, List.cons_append, List.nil_append, glonassSatXyz]
  rw [if_neg h, pySqrt_ok _ (by positivity)]
  simp only
  rw [show √(((0 : ℝ) * 1000) ^ 2 + (0 * 1000) ^ 2 + (0 * 1000) ^ 2) ^ 3 = 0 by simp, pyDiv_zero]

/-- C69: the position functions of `geo.py` and `glonass.py` agree; the program uses the latter for both systems. -/
theorem C69_geo (fuel : ℕ) (eph : List ℝ) (dt : ℝ) : geoSatXyz eph dt = glonassSatXyz eph dt ∧ satXyz fuel 'S' eph dt = satXyz fuel 'R' eph dt :=
  ⟨rfl, rfl⟩

end Verif.Props
